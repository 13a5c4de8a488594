import Verif.Props.MpcEasy
import Verif.Props.RealDemo

/-!
# Solutions of the load flow of ANM6, given by currents

For chosen currents at the buses 3, 4 and 5 of ANM6 the voltages and powers follow without solving an equation.  A
linear solver that steps to such a solution makes the load flow converge; with it, whole episodes of ANM6Easy can be
played in the model (`EasyPlay.lean`).
-/

namespace Anm

open Spec Complex ComplexConjugate

noncomputable section

/-! ### What the load flow leaves behind, in terms of its last guess -/

section
variable {o : LFOracle} {qp : QP ℝ} {pi : ℝ} {s s' : Sim ℝ} {a : Sim.Args ℝ} {out : Sim.TransOut ℝ} {m : ℕ}
  {ls : List LineC}

/-- The electrical state after a transition is that of the last guess of the load flow. -/
theorem transition_guess (hn : Numbered s m) (hl : FiniteLines s ls) (hs : SimpleLines ls)
    (he : EndsIn m ls) (h : s.transition ⟨qp, realPF o, pi⟩ a = .ok (s', out)) :
    ∃ p q : Fin m → X ℝ, (∀ k, ∃ b ∈ s'.buses, b.id = k.1 + 1 ∧ b.isSlack = false ∧ p k = b.p ∧ q k = b.q) ∧
      out.converged = NR.stable xtol (NR.run o (ymat m ls) p q xtol) ∧
      ∀ g, (NR.run o (ymat m ls) p q xtol).guess = some g → Solved s' ls (atId (NR.volt g)) := by
  obtain ⟨ds, po, I⟩ := transition_ok h
  have P := I.solve.pf
  have A := I.solve.apply
  set s1 : Sim ℝ := { s with devices := ds, buses := s.buses.map (Sim.busInjections ds) } with hs1
  have hids : s1.pfIn.buses.map (·.1) = (List.range (m + 1)).map Int.ofNat := by
    rw [← hn.ids]
    simp [hs1, Sim.pfIn, Sim.busInjections, Function.comp_def]
  have hids1 : s1.buses.map Bus.id = (List.range (m + 1)).map Int.ofNat := by
    rw [← hn.ids]
    simp [hs1, Sim.busInjections, Function.comp_def]
  have hsl1 : ∀ b ∈ s1.buses, b.isSlack = true ↔ b.id = 0 := by
    intro b hb
    obtain ⟨b0, hb0, rfl⟩ := List.mem_map.1 hb
    exact hn.slack b0 hb0
  have hsl : ∀ b ∈ s1.pfIn.buses, b.2.1 = true ↔ b.1 = 0 := by
    intro b hb
    obtain ⟨b0, hb0, rfl⟩ := List.mem_map.1 hb
    exact hsl1 b0 hb0
  have hlin : mapO Line.finite? s1.pfIn.lines = some ls := by
    rw [mapO_forall₂]
    exact List.forall₂_map_left_iff.2 hl
  obtain ⟨pq, hpf, hpq⟩ := realPF_numbered o hids hn.pos hsl hlin
  have P' : realPF o s1.pfIn = .ok po := P
  rw [hpf] at P'
  injection P' with P'
  have hlen : s1.buses.length = m + 1 := length_of_ids hids1
  have hbus : ∀ b' ∈ s'.buses, ∃ (k : ℕ) (b : Bus ℝ), s1.buses[k]? = some b ∧ b.id = k ∧ k < m + 1 ∧ b' = { b with
      v := po.v k, i := po.i k
      p := if b.isSlack then Sim.nanToInf po.slackP else b.p
      q := if b.isSlack then Sim.nanToInf po.slackQ else b.q } := by
    intro b' hb'
    rw [A.buses] at hb'
    obtain ⟨k, hk⟩ := List.mem_iff_getElem?.1 hb'
    rw [List.getElem?_mapIdx] at hk
    cases hb : s1.buses[k]? with
    | none => simp [hb] at hk
    | some b =>
      simp only [hb, Option.map_some, Option.some.injEq] at hk
      exact ⟨k, b, hb, (get_id hids1 hb).1, (get_id hids1 hb).2, hk.symm⟩
  unfold solveFinite at P'
  refine ⟨fun k => (pq k).1, fun k => (pq k).2, ?_, ?_, ?_⟩
  · intro k
    have hk : k.1 + 1 < s1.buses.length := by omega
    have hb : s1.buses[k.1 + 1]? = some (s1.buses[k.1 + 1]'hk) := by simp [hk]
    set b := s1.buses[k.1 + 1]'hk
    have hid := (get_id hids1 hb).1
    have hbs : b.isSlack = false := by
      by_contra hc
      have := (hsl1 b (List.mem_of_getElem? hb)).1 (by simpa using hc)
      omega
    have e := hpq k (b.id, b.isSlack, b.p, b.q) (by simp [Sim.pfIn, hb])
    refine ⟨{ b with v := po.v (k.1 + 1), i := po.i (k.1 + 1) }, ?_, by simpa using hid, hbs, by simp [e], by simp [e]⟩
    rw [A.buses]
    refine List.mem_of_getElem? (i := k.1 + 1) ?_
    rw [List.getElem?_mapIdx, hb]
    simp [hbs]
  · rw [I.converged]
    cases hg : (NR.run o (ymat m ls) (fun k => (pq k).1) (fun k => (pq k).2) xtol).guess with
    | none =>
      simp only [hg] at P'
      rw [← P']
    | some g =>
      simp only [hg] at P'
      rw [← P']
      rfl
  · intro g hg
    simp only [hg] at P'
    refine ⟨?_, ?_, ?_, ?_, ?_⟩
    · exact (atId_nat (NR.volt g) 0).trans (volt_zero g)
    · intro b' hb'
      obtain ⟨k, b, hk, hid, hlt, rfl⟩ := hbus b' hb'
      show po.v k = Phasor.ofC (atId (NR.volt g) b.id)
      rw [hid, ← P', show atId (NR.volt g) (k : ℤ) = _ from atId_nat (NR.volt g) ⟨k, hlt⟩]
      simp only [outOf, dif_pos hlt]
    · intro b' hb'
      obtain ⟨k, b, hk, hid, hlt, rfl⟩ := hbus b' hb'
      show po.i k = Phasor.ofC (leaving ls (atId (NR.volt g)) b.id)
      rw [hid, ← P', ← curr_eq_leaving hs he (NR.volt g) ⟨k, hlt⟩]
      simp only [outOf, dif_pos hlt]
    · intro b' hb' hsb
      obtain ⟨k, b, hk, hid, hlt, rfl⟩ := hbus b' hb'
      have hsb' : b.isSlack = true := hsb
      have e := curr_eq_leaving hs he (NR.volt g) 0
      have e' : leaving ls (atId (NR.volt g)) 0 = NR.curr (ymat m ls) (NR.volt g) 0 := e.symm
      have e0 : atId (NR.volt g) 0 = NR.volt g 0 := atId_nat (NR.volt g) 0
      simp only [hsb', if_true, ← P', outOf, Sim.nanToInf]
      rw [e', e0]
      simp
    · rw [A.branches]
      refine forall₂_mapIdx_right (R := fun (b : Branch ℝ) l => b.line.finite? = some l) hl ?_
      intro k b l hb hl' hr
      refine ⟨hr, ?_⟩
      show po.flow k = _
      rw [← P']
      simp [outOf, hl']

end

/-! ### Currents -/

/-- The currents that flow from the buses 3, 4 and 5 of ANM6 into the network. -/
structure Cur where
  i3 : ℂ
  i4 : ℂ
  i5 : ℂ

namespace Cur
variable (c : Cur)

def v1 : ℂ := 1 + ⟨36/10000, 1834/10000⟩ * (c.i3 + c.i4 + c.i5)
def v2 : ℂ := c.v1 + ⟨3/100, 22/1000⟩ * (c.i4 + c.i5)
def v3 : ℂ := c.v1 + ⟨307/10000, 621/10000⟩ * c.i3
def v4 : ℂ := c.v2 + ⟨303/10000, 611/10000⟩ * c.i4
def v5 : ℂ := c.v2 + ⟨159/10000, 502/10000⟩ * c.i5

/-- The voltages of the buses. -/
def v : Fin 6 → ℂ := ![1, c.v1, c.v2, c.v3, c.v4, c.v5]

/-- The currents from the buses into the network. -/
def i : Fin 6 → ℂ := ![-(c.i3 + c.i4 + c.i5), 0, 0, c.i3, c.i4, c.i5]

/-- The guess of the load flow with these voltages. -/
def guess : Guess 5 := ⟨fun k => arg (c.v k.succ), fun k => ‖c.v k.succ‖⟩

theorem volt_guess : NR.volt c.guess = c.v := by
  funext k
  refine Fin.cases rfl (fun j => ?_) k
  simp only [NR.volt, Fin.cons_succ, guess]
  rw [mul_comm I]
  exact norm_mul_exp_arg_mul_I _

theorem at_v : atId c.v 0 = 1 ∧ atId c.v 1 = c.v1 ∧ atId c.v 2 = c.v2 ∧ atId c.v 3 = c.v3 ∧ atId c.v 4 = c.v4 ∧ atId c.v 5 = c.v5 :=
  ⟨rfl, rfl, rfl, rfl, rfl, rfl⟩

end Cur

/-- The currents at the ends of a line without line charging and transformer, from the current through it. -/
theorem plain_currents {l : LineC} (hb : l.b = 0) (ht : l.tapMagn = 1) (hs : l.shiftDeg = 0) (hz : (⟨l.r, l.x⟩ : ℂ) ≠ 0) {vf vt j : ℂ}
    (h : vt = vf + ⟨l.r, l.x⟩ * j) : l.iFrom vf vt = -j ∧ l.iTo vf vt = j := by
  have e : (l.r : ℂ) + I * l.x = ⟨l.r, l.x⟩ := by
    apply Complex.ext <;> simp
  have hse : l.series * ⟨l.r, l.x⟩ = 1 := by
    rw [LineC.series, e]
    field_simp
  constructor
  · simp only [LineC.iFrom, LineC.shunt, LineC.tap, LineC.shift, hb, ht, hs]
    simp
    rw [h]
    linear_combination -(j * hse)
  · simp only [LineC.iTo, LineC.shunt, LineC.tap, LineC.shift, hb, ht, hs]
    simp
    rw [h]
    linear_combination (j * hse)

theorem easy_line_currents (c : Cur) :
    (∀ l ∈ easyLines, l.b = 0 ∧ l.tapMagn = 1 ∧ l.shiftDeg = 0) ∧
    List.Forall₂ (fun l j => l.iFrom (atId c.v l.fBus) (atId c.v l.tBus) = -j ∧ l.iTo (atId c.v l.fBus) (atId c.v l.tBus) = j) easyLines
      [c.i3 + c.i4 + c.i5, c.i4 + c.i5, c.i3, c.i4, c.i5] := by
  obtain ⟨a0, a1, a2, a3, a4, a5⟩ := c.at_v
  refine ⟨by simp [easyLines], ?_⟩
  refine .cons ?_ (.cons ?_ (.cons ?_ (.cons ?_ (.cons ?_ .nil)))) <;> refine plain_currents rfl rfl rfl ?_ ?_
  any_goals (intro h; have := congrArg Complex.re h; norm_num at this)
  all_goals simp only [a0, a1, a2, a3, a4, a5]
  all_goals rfl

theorem easy_leaving (c : Cur) : ∀ k : Fin 6, leaving easyLines (atId c.v) ((k : ℕ) : ℤ) = c.i k := by
  have h := (easy_line_currents c).2
  unfold easyLines at h ⊢
  simp only [List.forall₂_cons, List.forall₂_nil_right_iff, and_true] at h
  obtain ⟨⟨a1, b1⟩, ⟨a2, b2⟩, ⟨a3, b3⟩, ⟨a4, b4⟩, ⟨a5, b5⟩⟩ := h
  intro k
  simp only [leaving, List.map_cons, List.map_nil, List.sum_cons, List.sum_nil, a1, b1, a2, b2, a3, b3, a4, b4, a5, b5]
  fin_cases k <;> simp [Cur.i] <;> ring

theorem easyLines_good : SimpleLines easyLines ∧ EndsIn 5 easyLines := by
  obtain ⟨h1, h2, -⟩ := simOf_lines anm6_clean (show SimOf anm6Net (.fin (1/4)) (.fin 100) (easySim : Sim ℝ) from ⟨_, anm6_mk _ _, sameConfig_refl _⟩)
    easy_numbered easy_finiteLines
  exact ⟨h1, h2⟩

theorem easy_curr (c : Cur) (k : Fin 6) : NR.curr (ymat 5 easyLines) c.v k = c.i k := by
  rw [curr_eq_leaving (m := 5) easyLines_good.1 easyLines_good.2, easy_leaving]

theorem easy_power (c : Cur) (k : Fin 5) : NR.power (ymat 5 easyLines) c.guess k = c.v k.succ * conj (c.i k.succ) := by
  rw [NR.power, Cur.volt_guess, easy_curr]

/-- The currents 0. -/
def Cur.zero : Cur := ⟨0, 0, 0⟩

theorem zero_v (k : Fin 6) : Cur.zero.v k = 1 := by
  fin_cases k <;> simp [Cur.v, Cur.zero, Cur.v1, Cur.v2, Cur.v3, Cur.v4, Cur.v5]

theorem zero_guess : Cur.zero.guess = NR.flat := by
  simp [Cur.guess, NR.flat, zero_v]

namespace Spec

/-- The currents solve the load flow for the injections `p` and `q`, up to the tolerance. -/
def Cur.Match (c : Cur) (p q : Fin 5 → ℝ) : Prop :=
  ∀ k : Fin 5, |(c.v k.succ * conj (c.i k.succ)).re - p k| ≤ xtol ∧ |(c.v k.succ * conj (c.i k.succ)).im - q k| ≤ xtol

/-- The voltages and flows that belong to the currents are within the limits of ANM6. -/
structure Cur.Safe (c : Cur) : Prop where
  v : ∀ k : Fin 5, 9/10 ≤ ‖c.v k.succ‖ ∧ ‖c.v k.succ‖ ≤ 11/10
  s01 : ‖c.i3 + c.i4 + c.i5‖ ≤ 32/100 ∧ ‖c.v1‖ * ‖c.i3 + c.i4 + c.i5‖ ≤ 32/100
  s12 : ‖c.v1‖ * ‖c.i4 + c.i5‖ ≤ 25/100 ∧ ‖c.v2‖ * ‖c.i4 + c.i5‖ ≤ 25/100
  s13 : ‖c.v1‖ * ‖c.i3‖ ≤ 18/100 ∧ ‖c.v3‖ * ‖c.i3‖ ≤ 18/100
  s24 : ‖c.v2‖ * ‖c.i4‖ ≤ 18/100 ∧ ‖c.v4‖ * ‖c.i4‖ ≤ 18/100
  s25 : ‖c.v2‖ * ‖c.i5‖ ≤ 18/100 ∧ ‖c.v5‖ * ‖c.i5‖ ≤ 18/100

/-- The voltages are within the limits of ANM6 by 0.01 % of the nominal voltage, the flows by 0.1 % of the rating of the line. -/
structure Cur.Roomy (c : Cur) : Prop where
  v : ∀ k : Fin 5, 9001/10000 ≤ ‖c.v k.succ‖ ∧ ‖c.v k.succ‖ ≤ 10999/10000
  s01 : ‖c.i3 + c.i4 + c.i5‖ ≤ 999/1000 * (32/100) ∧ ‖c.v1‖ * ‖c.i3 + c.i4 + c.i5‖ ≤ 999/1000 * (32/100)
  s12 : ‖c.v1‖ * ‖c.i4 + c.i5‖ ≤ 999/1000 * (25/100) ∧ ‖c.v2‖ * ‖c.i4 + c.i5‖ ≤ 999/1000 * (25/100)
  s13 : ‖c.v1‖ * ‖c.i3‖ ≤ 999/1000 * (18/100) ∧ ‖c.v3‖ * ‖c.i3‖ ≤ 999/1000 * (18/100)
  s24 : ‖c.v2‖ * ‖c.i4‖ ≤ 999/1000 * (18/100) ∧ ‖c.v4‖ * ‖c.i4‖ ≤ 999/1000 * (18/100)
  s25 : ‖c.v2‖ * ‖c.i5‖ ≤ 999/1000 * (18/100) ∧ ‖c.v5‖ * ‖c.i5‖ ≤ 999/1000 * (18/100)

theorem Cur.Roomy.safe {c : Cur} (h : Cur.Roomy c) : Cur.Safe c := by
  constructor
  · exact fun k => ⟨by linarith [(h.v k).1], by linarith [(h.v k).2]⟩
  · exact ⟨by linarith [h.s01.1], by linarith [h.s01.2]⟩
  · exact ⟨by linarith [h.s12.1], by linarith [h.s12.2]⟩
  · exact ⟨by linarith [h.s13.1], by linarith [h.s13.2]⟩
  · exact ⟨by linarith [h.s24.1], by linarith [h.s24.2]⟩
  · exact ⟨by linarith [h.s25.1], by linarith [h.s25.2]⟩

end Spec

open Classical in
/-- Currents for given injections: within the limits of ANM6, if there are such. -/
def pickCur (p q : Fin 5 → ℝ) : Cur :=
  if h : ∃ c, Spec.Cur.Match c p q ∧ Spec.Cur.Safe c then h.choose
  else if h : ∃ c, Spec.Cur.Match c p q then h.choose else Cur.zero

theorem pickCur_match {p q : Fin 5 → ℝ} (h : ∃ c, Spec.Cur.Match c p q) : Spec.Cur.Match (pickCur p q) p q := by
  unfold pickCur
  split
  · rename_i h1; exact h1.choose_spec.1
  · exact h.choose_spec

theorem pickCur_safe {p q : Fin 5 → ℝ} (h : ∃ c, Spec.Cur.Match c p q ∧ Spec.Cur.Safe c) : Spec.Cur.Safe (pickCur p q) := by
  unfold pickCur
  rw [dif_pos h]
  exact h.choose_spec.2

/-- A linear solver that, from the flat start, steps to a solution of the load flow of ANM6, if there is one. -/
def playOracle : LFOracle where
  spsolve := fun m _ F => if h : m = 5 then
      let F5 : Ix 5 → ℝ := fun k => finVal (F (h ▸ k))
      let g := (pickCur (fun k => - F5 (.inl k)) (fun k => - F5 (.inr k))).guess
      some fun k => match (h ▸ k : Ix 5) with
        | .inl k => 0 - g.ang k
        | .inr k => 1 - g.mag k
    else none
  blowup := fun _ => true
  garbage := fun _ => ⟨fun _ => .undef, fun _ => .undef, .nan, .nan, fun _ => {}, false⟩
  other := fun _ => .error .valueError

theorem play_next (Y : Matrix (Fin 6) (Fin 6) ℂ) (F : Ix 5 → X ℝ) : NR.next playOracle Y (some NR.flat) F =
    some (pickCur (fun k => - finVal (F (.inl k))) (fun k => - finVal (F (.inr k)))).guess := by
  simp [NR.next, playOracle, NR.flat]

theorem stable_of_norm {m : ℕ} {st : NR.St m} (h : NR.norm st.F ≤ .fin xtol) : NR.stable xtol st = true := by
  simp only [NR.stable, decide_eq_true_eq]
  refine ⟨fun e => ?_, h⟩
  rw [e] at h
  exact h

/-- A residual within the tolerance. -/
theorem match_norm {c : Cur} {p q : Fin 5 → ℝ} (h : Spec.Cur.Match c p q) :
    NR.norm (NR.f (ymat 5 easyLines) (fun k => .fin (p k)) (fun k => .fin (q k)) c.guess) ≤ .fin xtol := by
  rw [norm_le (by unfold xtol; norm_num)]
  rintro (k | k)
  · simpa [NR.f, easy_power, X.abs] using (h k).1
  · simpa [NR.f, easy_power, X.abs] using (h k).2

/-- The load flow with this solver converges to a solution, if there is one; it ends within the limits, if there is a solution
within the limits. -/
theorem play_run {p q : Fin 5 → ℝ} (h : ∃ c, Spec.Cur.Match c p q) :
    NR.stable xtol (NR.run playOracle (ymat 5 easyLines) (fun k => .fin (p k)) (fun k => .fin (q k)) xtol) = true ∧
      ∃ c, (NR.run playOracle (ymat 5 easyLines) (fun k => .fin (p k)) (fun k => .fin (q k)) xtol).guess = some c.guess ∧
        Spec.Cur.Match c p q ∧ ((∃ c, Spec.Cur.Match c p q ∧ Spec.Cur.Safe c) → Spec.Cur.Safe c) := by
  have hF : ∀ k, NR.f (ymat 5 easyLines) (fun k => .fin (p k)) (fun k => .fin (q k)) NR.flat k =
      .fin (- k.elim p q) := by
    intro k
    have hp : ∀ j : Fin 5, NR.power (ymat 5 easyLines) (NR.flat : Guess 5) j = 0 := by
      intro j
      rw [← zero_guess, easy_power]
      fin_cases j <;> simp [Cur.i, Cur.zero]
    cases k with
    | inl k => simp [NR.f, hp]
    | inr k => simp [NR.f, hp]
  by_cases h0 : NR.norm (NR.init (ymat 5 easyLines) (fun k => .fin (p k)) (fun k => .fin (q k))).F ≤ .fin xtol
  · rw [run_init h0]
    refine ⟨stable_of_norm h0, Cur.zero, ?_, ?_, fun _ => ?_⟩
    · rw [zero_guess]; rfl
    · have h1 := (norm_le (by unfold xtol; norm_num)).1 h0
      intro k
      have e1 := h1 (.inl k)
      have e2 := h1 (.inr k)
      rw [show (NR.init (ymat 5 easyLines) (fun k => .fin (p k)) (fun k => .fin (q k))).F _ = _ from hF _] at e1 e2
      have e0 : Cur.zero.v k.succ * conj (Cur.zero.i k.succ) = 0 := by fin_cases k <;> simp [Cur.i, Cur.zero]
      rw [e0]
      constructor
      · simpa [X.abs] using e1
      · simpa [X.abs] using e2
    · constructor
      · intro k
        rw [zero_v]
        norm_num
      all_goals norm_num [Cur.zero]
  · have hc : NR.cond xtol (NR.init (ymat 5 easyLines) (fun k => .fin (p k)) (fun k => .fin (q k))) := by
      refine ⟨?_, by norm_num [NR.init]⟩
      rw [X.not_le_iff _ (X.notNan_fin _)] at h0
      · exact h0
      · rw [X.notNan_iff]
        intro e
        have := (norm_le (m := 5) (F := (NR.init (ymat 5 easyLines) (fun k => .fin (p k)) (fun k => .fin (q k))).F)
          (c := ∑ k : Ix 5, |k.elim p q|) (by positivity)).2 (by
            intro k
            rw [show (NR.init (ymat 5 easyLines) (fun k => .fin (p k)) (fun k => .fin (q k))).F k = _ from hF k]
            simp only [X.abs, X.fin_le_fin, abs_neg]
            exact Finset.single_le_sum (f := fun k : Ix 5 => |k.elim p q|) (fun _ _ => abs_nonneg _) (Finset.mem_univ k))
        rw [e] at this
        exact this
    have hb : (NR.body playOracle (ymat 5 easyLines) (fun k => .fin (p k)) (fun k => .fin (q k))
        (NR.init (ymat 5 easyLines) (fun k => .fin (p k)) (fun k => .fin (q k)))) =
        { nIter := 1, guess := some (pickCur p q).guess, F := NR.f (ymat 5 easyLines) (fun k => .fin (p k)) (fun k => .fin (q k)) (pickCur p q).guess } := by
      simp only [NR.body, NR.init, play_next, hF, finVal, Sum.elim_inl, Sum.elim_inr, neg_neg, NR.evalF]
    have hn := match_norm (pickCur_match h)
    have hrun : NR.run playOracle (ymat 5 easyLines) (fun k => .fin (p k)) (fun k => .fin (q k)) xtol =
        { nIter := 1, guess := some (pickCur p q).guess, F := NR.f (ymat 5 easyLines) (fun k => .fin (p k)) (fun k => .fin (q k)) (pickCur p q).guess } := by
      rw [NR.run, NR.loop, if_pos hc, hb, NR.loop, if_neg]
      rintro ⟨h1, -⟩
      exact absurd hn ((X.not_le_iff (X.le_notNan hn).1 (X.notNan_fin _)).2 h1)
    rw [hrun]
    exact ⟨stable_of_norm hn, _, rfl, pickCur_match h, pickCur_safe⟩

end

end Anm
