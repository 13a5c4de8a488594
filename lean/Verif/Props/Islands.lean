import Verif.Props.Reported
import Verif.Props.RealDemo

/-! # Islands (C95)

`check_network` does not ask the branches to connect the buses, so a network may consist of several islands.
The load flow treats them together; a set of buses no branch leaves is balanced on its own. -/

namespace Anm

open Spec Complex ComplexConjugate

namespace Spec

/-- `A` is a union of islands: every branch has both ends in `A` or none. -/
def Separate (s : Sim ℝ) (A : ℤ → Bool) : Prop := ∀ br ∈ s.branches, A br.line.fBus = A br.line.tBus

/-- The number of buses of `A` other than the slack bus. -/
def others (s : Sim ℝ) (A : ℤ → Bool) : ℕ := (s.buses.filter fun b => A b.id && !b.isSlack).length

/-- What is lost on the branches of `A`. -/
noncomputable def lossIn (s : Sim ℝ) (A : ℤ → Bool) : ℝ :=
  ((s.branches.filter fun br => A br.line.fBus).map fun br => finVal br.flow.pFrom + finVal br.flow.pTo).sum

/-- What is injected at the buses of `A`. -/
noncomputable def injectedIn (s : Sim ℝ) (A : ℤ → Bool) : ℝ :=
  ((s.buses.filter fun b => A b.id).map fun b => finVal b.p).sum

end Spec

theorem sum_pick_ids {L : List ℤ} (hn : L.Nodup) {a : ℤ} (ha : a ∈ L) (A : ℤ → Bool) (f : ℤ → ℂ) :
    ((L.filter A).map fun k => if a = k then f k else 0).sum = if A a then f a else 0 := by
  induction L with
  | nil => simp at ha
  | cons x L ih =>
    rw [List.nodup_cons] at hn
    have hz : a ∉ L → ((L.filter A).map fun k => if a = k then f k else 0).sum = 0 := by
      intro h
      refine List.sum_eq_zero ?_
      intro y hy
      obtain ⟨k, hk, rfl⟩ := List.mem_map.1 hy
      rw [if_neg]
      rintro rfl
      exact h (List.mem_of_mem_filter hk)
    by_cases hax : a = x
    · subst hax
      cases hA : A a <;> simp [hA, hz hn.1]
    · have ha : a ∈ L := (List.mem_cons.1 ha).resolve_left hax
      have hne : a ≠ x := hax
      rw [← ih hn.2 ha]
      cases hA : A x <;> simp [hA, hne]

theorem island_sum {L : List ℤ} (hn : L.Nodup) {ls : List LineC} (V : ℤ → ℂ) (A : ℤ → Bool)
    (h : ∀ l ∈ ls, l.fBus ∈ L ∧ l.tBus ∈ L ∧ A l.fBus = A l.tBus) :
    ((L.filter A).map fun k => V k * conj (leaving ls V k)).sum =
      ((ls.filter fun l => A l.fBus).map fun l => l.sFrom (V l.fBus) (V l.tBus) + l.sTo (V l.fBus) (V l.tBus)).sum := by
  induction ls with
  | nil => simp [leaving]
  | cons l ls ih =>
    obtain ⟨hf, ht, hA⟩ := h l (by simp)
    have h1 : ∀ k : ℤ, V k * conj (leaving (l :: ls) V k) =
        ((if l.fBus = k then V k * conj (l.iFrom (V l.fBus) (V l.tBus)) else 0) +
        (if l.tBus = k then V k * conj (l.iTo (V l.fBus) (V l.tBus)) else 0)) +
        V k * conj (leaving ls V k) := by
      intro k
      unfold leaving
      rw [List.map_cons, List.sum_cons, map_add, map_add]
      split_ifs <;> simp <;> ring
    simp only [h1, List.sum_map_add]
    rw [ih fun l' hl' => h l' (by simp [hl']), sum_pick_ids hn hf A fun k => V k * conj (l.iFrom (V l.fBus) (V l.tBus)),
      sum_pick_ids hn ht A fun k => V k * conj (l.iTo (V l.fBus) (V l.tBus)), ← hA]
    cases hA' : A l.fBus with
    | false => simp [hA']
    | true =>
      simp only [List.filter_cons, hA', if_true, List.map_cons, List.sum_cons]
      have e1 : l.sFrom (V l.fBus) (V l.tBus) = V l.fBus * conj (l.iFrom (V l.fBus) (V l.tBus)) := rfl
      have e2 : l.sTo (V l.fBus) (V l.tBus) = V l.tBus * conj (l.iTo (V l.fBus) (V l.tBus)) := rfl
      rw [← e1, ← e2, List.sum_map_add]
      ring

section
variable {m : ℕ} {ls : List LineC} {s s' : Sim ℝ} {o : LFOracle} {qp : QP ℝ} {pi : ℝ} {a : Sim.Args ℝ}
  {out : Sim.TransOut ℝ} {n : Network ℝ} {base : ℝ} {dt lam : X ℝ} {i j : ℤ}

/-- What is injected at the buses of `A` is what leaves them through the branches, up to the tolerance. -/
theorem injected_near (hm' : Numbered s' m) {V : ℤ → ℂ} (hV : Solved s' ls V) (hbal : Balanced 1e-5 s' ls V) (A : ℤ → Bool) :
    |injectedIn s' A - ((s'.buses.filter fun b => A b.id).map fun b => (V b.id * conj (leaving ls V b.id)).re).sum| ≤
      others s' A * 1e-5 := by
  unfold injectedIn others
  have key : ∀ L : List (Bus ℝ), (∀ b ∈ L, |finVal b.p - (V b.id * conj (leaving ls V b.id)).re| ≤
      if b.isSlack then (0 : ℝ) else 1e-5) →
      |((L.filter fun b => A b.id).map fun b => finVal b.p).sum -
        ((L.filter fun b => A b.id).map fun b => (V b.id * conj (leaving ls V b.id)).re).sum| ≤
      ((L.filter fun b => A b.id && !b.isSlack).length : ℝ) * 1e-5 := by
    intro L hL'
    induction L with
    | nil => simp
    | cons b L ih =>
      have a1 := hL' b (by simp)
      have a2 := ih fun b hb => hL' b (by simp [hb])
      cases hAb : A b.id with
      | false => simpa [List.filter_cons, hAb] using a2
      | true =>
        simp only [List.filter_cons, hAb, if_true, List.map_cons, List.sum_cons]
        have tri : ∀ x y X Y : ℝ, |x + X - (y + Y)| ≤ |x - y| + |X - Y| := by
          intro x y X Y
          rw [show x + X - (y + Y) = (x - y) + (X - Y) by ring]
          exact abs_add_le _ _
        refine (tri _ _ _ _).trans ((add_le_add a1 a2).trans ?_)
        cases hbs : b.isSlack <;> simp
        · linarith
  refine key _ fun b hb => ?_
  cases hbs : b.isSlack with
  | true =>
    have e := (hm'.slack b hb).1 hbs
    rw [(hV.slack b hb hbs).1, e]
    simp [finVal]
  | false =>
    obtain ⟨p, q, hp, _, hre, _⟩ := hbal b hb hbs
    rw [hp, abs_sub_comm]
    simpa [finVal] using hre

/-- **C95.** Whenever the load flow of a transition converges, every union of islands is balanced on its own:
what is injected at its buses is what is lost on its branches, up to 1e-5 p.u. for each of its buses other
than the slack bus; and the losses are not negative. -/
theorem C95_island (hn : CleanFile n base) (hs : SimOf n dt lam s) (hm : Numbered s m)
    (hl : FiniteLines s ls) (h : s.transition ⟨qp, realPF o, pi⟩ a = .ok (s', out))
    (hc : out.converged = true) {A : ℤ → Bool} (hA : Separate s A) :
    |injectedIn s' A - lossIn s' A| ≤ others s' A * 1e-5 ∧ 0 ≤ lossIn s' A := by
  obtain ⟨V, hV, hbal⟩ := C25_converged hn hs hm hl h hc
  obtain ⟨g1, g2, g3⟩ := simOf_lines hn hs hm hl
  have hsc := sameConfig_transition h
  have hm' := numbered_same hsc hm
  -- the branches
  have hAl : ∀ l ∈ ls, A l.fBus = A l.tBus := by
    intro l hl'
    obtain ⟨b, hb, e⟩ := forall₂_mem_right hl hl'
    obtain ⟨e1, e2, _⟩ := finite?_eq e
    have := hA b hb
    rwa [e1, e2] at this
  have hbr : lossIn s' A = ((ls.filter fun l => A l.fBus).map fun l => loss l V).sum := by
    have := hV.flow
    unfold lossIn
    generalize s'.branches = L at this
    clear hAl g1 g2 g3 hV hbal hl
    induction this with
    | nil => rfl
    | cons hab _ ih =>
      obtain ⟨e1, _⟩ := finite?_eq hab.1
      simp only [List.filter_cons, e1]
      split_ifs
      · rw [List.map_cons, List.map_cons, List.sum_cons, List.sum_cons, ih, hab.2]
        rfl
      · exact ih
  have hnd : (s'.buses.map Bus.id).Nodup := by
    rw [hm'.ids]
    exact List.nodup_range.map fun a b h => Int.ofNat_inj.1 h
  have hmem : ∀ k : ℤ, 0 ≤ k ∧ k < (m + 1 : ℕ) → k ∈ s'.buses.map Bus.id := by
    intro k hk
    rw [hm'.ids]
    exact List.mem_map.2 ⟨k.toNat, List.mem_range.2 (by omega), Int.toNat_of_nonneg hk.1⟩
  have hsum := congrArg Complex.re (island_sum hnd (ls := ls) V A fun l hl' =>
    ⟨hmem _ (g2 l hl').1, hmem _ (g2 l hl').2, hAl l hl'⟩)
  have hre : ∀ l : List ℂ, l.sum.re = (l.map Complex.re).sum := by
    intro l
    induction l with
    | nil => rfl
    | cons a l ih => simp [ih]
  rw [hre, hre, List.map_map, List.map_map, List.filter_map, List.map_map] at hsum
  constructor
  · rw [hbr]
    have hL : ((ls.filter fun l => A l.fBus).map fun l => loss l V).sum =
        ((s'.buses.filter fun b => A b.id).map fun b => (V b.id * conj (leaving ls V b.id)).re).sum := hsum.symm
    rw [hL]
    exact injected_near hm' hV hbal A
  · rw [hbr]
    refine List.sum_nonneg ?_
    intro x hx
    obtain ⟨l, hl', rfl⟩ := List.mem_map.1 hx
    exact (C30_branch_losses (g3 l (List.mem_of_mem_filter hl')) _ _).2.1

namespace Spec

/-- What the devices of `A` inject in total. -/
noncomputable def deviceSum (s : Sim ℝ) (A : ℤ → Bool) : ℝ :=
  ((s.devices.filter fun d => A d.busId).map fun d => finVal d.p).sum

end Spec

/-- What the devices of a set of buses without the slack bus inject is what is injected at these buses. -/
theorem device_injected (hm : Numbered s m) (ho : OneSlack s i j) (h : s.transition ⟨qp, realPF o, pi⟩ a = .ok (s', out))
    {V : ℤ → ℂ} (hbal : Balanced 1e-5 s' ls V) {A : ℤ → Bool} (h0 : A 0 = false) : deviceSum s' A = injectedIn s' A := by
  have hsc := sameConfig_transition h
  have hm' := numbered_same hsc hm
  have ho' := oneSlack_same hsc ho
  have hns : ∀ b ∈ s'.buses, A b.id = true → b.isSlack = false := by
    intro b hb hAb
    by_contra hbs
    have := (hm'.slack b hb).1 (by simpa using hbs)
    rw [this, h0] at hAb
    cases hAb
  have hsum : ∀ b ∈ s'.buses, A b.id = true →
      ∃ p, b.p = .fin p ∧ b.p = sumX ((devicesAt s' b.id).map Device.p) := by
    intro b hb hAb
    obtain ⟨p, _, hp, _⟩ := hbal b hb (hns b hb hAb)
    exact ⟨p, hp, (C33_bus_sum_partial ho h hb fun hbs => by rw [hns b hb hAb] at hbs; cases hbs).1⟩
  have hdp : ∀ d ∈ s'.devices, A d.busId = true → ∃ p, d.p = .fin p := by
    intro d hd hAd
    obtain ⟨b, hb, e⟩ := ho'.busOf d hd
    obtain ⟨p, hp, hp'⟩ := hsum b hb (by rw [e]; exact hAd)
    rw [hp] at hp'
    exact sumX_fin hp'.symm _ (List.mem_map_of_mem (List.mem_filter.2 ⟨hd, by simp [e]⟩))
  unfold deviceSum injectedIn
  have e1 : ((s'.devices.filter fun d => A d.busId).map fun d => finVal d.p).sum =
      (s'.devices.map fun d => if A d.busId then finVal d.p else 0).sum := by
    generalize s'.devices = L
    induction L with
    | nil => rfl
    | cons d L ih => cases hd : A d.busId <;> simp [hd, ih]
  have e2 : ((s'.buses.filter fun b => A b.id).map fun b => finVal b.p).sum =
      (s'.buses.map fun b => if A b.id then finVal b.p else 0).sum := by
    generalize s'.buses = L
    induction L with
    | nil => rfl
    | cons d L ih => cases hd : A d.id <;> simp [hd, ih]
  rw [e1, e2, ← sum_by_bus ho'.buses s'.devices ho'.busOf]
  congr 1
  refine List.map_congr_left fun b hb => ?_
  cases hAb : A b.id with
  | false =>
    rw [if_neg (by simp)]
    refine List.sum_eq_zero ?_
    intro x hx
    obtain ⟨d, hd, rfl⟩ := List.mem_map.1 hx
    have := (List.mem_filter.1 hd).2
    simp only [decide_eq_true_eq] at this
    rw [this, hAb]
    simp
  | true =>
    rw [if_pos rfl]
    obtain ⟨p, hp, hp'⟩ := hsum b hb hAb
    have e : sumX ((devicesAt s' b.id).map Device.p) = .fin _ :=
      sumX_of_fin (g := fun d => if A d.busId then finVal d.p else 0) fun d hd => by
        have hb' : d.busId = b.id := by simpa using (List.mem_filter.1 hd).2
        rw [hb', hAb, if_pos rfl]
        exact fin_finVal (hdp d (List.mem_filter.1 hd).1 (by rw [hb']; exact hAb))
    rw [hp', e]
    rfl

/-- **C95.** For islands without the slack bus this is a condition on the injections: the devices on them must
inject what the branches lose, and hence something that is not negative, up to the tolerance. -/
theorem C95_devices (hn : CleanFile n base) (hs : SimOf n dt lam s) (hm : Numbered s m)
    (ho : OneSlack s i j) (hl : FiniteLines s ls) (h : s.transition ⟨qp, realPF o, pi⟩ a = .ok (s', out))
    (hc : out.converged = true) {A : ℤ → Bool} (hA : Separate s A) (h0 : A 0 = false) :
    |deviceSum s' A - lossIn s' A| ≤ others s' A * 1e-5 ∧ -(others s' A * 1e-5) ≤ deviceSum s' A := by
  obtain ⟨k1, k2⟩ := C95_island hn hs hm hl h hc hA
  have hsc := sameConfig_transition h
  have hm' := numbered_same hsc hm
  have ho' := oneSlack_same hsc ho
  obtain ⟨V, hV, hbal⟩ := C25_converged hn hs hm hl h hc
  have key := device_injected hm ho h hbal h0
  rw [key]
  refine ⟨k1, ?_⟩
  have := (abs_le.1 k1).1
  linarith

/-- **C95.** A network with an island, away from the slack bus, on which more is consumed than produced (by
more than the tolerance) collapses: whatever the linear solver does, the load flow does not converge. -/
theorem C95_dead_island (hn : CleanFile n base) (hs : SimOf n dt lam s) (hm : Numbered s m)
    (ho : OneSlack s i j) (hl : FiniteLines s ls) (h : s.transition ⟨qp, realPF o, pi⟩ a = .ok (s', out))
    {A : ℤ → Bool} (hA : Separate s A) (h0 : A 0 = false)
    (hd : deviceSum s' A < -(others s' A * 1e-5)) : out.converged = false := by
  by_contra hc
  have := (C95_devices hn hs hm ho hl h (by simpa using hc) hA h0).2
  linarith

end

/-! ### A network of two islands -/

/-- Three buses; the only branch joins the two buses other than the slack bus. -/
noncomputable def splitNet : Network ℝ :=
  ⟨.fin 1, [rbus 0 0 132 1 (rnum 1), rbus 1 1 33 3 (rnum 0), rbus 2 1 33 3 (rnum 0)],
    [rline 1 2 0 1 0 1 0], [rslack 0 0, rload 1 1 0 (-2)]⟩

/-- The line of `splitNet`. -/
noncomputable def splitLine : LineC := ⟨1, 2, 0, 1, 0, 1, 0⟩

theorem two_eq_one : ((2 : ℝ) = 1) = False := by norm_num

theorem splitNet_mk : ∃ s, mkSim splitNet (.fin 1) (.fin 1) = .ok s ∧ s.baseMVA = .fin 1 ∧
    s.buses.map (fun b => (b.id, b.isSlack, b.vMin.isSome)) = [(0, true, true), (1, false, true), (2, false, true)] ∧
    s.branches.map (fun b => b.line.finite?) = [some splitLine] ∧
    s.devices.map (fun d => (d.id, d.busId, d.kind, d.isSlack, d.qpRatio, d.pMin, d.pMax)) =
      [slackAt 0, loadAt 1 1] := by
  eval_sim [splitNet, slackAt, loadAt, Line.finite?, splitLine]

theorem splitNet_clean : CleanFile splitNet 1 := by
  refine clean_of 1 rfl ?_ ?_ ?_ <;> simp only [splitNet, List.mem_cons, List.not_mem_nil, or_false] <;> intro r hr
  · rcases hr with rfl | rfl | rfl <;> exact ⟨_, _, _, _, _, rfl⟩
  · subst hr; exact ⟨_, _, _, _, _, _, _, rfl⟩
  · rcases hr with rfl | rfl
    · exact Or.inl ⟨_, _, rfl⟩
    · exact Or.inr ⟨_, _, _, _, rfl⟩

theorem splitNet_documented : Documented splitNet := by
  refine ⟨⟨?_, ?_⟩, ?_⟩ <;> simp only [splitNet, List.mem_cons, List.not_mem_nil, or_false]
  · rintro r (rfl | rfl | rfl)
    exacts [⟨0, by simp [rbus]⟩, ⟨1, by simp [rbus]⟩, ⟨2, by simp [rbus]⟩]
  · rintro r (rfl | rfl)
    exacts [⟨0, by simp [rslack]⟩, ⟨1, by simp [rload]⟩]
  · rintro r (rfl | rfl | rfl) <;> simp [rbus]

/-- The two buses of `splitNet` the slack bus is not connected to. -/
def splitIsland (k : ℤ) : Bool := k = 1 || k = 2

/-- **C95 is not vacuous**: an accepted network none of whose transitions with a demand of 1 MW converges,
whatever the linear solver; and the same network with no demand satisfies the premises of `C95_devices`. -/
theorem C95_split (o : LFOracle) (pi : ℝ) : ∃ n s ls i j, CleanFile n 1 ∧ Documented n ∧
    SimOf n (.fin 1) (.fin 1) s ∧ Numbered s 2 ∧ OneSlack s i j ∧ FiniteLines s ls ∧
    Separate s splitIsland ∧
    (∃ s' out, s.transition ⟨exactQP, realPF o, pi⟩ (demand (-1) 0) = .ok (s', out) ∧
      deviceSum s' splitIsland < -(others s' splitIsland * 1e-5) ∧ out.converged = false) ∧
    ∃ s' out, s.transition ⟨exactQP, realPF o, pi⟩ (demand 0 0) = .ok (s', out) ∧ out.converged = true := by
  obtain ⟨s, hmk, hb, e1, e2, e3⟩ := splitNet_mk
  have hs : SimOf splitNet (.fin 1) (.fin 1) s := ⟨s, hmk, sameConfig_refl s⟩
  obtain ⟨i, j, hos⟩ := oneSlack_of_file splitNet_clean splitNet_documented hs
  have hl : FiniteLines s [splitLine] := by
    obtain ⟨b, e1, e2⟩ := List.map_eq_singleton_iff.1 e2
    rw [FiniteLines, e1]
    exact .cons e2 .nil
  have hbus : ∃ b0 b1 b2, s.buses = [b0, b1, b2] ∧ b0.id = 0 ∧ b1.id = 1 ∧ b2.id = 2 ∧ b0.isSlack = true ∧
      b1.isSlack = false ∧ b2.isSlack = false ∧ b0.vMin ≠ none ∧ b1.vMin ≠ none ∧ b2.vMin ≠ none := by
    simp only [List.map_eq_cons_iff, List.map_eq_nil_iff, Prod.mk.injEq] at e1
    obtain ⟨b0, l0, e1, ⟨h1, h2, h3⟩, b1, l1, rfl, ⟨h4, h5, h6⟩, b2, l2, rfl, ⟨h7, h8, h9⟩, rfl⟩ := e1
    exact ⟨b0, b1, b2, e1, h1, h4, h7, h2, h5, h8, by rintro e; simp [e] at h3, by rintro e; simp [e] at h6,
      by rintro e; simp [e] at h9⟩
  obtain ⟨b0, b1, b2, hbs, i0, i1, i2, f0, f1, f2, v0, v1, v2⟩ := hbus
  have hm : Numbered s 2 := by
    refine ⟨?_, by norm_num, ?_⟩
    · simp [hbs, i0, i1, i2, List.range_succ]
    · rw [hbs]
      simp [i0, i1, i2, f0, f1, f2]
  have hsep : Separate s splitIsland := by
    intro br hbr
    obtain ⟨l, hl', e⟩ := forall₂_mem_left hl hbr
    obtain ⟨q1, q2, _⟩ := finite?_eq e
    rw [q1, q2, List.mem_singleton.1 hl']
    rfl
  have hdev : ∃ d e, s.devices = [d, e] ∧
      (d.id, d.busId, d.kind, d.isSlack, d.qpRatio, d.pMin, d.pMax) = slackAt 0 ∧
      (e.id, e.busId, e.kind, e.isSlack, e.qpRatio, e.pMin, e.pMax) = loadAt 1 1 := by
    simp only [List.map_eq_cons_iff, List.map_eq_nil_iff] at e3
    obtain ⟨d, l0, e1, h1, d1, l1, rfl, h2, rfl⟩ := e3
    exact ⟨d, d1, e1, h1, h2⟩
  obtain ⟨d, e, hds, hd, he⟩ := hdev
  have hd' := hd
  have he' := he
  simp only [slackAt, loadAt, Prod.mk.injEq] at hd' he'
  obtain ⟨p1, p2, p3, p4, p5, p6, p7⟩ := hd'
  obtain ⟨q1, q2, q3, q4, q5, q6, q7⟩ := he'
  have hw : Workable s := by
    refine ⟨?_, ?_, ?_, ?_⟩
    · rw [hds]; simp [Device.isNonSlackGen, Device.isGen, p3, p4, q3, q4]
    · rw [hds]; simp [Device.isStorage, p3, q3]
    · rw [hbs]; simp [v0, v1, v2]
    · rw [hds, hbs]; simp [p4, q4, p2, i0]
  have hsoc : SocFin s := by
    unfold SocFin
    rw [hds]; simp [Device.isStorage, p3, q3]
  have hargs : ∀ x : ℝ, FiniteArgs s (demand x 0) := by
    intro x
    refine ⟨?_, ?_, ?_⟩
    · rw [hds]; simp [Device.isLoad, p3, q1, demand, Dict.get?]
    · rw [hds]; simp [Device.isNonSlackGen, Device.isGen, p3, p4, q3, q4]
    · rw [hds]; simp [Device.isStorage, Device.isNonSlackGen, Device.isGen, p3, p4, q3, q4]
  have hrun : ∀ x : ℝ, ∃ s' out, s.transition ⟨exactQP, realPF o, pi⟩ (demand x 0) = .ok (s', out) := fun x =>
    C72_transition_total (c := ⟨exactQP, realPF o, pi⟩) C16_exact_solver_exists one_pos splitNet_clean hs hw
      (realPF_total hm hl) hsoc (hargs x)
  have hafter : ∀ {x : ℝ} {s' out}, -2 ≤ x → x ≤ 0 →
      s.transition ⟨exactQP, realPF o, pi⟩ (demand x 0) = .ok (s', out) →
      ∃ d' e', s'.devices = [d', e'] ∧ d'.busId = 0 ∧ e'.busId = 1 ∧ e'.p = .fin x ∧ e'.q = .fin 0 := by
    intro x s' out hx1 hx2 h
    have hsc := (sameConfig_transition h).devices
    rw [hds] at hsc
    obtain ⟨d', l', k1, hsc, hl1⟩ := List.forall₂_cons_left_iff.1 hsc
    obtain ⟨e', l'', k2, hsc2, hl2⟩ := List.forall₂_cons_left_iff.1 hsc
    rw [hl2, List.forall₂_nil_left_iff.1 hsc2] at hl1
    have g := load_meets (x := x) (k := 1) (i := 1) hb h (d := e') (by simp [hl1]) (by rw [k2]; exact he)
      (by simp [demand, Dict.get?]) hx1 hx2
    exact ⟨d', e', hl1, by rw [k1]; exact p2, by rw [k2]; exact q2, g.1, g.2⟩
  refine ⟨splitNet, s, [splitLine], i, j, splitNet_clean, splitNet_documented, hs, hm, hos, hl, hsep, ?_, ?_⟩
  · obtain ⟨s', out, h⟩ := hrun (-1)
    obtain ⟨d', e', hds', r1, r2, r3, _⟩ := hafter (by norm_num) (by norm_num) h
    have hlt : deviceSum s' splitIsland < -(others s' splitIsland * 1e-5) := by
      have ho : (others s' splitIsland : ℝ) ≤ 3 := by
        have : others s' splitIsland ≤ s'.buses.length := List.length_filter_le _ _
        rw [← (sameConfig_transition h).buses.length_eq, hbs] at this
        exact_mod_cast this
      have : deviceSum s' splitIsland = -1 := by
        simp [deviceSum, hds', splitIsland, r1, r2, r3, finVal]
      rw [this]
      linarith
    exact ⟨s', out, h, hlt, C95_dead_island splitNet_clean hs hm hos hl h hsep rfl hlt⟩
  · obtain ⟨s', out, h⟩ := hrun 0
    obtain ⟨d', e', hds', r1, r2, r3, r4⟩ := hafter (by norm_num) (by norm_num) h
    refine ⟨s', out, h, (C73_idle splitNet_clean hs hm hl (by simp [splitLine]) h ?_).1⟩
    intro b hb' hbs'
    obtain ⟨e4, e5⟩ := C33_bus_sum_partial hos h hb' (by simp [hbs'])
    have hb0 : b.id ≠ 0 := fun e => by
      rw [((numbered_same (sameConfig_transition h) hm).slack b hb').2 e] at hbs'; cases hbs'
    rw [e4, e5]
    simp only [devicesAt, hds', List.filter_cons, List.filter_nil, r1, r2, decide_eq_true_eq]
    rw [if_neg (Ne.symm hb0)]
    split_ifs <;> simp [sumX, r3, r4, X.zero_def]

end Anm
