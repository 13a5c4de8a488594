import Verif.Props.Platforms

/-!
# C153: the rewards of ANM6Easy hardly depend on the linear solver

Unless a line carries exactly no active power with one solver only: its apparent power is then reported as 0 (C34).
-/

set_option linter.unusedSectionVars false

namespace Anm

open Spec Complex ComplexConjugate Radial

noncomputable section

namespace Spec

/-- The same lines carry exactly no active power at their sending ends. -/
def SameIdle (s₁ s₂ : Sim ℝ) : Prop := List.Forall₂ (fun b₁ b₂ : Branch ℝ => b₁.flow.pFrom = .fin 0 ↔ b₂.flow.pFrom = .fin 0) s₁.branches s₂.branches

end Spec

/-- Bounds on the currents through the lines, and on their differences. -/
def lineJ (l : Fin 5) : ℚ := ∑ i ∈ easyRadial.sub l, (18/1000000 + powO i / (4/5))
def lineD (l : Fin 5) : ℚ := ∑ i ∈ easyRadial.sub l, (18/1000000 + 18/1000000 : ℚ) + ∑ i ∈ easyRadial.sub l, powO i / (4/5 * (4/5)) * oneE i

theorem reward_ok : (∀ k, 1 + ∑ l ∈ easyRadial.path k, easyZn l * lineJ l ≤ 5/3) ∧
    (∑ k, 2 * oneE k + ∑ l, (5/3 * lineD l + lineJ l * (2/10000))) * 25 ≤ 17/100 ∧ ∀ l, 0 ≤ lineJ l := by
  decide +kernel

section
variable {S V W : ℤ → ℂ}

theorem line_bounds (hS : InReach S) (hV : FlowOf (144/10000000) S V) (h1 : HighVoltage V) :
    (∀ l, ‖easyRadial.line (six V) l‖ ≤ lineJ l) ∧ ∀ k, ‖six V k‖ ≤ 5/3 := by
  have cc : (144/10000000 : ℝ) / (4/5) = 18/1000000 := by norm_num
  have z1 := missing_six hV h1
  rw [cc] at z1
  have bus : ∀ i : Fin 5, ‖NR.curr (ymat 5 easyLines) (six V) i.succ‖ ≤ 18/1000000 + powO i / (4/5) := by
    intro i
    have e : NR.curr (ymat 5 easyLines) (six V) i.succ = missing (ymat 5 easyLines) (fun k => S (k.1 + 1)) (six V) i + conj (S (i.1 + 1) / six V i.succ) := by
      rw [missing]; ring
    rw [e]
    refine (norm_add_le _ _).trans (add_le_add (z1 i) ?_)
    rw [RCLike.norm_conj, norm_div]
    exact div_le_div₀ ((norm_nonneg _).trans (reach_pow hS i)) (reach_pow hS i) (by norm_num) (by simpa [six] using h1 i)
  have line : ∀ l, ‖easyRadial.line (six V) l‖ ≤ lineJ l := by
    intro l
    rw [Radial.line, ← easyRadial.subtree]
    refine (norm_sum_le _ _).trans ?_
    rw [lineJ]
    push_cast
    exact Finset.sum_le_sum fun i _ => bus i
  refine ⟨line, fun k => ?_⟩
  refine Fin.cases ?_ (fun k => ?_) k
  · have : six V 0 = 1 := hV.1
    rw [this]
    norm_num
  · have e := easyRadial.sum_line (six V) k
    have e0 : six V 0 = 1 := hV.1
    rw [e0] at e
    have e1 : six V k.succ = 1 + ∑ l ∈ easyRadial.path k, easyRadial.z l * easyRadial.line (six V) l := by rw [← e]; ring
    rw [e1]
    have h2 := reward_ok.1 k
    rify at h2
    refine (norm_add_le _ _).trans (le_trans (add_le_add (by norm_num) ((norm_sum_le _ _).trans (Finset.sum_le_sum fun l _ => ?_))) h2)
    rw [norm_mul]
    exact mul_le_mul (easyZ_le l) (line l) (norm_nonneg _) ((norm_nonneg _).trans (easyZ_le l))

theorem near_lines (hS : InReach S) (hV : FlowOf (144/10000000) S V) (hW : FlowOf (144/10000000) S W) (h1 : HighVoltage V) (h2 : HighVoltage W) :
    (∀ k, ‖six V k.succ - six W k.succ‖ ≤ oneE k) ∧ ∀ l, ‖easyRadial.line (six V) l - easyRadial.line (six W) l‖ ≤ lineD l := by
  have cc : (144/10000000 : ℝ) / (4/5) = 18/1000000 := by norm_num
  have z1 := missing_six hV h1
  have z2 := missing_six hW h2
  rw [cc] at z1 z2
  obtain ⟨r1, r2⟩ := easyRadial.close (lo := fun _ => 4/5) (lo' := fun _ => 4/5) (e := fun k => oneE k) (c := fun _ => 18/1000000) (c' := fun _ => 18/1000000)
      (s := fun k => powO k) (zn := fun l => easyZn l) hV.1 hW.1 (reach_pow hS) easyZ_le (fun _ => by norm_num) (fun _ => by norm_num)
      (fun k => by simpa [six] using h1 k) (fun k => by simpa [six] using h2 k) z1 z2 (fun k => by exact_mod_cast (one_ok.2.2.2 k).2) (fun k => by
        have := one_ok.1 k
        rify at this
        exact this)
  refine ⟨r1, fun l => (r2 l).trans ?_⟩
  rw [lineD]
  push_cast
  exact le_rfl

/-- The apparent power of a line. -/
def appar (x : Fin 6 → ℂ) (l : Fin 5) : ℝ := max ‖x (easyRadial.par l)‖ ‖x l.succ‖ * ‖easyRadial.line x l‖

def vLo : Fin 6 → ℝ := ![1, 9/10, 9/10, 9/10, 9/10, 9/10]
def vHi : Fin 6 → ℝ := ![1, 11/10, 11/10, 11/10, 11/10, 11/10]
def sHi : Fin 5 → ℝ := ![32/100, 25/100, 18/100, 18/100, 18/100]

/-- The sum of the violations of the limits, where the lines outside `m` carry nothing. -/
def over (m : Fin 5 → Prop) [DecidablePred m] (x : Fin 6 → ℂ) : ℝ :=
  ∑ k, (max 0 (‖x k‖ - vHi k) + max 0 (vLo k - ‖x k‖)) + ∑ l, max 0 ((if m l then appar x l else 0) - sHi l)

theorem max_close (a b : ℝ) : |max 0 a - max 0 b| ≤ |a - b| := by
  rw [max_comm 0 a, max_comm 0 b]
  exact abs_max_sub_max_le_abs a b 0

theorem over_close (hS : InReach S) (hV : FlowOf (144/10000000) S V) (hW : FlowOf (144/10000000) S W) (h1 : HighVoltage V) (h2 : HighVoltage W)
    (m : Fin 5 → Prop) [DecidablePred m] : |over m (six V) * 25 - over m (six W) * 25| ≤ 17/100 := by
  obtain ⟨n1, n2⟩ := near_lines hS hV hW h1 h2
  obtain ⟨b1, b2⟩ := line_bounds hS hV h1
  obtain ⟨c1, c2⟩ := line_bounds hS hW h2
  have z : six V 0 = six W 0 := hV.1.trans hW.1.symm
  have v2 : ∀ k, |‖six V k‖ - ‖six W k‖| ≤ 2/10000 := by
    intro k
    refine (abs_norm_sub_norm_le _ _).trans ?_
    refine Fin.cases ?_ (fun k => ?_) k
    · rw [z, sub_self, norm_zero]; norm_num
    · have := (one_ok.2.2.2 k).1
      rify at this
      exact (n1 k).trans this
  have bus : |∑ k, (max 0 (‖six V k‖ - vHi k) + max 0 (vLo k - ‖six V k‖)) - ∑ k, (max 0 (‖six W k‖ - vHi k) + max 0 (vLo k - ‖six W k‖))| ≤
      ∑ k, 2 * (oneE k : ℝ) := by
    rw [← Finset.sum_sub_distrib, Fin.sum_univ_succ, z, sub_self, zero_add]
    refine (Finset.abs_sum_le_sum_abs _ _).trans (Finset.sum_le_sum fun k _ => ?_)
    have h3 := (abs_norm_sub_norm_le _ _).trans (n1 k)
    have h4 := max_close (‖six V k.succ‖ - vHi k.succ) (‖six W k.succ‖ - vHi k.succ)
    have h5 := max_close (vLo k.succ - ‖six V k.succ‖) (vLo k.succ - ‖six W k.succ‖)
    rw [sub_sub_sub_cancel_right] at h4
    rw [sub_sub_sub_cancel_left, abs_sub_comm ‖six W k.succ‖] at h5
    rw [add_sub_add_comm]
    refine (abs_add_le _ _).trans ?_
    linarith
  have line : |∑ l, max 0 ((if m l then appar (six V) l else 0) - sHi l) - ∑ l, max 0 ((if m l then appar (six W) l else 0) - sHi l)| ≤ ∑ l, (5/3 * (lineD l : ℝ) + lineJ l * (2/10000)) := by
    rw [← Finset.sum_sub_distrib]
    refine (Finset.abs_sum_le_sum_abs _ _).trans (Finset.sum_le_sum fun l _ => ?_)
    have h4 := max_close ((if m l then appar (six V) l else 0) - sHi l) ((if m l then appar (six W) l else 0) - sHi l)
    rw [sub_sub_sub_cancel_right] at h4
    refine h4.trans ?_
    by_cases hml : m l
    swap
    · simp only [if_neg hml, sub_self, abs_zero]
      have k1 := (norm_nonneg _).trans (n2 l)
      have k2 := (norm_nonneg _).trans (c1 l)
      positivity
    simp only [if_pos hml]
    unfold appar
    set m := max ‖six V (easyRadial.par l)‖ ‖six V l.succ‖ with hm
    set m' := max ‖six W (easyRadial.par l)‖ ‖six W l.succ‖ with hm'
    have e1 : |m - m'| ≤ 2/10000 := (abs_max_sub_max_le_max _ _ _ _).trans (max_le (v2 _) (v2 _))
    have e2 : m ≤ 5/3 := max_le (b2 _) (b2 _)
    have e0 : 0 ≤ m := (norm_nonneg _).trans (le_max_left _ _)
    have e3 : |‖easyRadial.line (six V) l‖ - ‖easyRadial.line (six W) l‖| ≤ lineD l := (abs_norm_sub_norm_le _ _).trans (n2 l)
    have e4 := c1 l
    generalize ‖easyRadial.line (six V) l‖ = j at e3 ⊢
    have e5 : 0 ≤ ‖easyRadial.line (six W) l‖ := norm_nonneg _
    generalize ‖easyRadial.line (six W) l‖ = j' at e3 e4 e5 ⊢
    have e6 : m * j - m' * j' = m * (j - j') + (m - m') * j' := by ring
    rw [e6]
    refine (abs_add_le _ _).trans (add_le_add ?_ ?_)
    · rw [abs_mul, abs_of_nonneg e0]
      exact mul_le_mul e2 e3 (abs_nonneg _) (by norm_num)
    · rw [abs_mul, abs_of_nonneg e5, mul_comm]
      exact mul_le_mul e4 e1 (abs_nonneg _) (e5.trans e4)
  have cert := reward_ok.2.1
  rify at cert
  rw [← sub_mul, abs_mul, abs_of_nonneg (by norm_num : (0 : ℝ) ≤ 25)]
  refine le_trans (mul_le_mul_of_nonneg_right ?_ (by norm_num)) cert
  unfold over
  rw [add_sub_add_comm]
  exact (abs_add_le _ _).trans (add_le_add bus line)

end

section
variable {o o₁ o₂ : LFOracle} {qp : QP ℝ} {pi : ℝ} {s s' s₁ s₂ : Sim ℝ} {a : Sim.Args ℝ} {out out₁ out₂ : Sim.TransOut ℝ} {p q : ℕ → ℝ}
  {d0 d1 d2 d3 d4 d5 d6 : Device ℝ}

/-- The penalty in terms of the voltages. -/
theorem solved_penalty (hs : SimOf anm6Net (.fin (1/4)) (.fin 100) s) (hc : SameConfig easySim s) (h : s.transition ⟨qp, realPF o, pi⟩ a = .ok (s', out))
    {V : ℤ → ℂ} (hV : Solved s' easyLines V) {m : Fin 5 → Prop} [DecidablePred m]
    (hp : ∀ (k : Fin 5) (b : Branch ℝ), s'.branches[k.1]? = some b → (m k ↔ b.flow.pFrom ≠ .fin 0)) : out.penalty = .fin (over m (six V) * 25) := by
  have hc' := sameConfig_trans hc (sameConfig_transition h)
  have hm' := numbered_same hc' easy_numbered
  obtain ⟨bp, hbp, -, e2⟩ := penalty_inv h
  obtain ⟨b0, b1, b2, b3, b4, b5, hb, ⟨v0, w0⟩, hlim⟩ := easy_buses hc'
  have ids := hm'.ids
  rw [hb] at ids
  simp only [List.map_cons, List.map_nil, List.range_succ, List.range_zero] at ids
  have i0 : b0.id = 0 ∧ b1.id = 1 ∧ b2.id = 2 ∧ b3.id = 3 ∧ b4.id = 4 ∧ b5.id = 5 := by simpa using ids
  obtain ⟨i0, i1, i2, i3, i4, i5⟩ := i0
  have bus : ∀ {b : Bus ℝ} {lo hi : ℝ} (k : Fin 6), b ∈ s'.buses → b.id = (k.1 : ℤ) → b.vMin = some (.fin lo) → b.vMax = .fin hi →
      Sim.busPenalty b = .ok (.fin (max 0 (‖six V k‖ - hi) + max 0 (lo - ‖six V k‖))) := by
    intro b lo hi k hbm hid hlo hhi
    simp only [Sim.busPenalty, hlo, hhi, hV.v b hbm, hid, Phasor.ofC, X.fin_sub_fin, X.zero_def, X.max_fin, X.fin_add_fin, six]
  have P0 := bus 0 (b := b0) (by simp [hb]) i0 v0 w0
  have P1 := bus 1 (b := b1) (by simp [hb]) i1 (hlim b1 (by simp)).1 (hlim b1 (by simp)).2
  have P2 := bus 2 (b := b2) (by simp [hb]) i2 (hlim b2 (by simp)).1 (hlim b2 (by simp)).2
  have P3 := bus 3 (b := b3) (by simp [hb]) i3 (hlim b3 (by simp)).1 (hlim b3 (by simp)).2
  have P4 := bus 4 (b := b4) (by simp [hb]) i4 (hlim b4 (by simp)).1 (hlim b4 (by simp)).2
  have P5 := bus 5 (b := b5) (by simp [hb]) i5 (hlim b5 (by simp)).1 (hlim b5 (by simp)).2
  rw [hb] at hbp
  simp only [mapE, P0, P1, P2, P3, P4, P5, bind, Except.bind, pure, Except.pure, Except.ok.injEq] at hbp
  have fl := hV.flow
  have hl := easy_lines hc'
  have jj := easy_line_volts (six V)
  unfold easyLines at fl jj
  simp only [List.forall₂_cons_right_iff, List.forall₂_nil_right_iff] at fl
  obtain ⟨c1, _, ⟨-, f1⟩, ⟨c2, _, ⟨-, f2⟩, ⟨c3, _, ⟨-, f3⟩, ⟨c4, _, ⟨-, f4⟩, ⟨c5, _, ⟨-, f5⟩, rfl, rfl⟩, rfl⟩, rfl⟩, rfl⟩, hbr⟩ := fl
  rw [hbr] at hl
  simp only [anm6Lines, List.map_cons, List.map_nil, List.cons.injEq, and_true] at hl
  obtain ⟨l1, l2, l3, l4, l5⟩ := hl
  simp only [List.forall₂_cons, List.forall₂_nil_right_iff, and_true] at jj
  obtain ⟨j1, j2, j3, j4, j5⟩ := jj
  have br : ∀ {c : Branch ℝ} {l : LineC} {j : ℂ} (k : Fin 5) (f t : Fin 6) {R : ℝ}, s'.branches[k.1]? = some c → c.flow = l.flow (V l.fBus) (V l.tBus) →
      l.fBus = (f.1 : ℤ) → l.tBus = (t.1 : ℤ) → (l.iFrom (atId (six V) l.fBus) (atId (six V) l.tBus) = -j ∧ l.iTo (atId (six V) l.fBus) (atId (six V) l.tBus) = j) →
      c.line.rate = .fin R → Sim.branchPenalty c = .fin (max 0 ((if m k then max ‖six V f‖ ‖six V t‖ * ‖j‖ else 0) - R)) := by
    intro c l j k f t R hcm hfl hf ht hj hR
    have hcar := hp k c hcm
    rw [hf, ht, atId_six V (by omega) (by omega), atId_six V (by omega) (by omega)] at hj
    rw [hf, ht] at hfl
    rw [hfl] at hcar
    by_cases hmk : m k
    swap
    · have z := C34_zero l (V (f.1 : ℤ)) (V (t.1 : ℤ)) (by
        have := not_not.1 (mt hcar.2 hmk)
        simpa [LineC.flow] using this)
      rw [Sim.branchPenalty, hfl, z, hR, if_neg hmk]
      simp only [X.abs, X.fin_sub_fin, X.zero_def, X.max_fin, abs_zero]
    replace hcar := hcar.1 hmk
    rw [if_pos hmk]
    obtain ⟨x, x1, x2, -⟩ := C34_apparent_power_partial l (V (f.1 : ℤ)) (V (t.1 : ℤ)) (fun e => hcar (by simp [LineC.flow, e]))
    rw [Sim.branchPenalty, hfl, x1, hR]
    have x3 : |x| = max ‖six V f‖ ‖six V t‖ * ‖j‖ := by
      rw [x2, LineC.sFrom, LineC.sTo, hj.1, hj.2, norm_mul, norm_mul, RCLike.norm_conj, RCLike.norm_conj, norm_neg, max_mul_of_nonneg _ _ (norm_nonneg j)]
      rfl
    simp only [X.abs, X.fin_sub_fin, X.zero_def, X.max_fin, x3]
  have B1 := br 0 0 1 (c := c1) (by rw [hbr]; rfl) f1 rfl rfl j1 (by rw [l1])
  have B2 := br 1 1 2 (c := c2) (by rw [hbr]; rfl) f2 rfl rfl j2 (by rw [l2])
  have B3 := br 2 1 3 (c := c3) (by rw [hbr]; rfl) f3 rfl rfl j3 (by rw [l3])
  have B4 := br 3 2 4 (c := c4) (by rw [hbr]; rfl) f4 rfl rfl j4 (by rw [l4])
  have B5 := br 4 2 5 (c := c5) (by rw [hbr]; rfl) f5 rfl rfl j5 (by rw [l5])
  have hdt : s.deltaT = .fin (1/4) := (simOf_base hs).2.1
  have hlam : s.lamb = .fin 100 := (simOf_base hs).2.2
  rw [e2, violations, ← hbp, hbr, hdt, hlam]
  simp only [List.foldl, B1, B2, B3, B4, B5, X.zero_def, X.fin_add_fin, X.fin_mul_fin, X.fin.injEq]
  have a1 : appar (six V) 0 = max ‖six V 0‖ ‖six V 1‖ * ‖(six V 1 - six V 0) / easyZ 0‖ := rfl
  have a2 : appar (six V) 1 = max ‖six V 1‖ ‖six V 2‖ * ‖(six V 2 - six V 1) / easyZ 1‖ := rfl
  have a3 : appar (six V) 2 = max ‖six V 1‖ ‖six V 3‖ * ‖(six V 3 - six V 1) / easyZ 2‖ := rfl
  have a4 : appar (six V) 3 = max ‖six V 2‖ ‖six V 4‖ * ‖(six V 4 - six V 2) / easyZ 3‖ := rfl
  have a5 : appar (six V) 4 = max ‖six V 2‖ ‖six V 5‖ * ‖(six V 5 - six V 2) / easyZ 4‖ := rfl
  rw [← a1, ← a2, ← a3, ← a4, ← a5, over, Fin.sum_univ_six, Fin.sum_univ_five]
  simp only [vLo, vHi, sHi, Matrix.cons_val]
  ring

/-- **C153, transitions.** Two linear solvers and the same action: the penalties differ by at most 0.17. -/
theorem C153_transition (hs : SimOf anm6Net (.fin (1/4)) (.fin 100) s) (hc : SameConfig easySim s)
    (h₁ : s.transition ⟨qp, realPF o₁, pi⟩ a = .ok (s₁, out₁)) (h₂ : s.transition ⟨qp, realPF o₂, pi⟩ a = .ok (s₂, out₂))
    (c₁ : out₁.converged = true) (c₂ : out₂.converged = true) (v₁ : HighVoltage (busVoltage s₁)) (v₂ : HighVoltage (busVoltage s₂))
    (D : Injects s₁ p q d0 d1 d2 d3 d4 d5 d6) (R : InReach (busPowers p q)) (hi : SameIdle s₁ s₂) :
    ∃ x₁ x₂, out₁.penalty = .fin x₁ ∧ out₂.penalty = .fin x₂ ∧ |x₁ - x₂| ≤ 17/100 := by
  classical
  obtain ⟨e0, E, -, -⟩ := easy_inject h₁ h₂ hc D
  obtain ⟨V, hV, FV⟩ := easy_flow hs hc h₁ c₁ D
  obtain ⟨U, hU, FU⟩ := easy_flow hs hc h₂ c₂ E
  have w1 := solved_high (sameConfig_trans hc (sameConfig_transition h₁)) hV v₁
  have w2 := solved_high (sameConfig_trans hc (sameConfig_transition h₂)) hU v₂
  set m : Fin 5 → Prop := fun k => ∀ b, s₁.branches[k.1]? = some b → b.flow.pFrom ≠ .fin 0 with hm
  refine ⟨_, _, solved_penalty hs hc h₁ hV (m := m) (fun k b hb => ?_), solved_penalty hs hc h₂ hU (m := m) (fun k b hb => ?_), over_close R FV FU w1 w2 m⟩
  · exact ⟨fun h => h b hb, fun h b' hb' => by rw [hb] at hb'; cases hb'; exact h⟩
  · obtain ⟨hlen, hget⟩ := List.forall₂_iff_get.1 hi
    obtain ⟨hk, hbk⟩ := List.getElem?_eq_some_iff.1 hb
    have hk' : k.1 < s₁.branches.length := by rw [hlen]; exact hk
    have g := hget k.1 hk' hk
    simp only [List.get_eq_getElem, hbk] at g
    constructor
    · exact fun h e => h _ (List.getElem?_eq_getElem hk') (g.2 e)
    · intro h b' hb' e
      rw [List.getElem?_eq_getElem hk'] at hb'
      cases hb'
      exact h (g.1 e)

end

variable {ρ : Type} {w₁ w₂ : EasyWorld ℝ ρ} {s0 : Sim ℝ} {a₁ a₂ a₁' a₂' : Anm6 ℝ ρ}

/-- **C153, step.** Two environments with different linear solvers, with the same energy stored and the same time of day: the rewards of the same action
differ by at most 0.171. -/
theorem C153_step {o₁ o₂ : LFOracle} {qp : QP ℝ} {pi : ℝ} (W : OtherSolver w₁ w₂ o₁ o₂ qp pi) (h₁ : EasyOf w₁ s0 a₁) (h₂ : EasyOf w₂ s0 a₂)
    (T : Together a₁ a₂) {u : List (X ℝ)} {x₁ x₂ : Env.StepOut ℝ} (k₁ : a₁.step (easyCtx w₁ s0) u = .ok (a₁', x₁))
    (k₂ : a₂.step (easyCtx w₂ s0) u = .ok (a₂', x₂)) (f₁ : x₁.terminated = false) (f₂ : x₂.terminated = false)
    (v₁ : HighVoltage (busVoltage a₁'.env.sim)) (v₂ : HighVoltage (busVoltage a₂'.env.sim)) (hi : SameIdle a₁'.env.sim a₂'.env.sim) :
    ∃ r₁ r₂, x₁.reward = .fin r₁ ∧ x₂.reward = .fin r₂ ∧ |r₁ - r₂| ≤ 171/1000 := by
  obtain ⟨z₁, z₂, p', q', g', p'', q'', g'', e', t', l₁, l₂, hz₁, hz₂, -, -, -, -, -, -, -, -, -, -, L₁, L₂, L⟩ := C152_step W h₁ h₂ T k₁ k₂ f₁ f₂ v₁ v₂
  obtain ⟨y₁, y₂, p, q, g, p', q', g', e, t, hy₁, hy₂, t₁, t₂, V₁, V₂⟩ := T
  obtain ⟨args, out₁, out₂, y₁', y₂', pp, qq, b0, b1, b2, b3, b4, b5, b6, tr₁, tr₂, c₁, c₂, J, R, hy₁', hy₂', -, -, R₁, R₂⟩ :=
    both_transition W h₁ h₂ hy₁ hy₂ t₁ t₂ V₁ V₂ k₁ k₂ f₁ f₂
  rw [hz₁] at hy₁'
  cases hy₁'
  rw [hz₂] at hy₂'
  cases hy₂'
  obtain ⟨r₁, -, m₁⟩ := clipped_loss h₁ R₁
  obtain ⟨r₂, -, m₂⟩ := clipped_loss h₂ R₂
  obtain ⟨n₁, n₂, N₁, N₂, N⟩ := C153_transition (envOf_simOf (easy_env h₁)) (easy_sameConfig h₁) tr₁ tr₂ c₁ c₂ v₁ v₂ J R hi
  rw [N₁, X.zero_def, X.clip_fin (by norm_num)] at m₁
  rw [N₂, X.zero_def, X.clip_fin (by norm_num)] at m₂
  rw [L₁, m₁, X.fin_add_fin, X.neg_fin] at r₁
  rw [L₂, m₂, X.fin_add_fin, X.neg_fin] at r₂
  refine ⟨_, _, r₁, r₂, ?_⟩
  have c : |min (max 0 n₁) 100 - min (max 0 n₂) 100| ≤ 17/100 :=
    (abs_min_sub_min_le_max _ _ _ _).trans (max_le ((max_close n₁ n₂).trans N) (by norm_num))
  rw [abs_le] at c L ⊢
  constructor <;> linarith [c.1, c.2, L.1, L.2]

/-- C153 applies to steps in which nothing is done. -/
example {o : LFOracle} (x : ExactLF o) {k : ℕ} (hk : k < 96) : ∃ (a a' : Anm6 ℝ Unit) (z : Env.StepOut ℝ),
    OtherSolver (exactWorld o k) (exactWorld o k) o o exactQP Real.pi ∧ EasyOf (exactWorld o k) easySim a ∧ Together a a ∧
    a.step (easyCtx (exactWorld o k) easySim) nothing = .ok (a', z) ∧ z.terminated = false ∧ HighVoltage (busVoltage a'.env.sim) ∧
    SameIdle a'.env.sim a'.env.sim ∧ ∃ r, z.reward = .fin r := by
  obtain ⟨a, a', z, y, p, q, g, h1, h2, h3, h4, h5, h6, h7⟩ := idle_high x hk
  have W : OtherSolver (exactWorld o k) (exactWorld o k) o o exactQP Real.pi := ⟨rfl, rfl, fair_play k, fair_play k, C16_exact_solver_exists, exactQP_sound⟩
  have T : Together a a := ⟨y, y, p, q, g, p, q, g, _, _, h2, h2, h3, h3, h4, h4⟩
  have hi : SameIdle a'.env.sim a'.env.sim := List.forall₂_same.2 fun _ _ => Iff.rfl
  obtain ⟨r, -, hr, -⟩ := C153_step W h1 h1 T h5 h5 h6 h6 h7 h7 hi
  exact ⟨a, a', z, W, h1, T, h5, h6, h7, hi, r, hr⟩

end

end Anm
