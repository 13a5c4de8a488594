import Verif.Props.Reported

/-! # C37: reward and penalty -/

set_option linter.unusedSectionVars false

namespace Anm

open Spec

namespace Spec
variable {K : Type} [Field K] [LinearOrder K]

/-- `a - b` is meaningful: no NaN, and not the difference of two equal infinities. -/
def Comparable (a b : X K) : Prop :=
  X.NotNan a ∧ X.NotNan b ∧ ¬ (a = .pinf ∧ b = .pinf) ∧ ¬ (a = .ninf ∧ b = .ninf)

/-- The reported magnitudes can be compared with the operating limits. -/
structure Measured (s : Sim K) : Prop where
  vMax : ∀ b ∈ s.buses, Comparable b.v.abs b.vMax
  vMin : ∀ b ∈ s.buses, ∀ v, b.vMin = some v → Comparable b.v.abs v
  rate : ∀ b ∈ s.branches, Comparable (X.abs b.flow.sApparentMax) b.line.rate

/-- All voltages are within `[v_min, v_max]` and all apparent flows within the ratings. -/
structure WithinLimits (s : Sim K) : Prop where
  v : ∀ b ∈ s.buses, ∃ lo, b.vMin = some lo ∧ lo ≤ b.v.abs ∧ b.v.abs ≤ b.vMax
  s : ∀ b ∈ s.branches, X.abs b.flow.sApparentMax ≤ b.line.rate

end Spec

section
variable {K : Type} [Field K] [LinearOrder K] [IsStrictOrderedRing K]

theorem X.maximum_fin (x y : K) : X.maximum (.fin x) (.fin y) = .fin (max x y) := by
  simp only [X.maximum, reduceCtorEq, if_false, X.fin_le_fin]
  split
  · rename_i h; rw [max_eq_left h]
  · rename_i h; rw [max_eq_right (not_le.1 h).le]

/-- `maximum 0 (a - b)` is a violation: non-negative, and 0 exactly when `a <= b`. -/
theorem violation {a b : X K} (h : Comparable a b) :
    (0 : X K) ≤ X.maximum 0 (a - b) ∧ (X.maximum 0 (a - b) = 0 ↔ a ≤ b) := by
  obtain ⟨h1, h2, h3, h4⟩ := h
  cases a with
  | nan => exact absurd h1 (by simp)
  | ninf =>
    cases b with
    | nan => exact absurd h2 (by simp)
    | ninf => exact absurd ⟨rfl, rfl⟩ h4
    | fin y =>
      have e : (X.ninf : X K) - .fin y = .ninf := rfl
      rw [e]; simp [X.maximum, X.zero_def]
    | pinf =>
      have e : (X.ninf : X K) - .pinf = .ninf := rfl
      rw [e]; simp [X.maximum, X.zero_def]
  | pinf =>
    cases b with
    | nan => exact absurd h2 (by simp)
    | pinf => exact absurd ⟨rfl, rfl⟩ h3
    | fin y =>
      have e : (X.pinf : X K) - .fin y = .pinf := rfl
      rw [e]; simp [X.maximum, X.zero_def]
    | ninf =>
      have e : (X.pinf : X K) - .ninf = .pinf := rfl
      rw [e]; simp [X.maximum, X.zero_def]
  | fin x =>
    cases b with
    | nan => exact absurd h2 (by simp)
    | pinf =>
      have e : (X.fin x : X K) - .pinf = .ninf := rfl
      rw [e]; simp [X.maximum, X.zero_def]
    | ninf =>
      have e : (X.fin x : X K) - .ninf = .pinf := rfl
      rw [e]; simp [X.maximum, X.zero_def]
    | fin y =>
      simp only [X.fin_sub_fin, X.zero_def, X.maximum_fin, X.fin_le_fin, X.fin.injEq, max_eq_left_iff,
        sub_nonpos, le_max_left, true_and]

theorem violation_fin {a b : X K} (h : Comparable a b) (ha : X.IsFin a) (hb : X.IsFin b) :
    X.IsFin (X.maximum 0 (a - b)) := by
  obtain ⟨x, rfl⟩ := X.isFin_iff.1 ha
  obtain ⟨y, rfl⟩ := X.isFin_iff.1 hb
  simp only [X.fin_sub_fin, X.zero_def, X.maximum_fin]
  trivial

theorem nonneg_add {a b : X K} (ha : 0 ≤ a) (hb : 0 ≤ b) :
    (0 : X K) ≤ a + b ∧ (a + b = 0 ↔ a = 0 ∧ b = 0) := by
  cases a with
  | nan => simp at ha
  | ninf => simp [X.zero_def] at ha
  | pinf =>
    cases b with
    | nan => simp at hb
    | ninf => simp [X.zero_def] at hb
    | pinf =>
      have e : (X.pinf : X K) + .pinf = .pinf := rfl
      rw [e]; simp [X.zero_def]
    | fin y =>
      have e : (X.pinf : X K) + .fin y = .pinf := rfl
      rw [e]; simp [X.zero_def]
  | fin x =>
    cases b with
    | nan => simp at hb
    | ninf => simp [X.zero_def] at hb
    | pinf =>
      have e : (X.fin x : X K) + .pinf = .pinf := rfl
      rw [e]; simp [X.zero_def]
    | fin y =>
      simp only [X.zero_def, X.fin_le_fin, X.fin_add_fin, X.fin.injEq] at *
      exact ⟨add_nonneg ha hb, add_eq_zero_iff_of_nonneg ha hb⟩

theorem foldl_nonneg {α : Type} (f : α → X K) (l : List α) (hf : ∀ x ∈ l, 0 ≤ f x) {a : X K}
    (ha : 0 ≤ a) : 0 ≤ l.foldl (fun a x => a + f x) a ∧
      (l.foldl (fun a x => a + f x) a = 0 ↔ a = 0 ∧ ∀ x ∈ l, f x = 0) := by
  induction l generalizing a with
  | nil => simpa using ha
  | cons x l ih =>
    have h1 := nonneg_add ha (hf x (by simp))
    obtain ⟨i1, i2⟩ := ih (fun y hy => hf y (by simp [hy])) h1.1
    refine ⟨i1, ?_⟩
    rw [List.foldl_cons, i2, h1.2, List.forall_mem_cons, and_assoc]

theorem foldl_fin {α : Type} (f : α → X K) (l : List α) (hf : ∀ x ∈ l, X.IsFin (f x)) {a : X K}
    (ha : X.IsFin a) : X.IsFin (l.foldl (fun a x => a + f x) a) := by
  induction l generalizing a with
  | nil => exact ha
  | cons x l ih =>
    refine ih (fun y hy => hf y (by simp [hy])) ?_
    obtain ⟨x', e1⟩ := X.isFin_iff.1 ha
    obtain ⟨y', e2⟩ := X.isFin_iff.1 (hf x (by simp))
    show X.IsFin (a + f x)
    rw [e1, e2]; trivial

theorem mul_pos_nonneg {a : X K} {k : K} (ha : 0 ≤ a) (hk : 0 < k) :
    (0 : X K) ≤ a * .fin k ∧ (a * .fin k = 0 ↔ a = 0) := by
  cases a with
  | nan => simp at ha
  | ninf => simp [X.zero_def] at ha
  | pinf =>
    have e : (X.pinf : X K) * .fin k = .pinf := by
      show X.mul _ _ = _
      simp [X.mul, X.sgn, X.infOf, hk]
    rw [e]; simp [X.zero_def]
  | fin x =>
    simp only [X.zero_def, X.fin_le_fin, X.fin_mul_fin, X.fin.injEq] at *
    exact ⟨mul_nonneg ha hk.le, by simp [hk.ne']⟩

/-- Voltage violations of a bus. -/
theorem busPenalty_spec {b : Bus K} {x : X K} (h : Sim.busPenalty b = .ok x)
    (h1 : Comparable b.v.abs b.vMax) (h2 : ∀ v, b.vMin = some v → Comparable b.v.abs v) :
    0 ≤ x ∧ (x = 0 ↔ ∃ lo, b.vMin = some lo ∧ lo ≤ b.v.abs ∧ b.v.abs ≤ b.vMax) := by
  unfold Sim.busPenalty at h
  split at h
  · cases h
  · rename_i v hv
    injection h with h
    subst h
    have c2 : Comparable v b.v.abs := by
      obtain ⟨a1, a2, a3, a4⟩ := h2 v hv
      exact ⟨a2, a1, fun h => a3 h.symm, fun h => a4 h.symm⟩
    have v1 := violation h1
    have v2 := violation c2
    have hs := nonneg_add v1.1 v2.1
    refine ⟨hs.1, ?_⟩
    rw [hs.2, v1.2, v2.2]
    constructor
    · rintro ⟨a, b⟩; exact ⟨v, hv, b, a⟩
    · rintro ⟨lo, e, a, b⟩
      rw [hv] at e
      injection e with e
      subst e
      exact ⟨b, a⟩

/-- The sum of all violations, before the weight. -/
def violations (s : Sim K) (bp : List (X K)) : X K :=
  s.branches.foldl (fun a b => a + Sim.branchPenalty b) (bp.foldl (· + ·) 0)

theorem violations_spec {s : Sim K} {bp : List (X K)} (hbp : mapE Sim.busPenalty s.buses = .ok bp)
    (hm : Measured s) : 0 ≤ violations s bp ∧ (violations s bp = 0 ↔ WithinLimits s) := by
  have hF := mapE_ok.1 hbp
  have n1 : ∀ x ∈ bp, (0 : X K) ≤ x := by
    intro x hx
    obtain ⟨b, hb, hbx⟩ := forall₂_mem_right hF hx
    exact (busPenalty_spec hbx (hm.vMax b hb) (hm.vMin b hb)).1
  have n2 : ∀ b ∈ s.branches, (0 : X K) ≤ Sim.branchPenalty b := fun b hb =>
    (violation (hm.rate b hb)).1
  have f1 := foldl_nonneg (fun x : X K => x) bp n1 (a := 0) (by simp [X.zero_def])
  have f2 := foldl_nonneg Sim.branchPenalty s.branches n2 f1.1
  refine ⟨f2.1, ?_⟩
  unfold violations
  rw [f2.2, f1.2]
  constructor
  · rintro ⟨⟨_, h1⟩, h2⟩
    refine ⟨fun b hb => ?_, fun b hb => (violation (hm.rate b hb)).2.1 (h2 b hb)⟩
    obtain ⟨x, hx, hbx⟩ := forall₂_mem_left hF hb
    exact (busPenalty_spec hbx (hm.vMax b hb) (hm.vMin b hb)).2.1 (h1 x hx)
  · rintro ⟨h1, h2⟩
    refine ⟨⟨rfl, fun x hx => ?_⟩, fun b hb => (violation (hm.rate b hb)).2.2 (h2 b hb)⟩
    obtain ⟨b, hb, hbx⟩ := forall₂_mem_right hF hx
    exact (busPenalty_spec hbx (hm.vMax b hb) (hm.vMin b hb)).2.2 (h1 b hb)

variable {c : Ctx K} {s s' : Sim K} {a : Sim.Args K} {out : Sim.TransOut K}

theorem penalty_inv (h : s.transition c a = .ok (s', out)) :
    ∃ bp, mapE Sim.busPenalty s'.buses = .ok bp ∧ out.reward = -(out.eLoss + out.penalty) ∧
      out.penalty = violations s' bp * (s.deltaT * s.lamb) := by
  have hc := sameConfig_transition h
  obtain ⟨ds, o, I⟩ := transition_ok h
  have hr := I.reward
  simp only [Sim.computeReward, bind_ok, pure_ok, Prod.mk.injEq] at hr
  obtain ⟨bp, hbp, e1, e2, e3⟩ := hr
  refine ⟨bp, hbp, ?_, ?_⟩
  · rw [← e1, ← e2, ← e3]
  · rw [← e3, hc.dt, hc.lamb]; rfl

/-- **C37.** The reward is `-(e_loss + penalty)`.  If the reported magnitudes can be compared with the
limits, the time step is positive and `lamb > 0`, then the penalty is not negative, and it is 0 exactly
when all voltages and flows are within their limits. -/
theorem C37_penalty {t l : K} (h : s.transition c a = .ok (s', out)) (hd : s.deltaT = .fin t)
    (hl : s.lamb = .fin l) (ht : 0 < t) (hl0 : 0 < l) (hm : Measured s') :
    out.reward = -(out.eLoss + out.penalty) ∧ 0 ≤ out.penalty ∧
      (out.penalty = 0 ↔ WithinLimits s') := by
  obtain ⟨bp, hbp, e1, e2⟩ := penalty_inv h
  obtain ⟨v1, v2⟩ := violations_spec hbp hm
  rw [e1, e2, hd, hl, X.fin_mul_fin]
  have := mul_pos_nonneg v1 (mul_pos ht hl0)
  exact ⟨rfl, this.1, this.2.trans v2⟩

/-- **C37, `lamb = 0`.** Without weight the penalty is 0 (if magnitudes and limits are finite). -/
theorem C37_no_weight {t : K} (h : s.transition c a = .ok (s', out)) (hd : s.deltaT = .fin t)
    (hl : s.lamb = .fin 0) (hm : Measured s')
    (hb : ∀ b ∈ s'.buses, X.IsFin b.v.abs ∧ X.IsFin b.vMax ∧ ∀ v, b.vMin = some v → X.IsFin v)
    (hr : ∀ b ∈ s'.branches, X.IsFin b.flow.sApparentMax ∧ X.IsFin b.line.rate) :
    out.penalty = 0 ∧ out.reward = -(out.eLoss + 0) := by
  obtain ⟨bp, hbp, e1, e2⟩ := penalty_inv h
  have hF := mapE_ok.1 hbp
  have n1 : ∀ x ∈ bp, X.IsFin x := by
    intro x hx
    obtain ⟨b, hb', hbx⟩ := forall₂_mem_right hF hx
    obtain ⟨f1, f2, f3⟩ := hb b hb'
    unfold Sim.busPenalty at hbx
    split at hbx
    · cases hbx
    · rename_i v hv
      injection hbx with hbx
      subst hbx
      obtain ⟨a1, a2, a3, a4⟩ := hm.vMin b hb' v hv
      obtain ⟨x', e3⟩ := X.isFin_iff.1 (violation_fin (hm.vMax b hb') f1 f2)
      obtain ⟨y', e4⟩ := X.isFin_iff.1 (violation_fin
        (⟨a2, a1, fun h => a3 h.symm, fun h => a4 h.symm⟩ : Comparable v b.v.abs) (f3 v hv) f1)
      rw [e3, e4]; trivial
  have n2 : ∀ b ∈ s'.branches, X.IsFin (Sim.branchPenalty b) := fun b hb' => by
    obtain ⟨f1, f2⟩ := hr b hb'
    refine violation_fin (hm.rate b hb') ?_ f2
    obtain ⟨x, e⟩ := X.isFin_iff.1 f1
    rw [e]; simp only [X.abs]; trivial
  have f1 := foldl_fin (fun x : X K => x) bp n1 (a := 0) trivial
  obtain ⟨v, hv⟩ := X.isFin_iff.1 (foldl_fin Sim.branchPenalty s'.branches n2 f1)
  have : out.penalty = 0 := by
    rw [e2, hd, hl, X.fin_mul_fin]
    unfold violations
    rw [hv, X.fin_mul_fin, mul_zero, mul_zero]; rfl
  exact ⟨this, by rw [e1, this]⟩

end

/-- A converged power flow reports finite magnitudes. -/
theorem measured_converged {n : Network ℝ} {base : ℝ} {dt lam : X ℝ} {s s' : Sim ℝ} {m : ℕ}
    {ls : List LineC} {o : LFOracle} {qp : QP ℝ} {pi : ℝ} {a : Sim.Args ℝ} {out : Sim.TransOut ℝ}
    (hn : CleanFile n base) (hs : SimOf n dt lam s) (hm : Numbered s m)
    (hl : FiniteLines s ls) (h : s.transition ⟨qp, realPF o, pi⟩ a = .ok (s', out))
    (hc : out.converged = true) :
    (∀ b ∈ s'.buses, X.IsFin b.v.abs) ∧ (∀ b ∈ s'.branches, X.IsFin b.flow.sApparentMax) := by
  obtain ⟨V, hV, _⟩ := C25_converged hn hs hm hl h hc
  constructor
  · intro b hb
    rw [hV.v b hb]; trivial
  · intro b hb
    obtain ⟨c, hcm, hc1, hc2⟩ := forall₂_mem_left hV.flow hb
    rw [hc2]
    simp only [LineC.flow, LineC.sApparentMax, X.maximum_fin, X.sign]
    split
    · trivial
    split <;> trivial

section
variable {K : Type} [Field K] [LinearOrder K] [IsStrictOrderedRing K] [FloorRing K]
  {n : Network K} {base : K} {dt lam : X K} {s : Sim K}

theorem simOf_bus (h : SimOf n dt lam s) {b : Bus K} (hb : b ∈ s.buses) :
    ∃ r ∈ n.bus, ∃ b0, mkBus r = .ok b0 ∧ b.id = b0.id ∧ b.isSlack = b0.isSlack ∧
      b.baseKV = b0.baseKV ∧ b.vMax = b0.vMax ∧ b.vMin = b0.vMin := by
  obtain ⟨s0, h0, h1⟩ := h
  obtain ⟨_, buses, branches, devices, bl, brl, dl, I, rfl⟩ := mkSim_ok.1 h0
  obtain ⟨b1, hb1, hs⟩ := forall₂_mem_right h1.buses hb
  obtain ⟨b0, hb0, rfl⟩ := List.mem_map.1 hb1
  obtain ⟨r, hr, hm⟩ := I.bus_row hb0
  refine ⟨r, hr, b0, hm, ?_, ?_, ?_, ?_, ?_⟩ <;> rw [hs] <;> rfl

theorem simOf_branch (h : SimOf n dt lam s) {b : Branch K} (hb : b ∈ s.branches) :
    ∃ r ∈ n.branch, ∃ ids, mkLine r n.baseMVA ids = .ok b.line := by
  obtain ⟨s0, h0, h1⟩ := h
  obtain ⟨_, buses, branches, devices, bl, brl, dl, I, rfl⟩ := mkSim_ok.1 h0
  obtain ⟨b1, hb1, hs⟩ := forall₂_mem_right h1.branches hb
  obtain ⟨r, hr, hm⟩ := I.branch_row hb1
  exact ⟨r, hr, _, hs ▸ hm⟩

/-- The operating limits of a file without NaN cells are not NaN. -/
theorem measured_of_finite (hn : CleanFile n base) (h : SimOf n dt lam s)
    (hv : ∀ b ∈ s.buses, X.IsFin b.v.abs) (hf : ∀ b ∈ s.branches, X.IsFin b.flow.sApparentMax) :
    Measured s := by
  have hbp := basePos_of_simOf hn h
  have key : ∀ {x y : X K}, X.IsFin x → X.NotNan y → Comparable x y := by
    intro x y hx hy
    obtain ⟨a, rfl⟩ := X.isFin_iff.1 hx
    exact ⟨trivial, hy, by simp, by simp⟩
  refine ⟨fun b hb => key (hv b hb) ?_, fun b hb v hvm => key (hv b hb) ?_, fun b hb => key ?_ ?_⟩
  · obtain ⟨r, hr, b0, hm, _, _, _, e, _⟩ := simOf_bus h hb
    have := hn.bus r hr .vmax
    rw [(mkBus_ok hm).vMax.1] at this
    rw [e]; exact X.notNan_iff.2 fun e' => this (by rw [e'])
  · obtain ⟨r, hr, b0, hm, _, _, _, _, e⟩ := simOf_bus h hb
    have := hn.bus r hr .vmin
    rw [(mkBus_ok hm).vMin, ← e, hvm] at this
    exact X.notNan_iff.2 fun e' => this (by rw [e'])
  · obtain ⟨x, e⟩ := X.isFin_iff.1 (hf b hb)
    rw [e]; trivial
  · obtain ⟨r, hr, ids, hm⟩ := simOf_branch h hb
    rw [hn.base] at hm
    exact (X.le_notNan (C07_branch (hn.branch r hr) hbp hm).rate).2

end

/-- **C37, converged power flow.** For a clean file, a positive time step and `lamb > 0`: whenever the
power flow converged, the penalty is not negative and vanishes exactly when all limits are respected. -/
theorem C37_converged {n : Network ℝ} {base t l : ℝ} {s s' : Sim ℝ} {m : ℕ}
    {ls : List LineC} {o : LFOracle} {qp : QP ℝ} {pi : ℝ} {a : Sim.Args ℝ} {out : Sim.TransOut ℝ}
    (hn : CleanFile n base) (hs : SimOf n (.fin t) (.fin l) s) (ht : 0 < t) (hl0 : 0 < l)
    (hm : Numbered s m) (hl : FiniteLines s ls)
    (h : s.transition ⟨qp, realPF o, pi⟩ a = .ok (s', out)) (hc : out.converged = true) :
    out.reward = -(out.eLoss + out.penalty) ∧ 0 ≤ out.penalty ∧
      (out.penalty = 0 ↔ WithinLimits s') := by
  obtain ⟨h1, h2⟩ := measured_converged hn hs hm hl h hc
  obtain ⟨_, e1, e2⟩ := simOf_base hs
  exact C37_penalty h e1 e2 ht hl0 (measured_of_finite hn (simOf_transition hs h) h1 h2)

/-! ### Examples -/

/-- Voltages of 1 p.u. and an apparent flow of `x` on every branch. -/
def flowPF (v x : ℚ) : PF ℚ := fun _ =>
  let z : Phasor ℚ := ⟨0, 0, 0, 0⟩
  .ok { v := fun _ => ⟨.fin v, 0, .fin v, 0⟩, i := fun _ => z, slackP := 0, slackQ := 0,
        flow := fun _ => { sApparentMax := .fin x }, stable := true }

def rewardDemo (lam v x : ℚ) : Except PyErr (Sim ℚ × Sim ℚ × Sim.TransOut ℚ) := do
  let s0 ← mkSim demoNet (.fin (1/4)) (.fin lam)
  let c : Ctx ℚ := ⟨demoQP, flowPF v x, 22/7⟩
  let (s1, _) ← s0.reset c demoInit
  let (s2, o) ← s1.transition c (demoArgs (-40))
  pure (s1, s2, o)

instance (a b : X ℚ) : Decidable (Comparable a b) := by unfold Comparable; infer_instance

/-- Limits respected (penalty 0), overloaded branches (20 p.u.·h·λ), no weight. -/
example : ∃ x, rewardDemo 100 1 (-1/5) = .ok x ∧ (x.2.2.penalty = 0 ∧
    (∀ b ∈ x.2.1.buses, Comparable b.v.abs b.vMax) ∧
    (∀ b ∈ x.2.1.branches, Comparable (X.abs b.flow.sApparentMax) b.line.rate) ∧
    (∀ b ∈ x.2.1.branches, X.abs b.flow.sApparentMax ≤ b.line.rate)) := exOk (by decide +kernel)

example : ∃ x, rewardDemo 100 1 (-1/2) = .ok x ∧ x.2.2.penalty = .fin (43/4) := exOk (by decide +kernel)

example : ∃ x, rewardDemo 0 2 (-1/2) = .ok x ∧ x.2.2.penalty = 0 := exOk (by decide +kernel)

end Anm
