import Verif.Props.Region
import Mathlib.Analysis.Complex.Basic
import Mathlib.Topology.MetricSpace.HausdorffDistance
import Mathlib.Tactic.Positivity

/-! # C16: mapping a set-point is the Euclidean projection on the feasible region -/

set_option linter.unusedSectionVars false

namespace Anm

open Spec

section
variable {K : Type} [Field K] [LinearOrder K] [IsStrictOrderedRing K]
  {rows : List (HalfPlane K)}

/-- The feasible set is convex. -/
theorem feasible_convex (hf : FinCoeffs rows) {p q p' q' t : K} (h0 : 0 ≤ t) (h1 : t ≤ 1)
    (h : Feasible rows (.fin p) (.fin q)) (h' : Feasible rows (.fin p') (.fin q')) :
    Feasible rows (.fin (p + t * (p' - p))) (.fin (q + t * (q' - q))) := by
  intro r hr
  have a := h r hr
  have b := h' r hr
  obtain ⟨f1, f2⟩ := hf r hr
  obtain ⟨gP, gQ, hh⟩ := r
  cases gP <;> simp [X.IsFin] at f1
  cases gQ <;> simp [X.IsFin] at f2
  rename_i x y
  simp only [X.fin_mul_fin, X.fin_add_fin] at a b ⊢
  cases hh with
  | nan => simp at a
  | ninf => simp at a
  | pinf => simp
  | fin c =>
    rw [X.fin_le_fin] at *
    have : x * (p + t * (p' - p)) + y * (q + t * (q' - q)) =
      (1 - t) * (x * p + y * q) + t * (x * p' + y * q') := by ring
    rw [this]
    nlinarith

/-- Characterisation of a closest point: the angle with every feasible direction is obtuse. -/
theorem closest_variational (hf : FinCoeffs rows) {p0 q0 p q : K} (h : IsClosest rows p0 q0 p q)
    {p' q' : K} (h' : Feasible rows (.fin p') (.fin q')) :
    (p0 - p) * (p' - p) + (q0 - q) * (q' - q) ≤ 0 := by
  by_contra hc
  push Not at hc
  set c := (p0 - p) * (p' - p) + (q0 - q) * (q' - q) with hcdef
  set m := (p' - p) ^ 2 + (q' - q) ^ 2 with hm
  have hm0 : 0 ≤ m := by positivity
  -- step t = c / (c + m) in (0, 1)
  have hcm : 0 < c + m := by linarith
  set t := c / (c + m) with ht
  have t0 : 0 < t := div_pos hc hcm
  have t1 : t ≤ 1 := by rw [ht, div_le_one hcm]; linarith
  have hmin := h.2 _ _ (feasible_convex hf t0.le t1 h.1 h')
  have e : sqDist (p + t * (p' - p)) (q + t * (q' - q)) p0 q0 =
      sqDist p q p0 q0 - 2 * t * c + t ^ 2 * m := by
    simp only [sqDist, hcdef, hm]; ring
  rw [e] at hmin
  have htc : t * (c + m) = c := by rw [ht]; field_simp
  have : t * m < 2 * c := by nlinarith
  nlinarith

/-- **C16.** The closest feasible point is unique. -/
theorem C16_unique (hf : FinCoeffs rows) {p0 q0 p q p' q' : K} (h : IsClosest rows p0 q0 p q)
    (h' : IsClosest rows p0 q0 p' q') : p = p' ∧ q = q' := by
  have a := closest_variational hf h h'.1
  have b := closest_variational hf h' h.1
  have hz : (p - p') ^ 2 + (q - q') ^ 2 ≤ 0 := by nlinarith
  have h1 : (p - p') ^ 2 = 0 := le_antisymm (by nlinarith [sq_nonneg (q - q')]) (sq_nonneg _)
  have h2 : (q - q') ^ 2 = 0 := le_antisymm (by nlinarith [sq_nonneg (p - p')]) (sq_nonneg _)
  exact ⟨sub_eq_zero.1 (pow_eq_zero_iff (by norm_num) |>.1 h1),
    sub_eq_zero.1 (pow_eq_zero_iff (by norm_num) |>.1 h2)⟩

/-- **C16.** Mapping does not increase distances: similar requests give similar set-points. -/
theorem C16_nonexpansive (hf : FinCoeffs rows) {p0 q0 p q p0' q0' p' q' : K}
    (h : IsClosest rows p0 q0 p q) (h' : IsClosest rows p0' q0' p' q') :
    sqDist p q p' q' ≤ sqDist p0 q0 p0' q0' := by
  have a := closest_variational hf h h'.1
  have b := closest_variational hf h' h.1
  simp only [sqDist]
  nlinarith [sq_nonneg (p0 - p0' - (p - p')), sq_nonneg (q0 - q0' - (q - q'))]

theorem closest_self {p q : K} (h : Feasible rows (.fin p) (.fin q)) : IsClosest rows p q p q := by
  refine ⟨h, fun p' q' _ => ?_⟩
  simp only [sqDist]
  nlinarith [sq_nonneg (p' - p), sq_nonneg (q' - q)]

/-- **C16.** An exact solver leaves feasible requests alone. -/
theorem C16_feasible_fixed {qp : QP K} (hq : QPExact qp) (hf : FinCoeffs rows) {p q : K}
    (h : Feasible rows (.fin p) (.fin q)) : qp rows (.fin p, .fin q) = some (.fin p, .fin q) := by
  cases hx : qp rows (.fin p, .fin q) with
  | none => exact absurd h (hq.complete rows p q hf hx p q)
  | some x =>
    obtain ⟨p', q', rfl, hc⟩ := hq.closest rows p q x hf hx
    obtain ⟨rfl, rfl⟩ := C16_unique hf hc (closest_self h)
    rfl

/-- **C16.** Mapping twice equals mapping once. -/
theorem C16_idempotent {qp : QP K} (hq : QPExact qp) (hf : FinCoeffs rows) {p q : K} {x : X K × X K}
    (h : qp rows (.fin p, .fin q) = some x) : qp rows x = some x := by
  obtain ⟨p', q', rfl, hc⟩ := hq.closest rows p q x hf h
  exact C16_feasible_fixed hq hf hc.1

/-- **C16.** All exact solvers return the same set-points: the simulation does not depend on which one
is used. -/
theorem C16_solver_independent {qp qp' : QP K} (hq : QPExact qp) (hq' : QPExact qp')
    (hf : FinCoeffs rows) (p q : K) : qp rows (.fin p, .fin q) = qp' rows (.fin p, .fin q) := by
  cases h : qp rows (.fin p, .fin q) with
  | none =>
    cases h' : qp' rows (.fin p, .fin q) with
    | none => rfl
    | some x =>
      obtain ⟨p', q', rfl, hc⟩ := hq'.closest rows p q x hf h'
      exact absurd hc.1 (hq.complete rows p q hf h _ _)
  | some x =>
    obtain ⟨p', q', rfl, hc⟩ := hq.closest rows p q x hf h
    cases h' : qp' rows (.fin p, .fin q) with
    | none => exact absurd hc.1 (hq'.complete rows p q hf h' _ _)
    | some y =>
      obtain ⟨p'', q'', rfl, hc'⟩ := hq'.closest rows p q y hf h'
      obtain ⟨rfl, rfl⟩ := C16_unique hf hc hc'
      rfl

/-! ### In terms of the documented regions -/

variable [FloorRing K] {row : DevRow K} {ids : List ℤ} {base : K} {d0 d : Device K}

/-- **C16**, generators.  With an exact solver, `map_pq` succeeds for every finite request and stores the
point of the documented region that is closest to the request, and no other point is as close. -/
theorem C16_generator {kind : DevKind} {g : GenParams K} {pot p0 q0 : K} {qp : QP K}
    (hq : QPExact qp) (hok : RowOk row) (hb : 0 < base)
    (h : mkGen kind row ids (.fin base) = .ok d0) (hs : d0.isSlack = false) (hg : HasGenParams d0 g)
    (hd : SameMachine d0 d) (hpot : d.pPot = .fin pot) (hp : g.pmin ≤ pot) :
    ∃ p q, d.mapGen qp (.fin p0) (.fin q0) = .ok { d with p := .fin p, q := .fin q } ∧
      GenRegion g pot p q ∧
      (∀ p' q', GenRegion g pot p' q' → sqDist p q p0 q0 ≤ sqDist p' q' p0 q0) ∧
      (∀ p' q', GenRegion g pot p' q' → sqDist p' q' p0 q0 = sqDist p q p0 q0 → p' = p ∧ q' = q) ∧
      (GenRegion g pot p0 q0 → p = p0 ∧ q = q0) := by
  have O := genParamsOk (C05_generator hok hb h hs) hg
  have hreg := fun p q => C12_gen_region (p := p) (q := q) hok hb h hs hg hd hpot
  have hf : FinCoeffs d.genConstraints := by
    rw [genRows_eq h hg hd hpot]
    simp [FinCoeffs, X.IsFin]
  cases hx : qp d.genConstraints (.fin p0, .fin q0) with
  | none =>
    refine absurd ((hreg g.pmin g.qminus).2 ?_) (hq.complete _ p0 q0 hf hx _ _)
    exact ⟨le_refl _, O.p1.trans O.p2, hp, O.q1, O.q2.trans O.q3,
      fun hc => absurd O.p1 (not_le.2 hc), fun hc => absurd O.p1 (not_le.2 hc)⟩
  | some x =>
    obtain ⟨p, q, rfl, hc⟩ := hq.closest _ p0 q0 x hf hx
    refine ⟨p, q, ?_, (hreg p q).1 hc.1, fun p' q' h' => hc.2 p' q' ((hreg p' q').2 h'),
      fun p' q' h' e => ?_, fun h' => ?_⟩
    · simp only [Device.mapGen, Device.project, hx]
    · refine C16_unique hf ⟨(hreg p' q').2 h', fun p'' q'' h'' => ?_⟩ hc
      rw [e]
      exact hc.2 p'' q'' h''
    · exact C16_unique hf hc (closest_self ((hreg p0 q0).2 h'))

/-- **C16**, storage units with a state of charge within its limits. -/
theorem C16_storage {g : DesParams K} {dt soc p0 q0 : K} {qp : QP K}
    (hq : QPExact qp) (hok : RowOk row) (hb : 0 < base)
    (h : mkStorage row ids (.fin base) = .ok d0) (hg : HasDesParams d0 g)
    (hd : SameMachine d0 d) (hsoc : d.soc = some (.fin soc))
    (h1 : g.socMin ≤ soc) (h2 : soc ≤ g.socMax) (hdt : 0 < dt) (heff : 0 < g.eff) :
    ∃ p q, d.mapStorage qp (.fin p0) (.fin q0) (.fin dt) = .ok { d with p := .fin p, q := .fin q } ∧
      DesRegion g dt soc p q ∧
      (∀ p' q', DesRegion g dt soc p' q' → sqDist p q p0 q0 ≤ sqDist p' q' p0 q0) ∧
      (∀ p' q', DesRegion g dt soc p' q' → sqDist p' q' p0 q0 = sqDist p q p0 q0 → p' = p ∧ q' = q) ∧
      (DesRegion g dt soc p0 q0 → p = p0 ∧ q = q0) := by
  obtain ⟨rows, hr, q1, hq1⟩ := C15_storage_feasible_partial hok hb h hg hd hsoc h1 h2 hdt heff
  have hreg : ∀ p q, Feasible rows (.fin p) (.fin q) ↔ DesRegion g dt soc p q := by
    intro p q
    obtain ⟨rows', hr', hiff⟩ := C13_storage_region (p := p) (q := q) hok hb h hg hd hsoc hdt heff
    rw [hr] at hr'
    injection hr' with hr'
    rw [hr']
    exact hiff
  have hf : FinCoeffs rows := by
    have := desRows_eq h hg hd hsoc hdt heff
    rw [hr] at this
    injection this with this
    rw [this]
    simp [FinCoeffs, X.IsFin]
  cases hx : qp rows (.fin p0, .fin q0) with
  | none => exact absurd hq1 (hq.complete _ p0 q0 hf hx _ _)
  | some x =>
    obtain ⟨p, q, rfl, hc⟩ := hq.closest _ p0 q0 x hf hx
    refine ⟨p, q, ?_, (hreg p q).1 hc.1, fun p' q' h' => hc.2 p' q' ((hreg p' q').2 h'),
      fun p' q' h' e => ?_, fun h' => ?_⟩
    · simp only [Device.mapStorage, hr, Device.project, bind, Except.bind, hx]
    · refine C16_unique hf ⟨(hreg p' q').2 h', fun p'' q'' h'' => ?_⟩ hc
      rw [e]
      exact hc.2 p'' q'' h''
    · exact C16_unique hf hc (closest_self ((hreg p0 q0).2 h'))

end

/-! ### Existence of an exact solver over ℝ: the contract can be met -/

theorem feasible_closed {rows : List (HalfPlane ℝ)} (hf : FinCoeffs rows) :
    IsClosed {z : ℂ | Feasible rows (.fin z.re) (.fin z.im)} := by
  have : {z : ℂ | Feasible rows (.fin z.re) (.fin z.im)} =
      ⋂ r ∈ rows, {z : ℂ | r.gP * .fin z.re + r.gQ * .fin z.im ≤ r.h} := by
    ext z; simp [Feasible]
  rw [this]
  refine isClosed_iInter fun r => isClosed_iInter fun hr => ?_
  obtain ⟨f1, f2⟩ := hf r hr
  obtain ⟨gP, gQ, hh⟩ := r
  cases gP <;> simp [X.IsFin] at f1
  cases gQ <;> simp [X.IsFin] at f2
  rename_i x y
  simp only [X.fin_mul_fin, X.fin_add_fin]
  cases hh with
  | nan => simp
  | ninf => simp
  | pinf => simp
  | fin c =>
    simp only [X.fin_le_fin]
    exact isClosed_le ((continuous_const.mul Complex.continuous_re).add
      (continuous_const.mul Complex.continuous_im)) continuous_const

theorem sqDist_dist (z w : ℂ) : sqDist z.re z.im w.re w.im = dist w z ^ 2 := by
  rw [Complex.dist_eq, ← Complex.normSq_eq_norm_sq, Complex.normSq_apply, sqDist]
  simp only [Complex.sub_re, Complex.sub_im]
  ring

theorem exists_closest {rows : List (HalfPlane ℝ)} (hf : FinCoeffs rows) (p0 q0 : ℝ)
    (h : ∃ p q, Feasible rows (.fin p) (.fin q)) : ∃ p q, IsClosest rows p0 q0 p q := by
  obtain ⟨p, q, hpq⟩ := h
  have hne : {z : ℂ | Feasible rows (.fin z.re) (.fin z.im)}.Nonempty := ⟨⟨p, q⟩, hpq⟩
  obtain ⟨z, hz, hd⟩ := (feasible_closed hf).exists_infDist_eq_dist hne ⟨p0, q0⟩
  refine ⟨z.re, z.im, hz, fun p' q' h' => ?_⟩
  have e1 := sqDist_dist z ⟨p0, q0⟩
  have e2 := sqDist_dist ⟨p', q'⟩ ⟨p0, q0⟩
  simp only at e1 e2
  rw [e1, e2, ← hd]
  have : Metric.infDist (⟨p0, q0⟩ : ℂ) {z : ℂ | Feasible rows (.fin z.re) (.fin z.im)} ≤
      dist (⟨p0, q0⟩ : ℂ) ⟨p', q'⟩ := Metric.infDist_le_dist_of_mem h'
  exact pow_le_pow_left₀ Metric.infDist_nonneg this 2

open Classical in
/-- An exact quadratic-program solver over ℝ. -/
noncomputable def exactQP : QP ℝ := fun rows r =>
  match r with
  | (.fin p0, .fin q0) =>
    if h : FinCoeffs rows ∧ ∃ p q, IsClosest rows p0 q0 p q then
      some (.fin h.2.choose, .fin h.2.choose_spec.choose)
    else none
  | _ => none

/-- **C16.** The contract assumed of the solver can be met (over ℝ): a closest point exists whenever
the region is not empty. -/
theorem C16_exact_solver_exists : QPExact exactQP := by
  constructor
  · intro rows p0 q0 x hf h
    simp only [exactQP] at h
    split at h
    · rename_i hx
      injection h with h
      exact ⟨_, _, h.symm, hx.2.choose_spec.choose_spec⟩
    · simp at h
  · intro rows p0 q0 hf h p q hpq
    simp only [exactQP] at h
    split at h
    · simp at h
    · rename_i hx
      exact hx ⟨hf, exists_closest hf p0 q0 ⟨p, q, hpq⟩⟩

/-- The same solver satisfies the weaker soundness contract. -/
theorem exactQP_sound : QPSound 0 exactQP := by
  intro rows r x h
  unfold exactQP at h
  split at h
  · split at h
    · rename_i hx
      injection h with h
      subst h
      intro r hr
      have := hx.2.choose_spec.choose_spec.1 r hr
      have e : r.h + X.fin (0 : ℝ) = r.h := by
        cases r.h with
        | fin a => rw [X.fin_add_fin, add_zero]
        | _ => rfl
      rw [e]
      exact this
    · simp at h
  · simp at h

end Anm
