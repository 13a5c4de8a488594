import Mathlib.Analysis.Calculus.MeanValue
import Mathlib.Analysis.SpecialFunctions.Trigonometric.Bounds
import Verif.Props.Newton

/-!
# Newton's method on radial networks

Bounds for one iteration of the load flow on a radial network: from bounds on the mismatches and voltages at
a guess to bounds on the mismatches and voltages at the next guess, if the linear systems are solved exactly.
-/

namespace Anm

open Spec Complex ComplexConjugate

/-- The part of a change of polar coordinates that is not linear. -/
noncomputable def polarRest (e : ℂ) : ℂ := (1 - e.re) * exp (-(I * e.im)) - 1 + e

theorem norm_exp_neg_sub_one (b : ℝ) : ‖1 - exp (-(I * b))‖ ≤ |b| := by
  have := Real.norm_exp_I_mul_ofReal_sub_one_le (x := -b)
  rw [norm_sub_rev]
  simpa using this

theorem polarRest_sub {e e' : ℂ} {r : ℝ} (h : ‖e‖ ≤ r) (h' : ‖e'‖ ≤ r) :
    ‖polarRest e' - polarRest e‖ ≤ 17 / 12 * r * ‖e' - e‖ := by
  set a : ℝ → ℝ := fun t => e.re + t * (e' - e).re with ha
  set b : ℝ → ℝ := fun t => e.im + t * (e' - e).im with hb
  have ha1 : ∀ t : ℝ, HasDerivAt (fun t => (a t : ℂ)) ((e' - e).re : ℂ) t := by
    intro t
    have h1 : HasDerivAt (fun t : ℝ => (t : ℂ)) 1 t := (hasDerivAt_id _).ofReal_comp
    have := (h1.mul_const ((e' - e).re : ℂ)).const_add (e.re : ℂ)
    simp only [ha]
    push_cast at this ⊢
    exact this.congr_deriv (by ring)
  have hb1 : ∀ t : ℝ, HasDerivAt (fun t => (b t : ℂ)) ((e' - e).im : ℂ) t := by
    intro t
    have h1 : HasDerivAt (fun t : ℝ => (t : ℂ)) 1 t := (hasDerivAt_id _).ofReal_comp
    have := (h1.mul_const ((e' - e).im : ℂ)).const_add (e.im : ℂ)
    simp only [hb]
    push_cast at this ⊢
    exact this.congr_deriv (by ring)
  set G : ℝ → ℂ := fun t => (1 - (a t : ℂ)) * exp (-(I * (b t : ℂ))) - 1 + ((a t : ℂ) + I * (b t : ℂ)) with hG
  have hd : ∀ t : ℝ, HasDerivAt G (((e' - e).re + I * (e' - e).im) * (1 - exp (-(I * (b t : ℂ)))) +
      I * (e' - e).im * (a t : ℂ) * exp (-(I * (b t : ℂ)))) t := by
    intro t
    have h1 := (((ha1 t).const_sub 1).mul ((hb1 t).const_mul I).neg.cexp).sub_const 1
    have h2 := h1.add ((ha1 t).add ((hb1 t).const_mul I))
    refine h2.congr_deriv ?_
    simp only [Pi.neg_apply]
    ring
  have hseg : ∀ t ∈ Set.Ico (0 : ℝ) 1, ‖(⟨a t, b t⟩ : ℂ)‖ ≤ r := by
    intro t ht
    have e1 : (⟨a t, b t⟩ : ℂ) = (1 - t : ℝ) * e + (t : ℝ) * e' := by
      apply Complex.ext <;> simp [ha, hb] <;> ring
    rw [e1]
    refine (norm_add_le _ _).trans ?_
    rw [norm_mul, norm_mul, Complex.norm_real, Complex.norm_real, Real.norm_of_nonneg (by linarith [ht.2]), Real.norm_of_nonneg ht.1]
    nlinarith [ht.1, ht.2, mul_le_mul_of_nonneg_left h (by linarith [ht.2] : 0 ≤ 1 - t), mul_le_mul_of_nonneg_left h' ht.1]
  have hr : 0 ≤ r := (norm_nonneg _).trans h
  have hbound : ∀ t ∈ Set.Ico (0 : ℝ) 1, ‖((e' - e).re + I * (e' - e).im) * (1 - exp (-(I * (b t : ℂ)))) +
      I * (e' - e).im * (a t : ℂ) * exp (-(I * (b t : ℂ)))‖ ≤ 17 / 12 * r * ‖e' - e‖ := by
    intro t ht
    have e1 : ((e' - e).re + I * (e' - e).im : ℂ) = e' - e := by
      conv_rhs => rw [← Complex.re_add_im (e' - e)]
      ring
    have n1 : ‖exp (-(I * (b t : ℂ)))‖ = 1 := by
      have := Complex.norm_exp_ofReal_mul_I (-(b t))
      rw [← this]
      congr 2
      push_cast
      ring
    have n2 := norm_exp_neg_sub_one (b t)
    have n3 : ‖((e' - e).im : ℂ)‖ ≤ ‖e' - e‖ := by
      rw [Complex.norm_real]
      exact Complex.abs_im_le_norm _
    have n4 : |a t| + |b t| ≤ 17 / 12 * r := by
      have h1 : (a t) ^ 2 + (b t) ^ 2 ≤ r ^ 2 := by
        have := hseg t ht
        have h2 : ‖(⟨a t, b t⟩ : ℂ)‖ ^ 2 = (a t) ^ 2 + (b t) ^ 2 := by
          rw [← Complex.normSq_eq_norm_sq, Complex.normSq_mk]
          ring
        rw [← h2]
        exact pow_le_pow_left₀ (norm_nonneg _) this 2
      refine abs_le_of_sq_le_sq' ?_ (by positivity) |>.2
      have := sq_abs (a t)
      have := sq_abs (b t)
      nlinarith [sq_nonneg (|a t| - |b t|), sq_nonneg r]
    rw [e1]
    refine (norm_add_le _ _).trans ?_
    rw [norm_mul, norm_mul, norm_mul, norm_mul, n1, Complex.norm_I, mul_one, one_mul, Complex.norm_real (a t), Real.norm_eq_abs]
    have := norm_nonneg (e' - e)
    have := abs_nonneg (a t)
    nlinarith [mul_le_mul_of_nonneg_left n2 (norm_nonneg (e' - e)), mul_le_mul_of_nonneg_right n3 (abs_nonneg (a t)),
      mul_le_mul_of_nonneg_right n4 (norm_nonneg (e' - e))]
  have := norm_image_sub_le_of_norm_deriv_le_segment_01' (f := G) (fun t _ => (hd t).hasDerivWithinAt) hbound
  have e0 : G 0 = polarRest e := by
    simp only [hG, polarRest, ha, hb, zero_mul, add_zero]
    rw [mul_comm I (e.im : ℂ), Complex.re_add_im e]
  have e1 : G 1 = polarRest e' := by
    simp only [hG, polarRest, ha, hb, one_mul, sub_re, sub_im, add_sub_cancel]
    rw [mul_comm I (e'.im : ℂ), Complex.re_add_im e']
  rwa [e0, e1] at this

theorem polarRest_zero : polarRest 0 = 0 := by simp [polarRest]

theorem polarRest_le (e : ℂ) : ‖polarRest e‖ ≤ 17 / 12 * ‖e‖ ^ 2 := by
  have := polarRest_sub (e := 0) (e' := e) (r := ‖e‖) (by simp) le_rfl
  rw [polarRest_zero, sub_zero, sub_zero] at this
  linarith

/-! ## Radial networks -/

/-- A network of lines without shunts that form a tree, rooted at the slack bus: line `l` connects bus `l + 1` to
its parent. -/
structure Radial {m : ℕ} (Y : Matrix (Fin (m + 1)) (Fin (m + 1)) ℂ) where
  /-- The impedance of a line. -/
  z : Fin m → ℂ
  /-- The bus at the upper end of a line. -/
  par : Fin m → Fin (m + 1)
  /-- The lines between a bus and the slack bus. -/
  path : Fin m → Finset (Fin m)
  /-- The buses below a line. -/
  sub : Fin m → Finset (Fin m)
  /-- The lines that start at a bus. -/
  kids : Fin m → Finset (Fin m)
  z_ne : ∀ l, z l ≠ 0
  along : ∀ (x : Fin (m + 1) → ℂ) k, x k.succ - x 0 = ∑ l ∈ path k, (x l.succ - x (par l))
  subtree : ∀ x l, ∑ k ∈ sub l, NR.curr Y x k.succ = (x l.succ - x (par l)) / z l
  own : ∀ (c : Fin m → ℂ) k, c k = ∑ i ∈ sub k, c i - ∑ l ∈ kids k, ∑ i ∈ sub l, c i

/-- If bounds are strictly larger than what follows from themselves, then they hold. -/
theorem super_bound {m : ℕ} {path sub : Fin m → Finset (Fin m)} {zn r J lo x e : Fin m → ℝ} (hz : ∀ l, 0 ≤ zn l) (hr : ∀ l, 0 ≤ r l)
    (hJ : ∀ l, 0 ≤ J l) (he : ∀ k, 0 < e k)
    (hx : ∀ k, lo k * x k ≤ ∑ l ∈ path k, zn l * (r l + ∑ i ∈ sub l, J i * x i))
    (hc : ∀ k, ∑ l ∈ path k, zn l * (r l + ∑ i ∈ sub l, J i * e i) < lo k * e k) (k : Fin m) : x k ≤ e k := by
  by_contra h
  push Not at h
  obtain ⟨i, -, hi⟩ := Finset.exists_max_image Finset.univ (fun i => x i / e i) ⟨k, Finset.mem_univ k⟩
  set t := x i / e i with ht
  have ht1 : 1 < t := lt_of_lt_of_le ((one_lt_div (he k)).mpr h) (hi k (Finset.mem_univ k))
  have hle : ∀ j, x j ≤ t * e j := fun j => (div_le_iff₀ (he j)).mp (hi j (Finset.mem_univ j))
  have hxi : x i = t * e i := by
    rw [ht]
    field_simp [(he i).ne']
  have h1 : ∑ l ∈ path i, zn l * (r l + ∑ j ∈ sub l, J j * x j) ≤ t * ∑ l ∈ path i, zn l * (r l + ∑ j ∈ sub l, J j * e j) := by
    rw [Finset.mul_sum]
    refine Finset.sum_le_sum fun l _ => ?_
    have h2 : ∑ j ∈ sub l, J j * x j ≤ t * ∑ j ∈ sub l, J j * e j := by
      rw [Finset.mul_sum]
      refine Finset.sum_le_sum fun j _ => ?_
      nlinarith [mul_le_mul_of_nonneg_left (hle j) (hJ j)]
    have h3 : r l + ∑ j ∈ sub l, J j * x j ≤ t * (r l + ∑ j ∈ sub l, J j * e j) := by nlinarith [hr l]
    nlinarith [mul_le_mul_of_nonneg_left h3 (hz l)]
  have h2 := hx i
  have h3 := mul_lt_mul_of_pos_left (hc i) (by linarith : 0 < t)
  rw [hxi] at h2
  nlinarith

section
variable {m : ℕ} {Y : Matrix (Fin (m + 1)) (Fin (m + 1)) ℂ}

/-- The missing currents: what flows into the network minus what the powers `S` give. -/
noncomputable def missing (Y : Matrix (Fin (m + 1)) (Fin (m + 1)) ℂ) (S : Fin m → ℂ) (V : Fin (m + 1) → ℂ) (k : Fin m) : ℂ :=
  NR.curr Y V k.succ - conj (S k / V k.succ)

theorem volt_ne {g : Guess m} (hg : ∀ k, 0 < g.mag k) (k : Fin m) : NR.volt g k.succ ≠ 0 := by
  rw [volt_succ]
  exact mul_ne_zero (by exact_mod_cast (hg k).ne') (exp_ne_zero _)

theorem change_succ (g : Guess m) (d : Ix m → ℝ) (k : Fin m) : change g d k.succ = NR.volt g k.succ * relChange g d k := rfl
theorem change_zero (g : Guess m) (d : Ix m → ℝ) : change g d 0 = 0 := rfl

/-- The equation of Newton's method in terms of currents. -/
theorem newton_currents {g : Guess m} (hg : ∀ k, 0 < g.mag k) {d : Ix m → ℝ} {x : Fin m → ℂ}
    (hd : ∀ k, ((∑ b, NR.dfdx Y g (.inl k) b * d b : ℝ) : ℂ) + (∑ b, NR.dfdx Y g (.inr k) b * d b : ℝ) * I = NR.volt g k.succ * conj (x k)) (k : Fin m) :
    NR.curr Y (NR.volt g) k.succ * conj (relChange g d k) + NR.curr Y (change g d) k.succ = x k := by
  have h := hd k
  rw [dfdx_apply Y hg] at h
  have h1 := congrArg (starRingEnd ℂ) (mul_left_cancel₀ (volt_ne hg k) h)
  simpa using h1

namespace Radial
variable (R : Radial Y)

/-- The current through a line, from its lower to its upper end. -/
noncomputable def line (x : Fin (m + 1) → ℂ) (l : Fin m) : ℂ := (x l.succ - x (R.par l)) / R.z l

theorem sum_line (x : Fin (m + 1) → ℂ) (k : Fin m) : x k.succ - x 0 = ∑ l ∈ R.path k, R.z l * R.line x l := by
  rw [R.along]
  refine Finset.sum_congr rfl fun l _ => ?_
  rw [line, mul_div_cancel₀ _ (R.z_ne l)]

/-- Bounds on the voltages, the currents and the missing currents. -/
structure At (S : Fin m → ℂ) (V : Fin (m + 1) → ℂ) (r lo c J A : Fin m → ℝ) (hi : Fin (m + 1) → ℝ) : Prop where
  rest : ∀ l, ‖∑ k ∈ R.sub l, missing Y S V k‖ ≤ r l
  low : ∀ k, lo k ≤ ‖V k.succ‖
  pos : ∀ k, 0 < lo k
  each : ∀ k, ‖missing Y S V k‖ ≤ c k
  lines : ∀ l, ‖R.line V l‖ ≤ J l
  inj : ∀ k, ‖NR.curr Y V k.succ‖ ≤ A k
  high : ∀ i, ‖V i‖ ≤ hi i

variable {R}

/-- A bound on the relative changes of the voltages in an iteration. -/
theorem eps_le {S : Fin m → ℂ} {g : Guess m} (hg : ∀ k, 0 < g.mag k) {r lo c J A zn e : Fin m → ℝ} {hi : Fin (m + 1) → ℝ}
    (h : R.At S (NR.volt g) r lo c J A hi) (hz : ∀ l, ‖R.z l‖ ≤ zn l) (he : ∀ k, 0 < e k)
    (hc : ∀ k, ∑ l ∈ R.path k, zn l * (r l + ∑ i ∈ R.sub l, A i * e i) < lo k * e k) {d : Ix m → ℝ} {x : Fin m → ℂ}
    (hx : ∀ l, ‖∑ k ∈ R.sub l, x k‖ ≤ r l)
    (hd : ∀ k, NR.curr Y (NR.volt g) k.succ * conj (relChange g d k) + NR.curr Y (change g d) k.succ = x k) :
    (∀ k, ‖relChange g d k‖ ≤ e k) ∧ ∀ l, ‖R.line (change g d) l‖ ≤ r l + ∑ i ∈ R.sub l, A i * e i := by
  have hl : ∀ l, ‖R.line (change g d) l‖ ≤ r l + ∑ i ∈ R.sub l, A i * ‖relChange g d i‖ := by
    intro l
    have e1 : R.line (change g d) l = ∑ k ∈ R.sub l, x k - ∑ k ∈ R.sub l, NR.curr Y (NR.volt g) k.succ * conj (relChange g d k) := by
      rw [line, ← R.subtree, ← Finset.sum_sub_distrib]
      exact Finset.sum_congr rfl fun k _ => by rw [← hd k]; ring
    rw [e1]
    refine (norm_sub_le _ _).trans (add_le_add (hx l) ((norm_sum_le _ _).trans (Finset.sum_le_sum fun k _ => ?_)))
    rw [norm_mul, RCLike.norm_conj]
    exact mul_le_mul_of_nonneg_right (h.inj k) (norm_nonneg _)
  have hk : ∀ k, ‖relChange g d k‖ ≤ e k := by
    refine super_bound (path := R.path) (sub := R.sub) (zn := zn) (r := r) (J := A) (lo := lo) (fun l => (norm_nonneg _).trans (hz l))
      (fun l => (norm_nonneg _).trans (h.rest l)) (fun l => (norm_nonneg _).trans (h.inj l)) he (fun k => ?_) hc
    have e1 : NR.volt g k.succ * relChange g d k = ∑ l ∈ R.path k, R.z l * R.line (change g d) l := by
      rw [← sum_line, change_zero, sub_zero, change_succ]
    calc lo k * ‖relChange g d k‖ ≤ ‖NR.volt g k.succ‖ * ‖relChange g d k‖ := mul_le_mul_of_nonneg_right (h.low k) (norm_nonneg _)
      _ = ‖∑ l ∈ R.path k, R.z l * R.line (change g d) l‖ := by rw [← norm_mul, e1]
      _ ≤ _ := by
        refine (norm_sum_le _ _).trans (Finset.sum_le_sum fun l _ => ?_)
        rw [norm_mul]
        exact mul_le_mul (hz l) (hl l) (norm_nonneg _) ((norm_nonneg _).trans (hz l))
  refine ⟨hk, fun l => (hl l).trans ?_⟩
  gcongr with i _
  · exact (norm_nonneg _).trans (h.inj i)
  · exact hk i

/-- The Jacobian is regular. -/
theorem regular {S : Fin m → ℂ} {g : Guess m} (hg : ∀ k, 0 < g.mag k) {r lo c J A zn e : Fin m → ℝ} {hi : Fin (m + 1) → ℝ}
    (h : R.At S (NR.volt g) r lo c J A hi) (hz : ∀ l, ‖R.z l‖ ≤ zn l) (he : ∀ k, 0 < e k)
    (hc : ∀ k, ∑ l ∈ R.path k, zn l * (r l + ∑ i ∈ R.sub l, A i * e i) < lo k * e k) : (NR.dfdx Y g).det ≠ 0 := by
  intro h0
  obtain ⟨x, hx, h1⟩ := Matrix.exists_mulVec_eq_zero_iff.mpr h0
  apply hx
  have key : ∀ t : ℝ, ∀ k, ‖relChange g (t • x) k‖ ≤ e k := by
    intro t
    refine (eps_le (x := fun _ => 0) hg h hz he hc (fun l => ?_) (newton_currents hg fun k => ?_)).1
    · simpa using (norm_nonneg _).trans (h.rest l)
    · have h2 : ∀ a, ∑ b, NR.dfdx Y g a b * (t • x) b = 0 := by
        intro a
        have := congrFun h1 a
        simp only [Matrix.mulVec, dotProduct, Pi.zero_apply] at this
        simp only [Pi.smul_apply, smul_eq_mul, mul_left_comm _ t]
        rw [← Finset.mul_sum, this, mul_zero]
      rw [h2, h2]
      simp
  have hz : ∀ k, relChange g x k = 0 := by
    intro k
    by_contra hne
    have hp := norm_pos_iff.mpr hne
    have := key (2 * (e k / ‖relChange g x k‖)) k
    have e1 : relChange g ((2 * (e k / ‖relChange g x k‖)) • x) k = (2 * (e k / ‖relChange g x k‖) : ℝ) * relChange g x k := by
      simp only [relChange, Pi.smul_apply, smul_eq_mul]
      push_cast
      ring
    rw [e1, norm_mul, Complex.norm_real, Real.norm_of_nonneg (by have := he k; positivity), mul_assoc, div_mul_cancel₀ _ hp.ne'] at this
    linarith [he k]
  have h3 : ∀ k, x (.inr k) = 0 ∧ x (.inl k) = 0 := by
    intro k
    have h4 := hz k
    have h5 := congrArg Complex.re h4
    have h6 := congrArg Complex.im h4
    simp [relChange] at h5 h6
    exact ⟨h5.resolve_right (hg k).ne', h6⟩
  funext a
  cases a with
  | inl k => exact (h3 k).2
  | inr k => exact (h3 k).1

/-- The guess after an iteration. -/
noncomputable def _root_.Anm.moved (g : Guess m) (d : Ix m → ℝ) : Guess m := ⟨fun k => g.ang k - d (.inl k), fun k => g.mag k - d (.inr k)⟩

theorem _root_.Anm.relChange_re (g : Guess m) (d : Ix m → ℝ) (k : Fin m) : (relChange g d k).re = d (.inr k) / g.mag k := by
  simp [relChange]

theorem _root_.Anm.relChange_im (g : Guess m) (d : Ix m → ℝ) (k : Fin m) : (relChange g d k).im = d (.inl k) := by
  simp [relChange]

/-- The voltages after an iteration. -/
theorem _root_.Anm.volt_moved {g : Guess m} (hg : ∀ k, 0 < g.mag k) (d : Ix m → ℝ) (k : Fin m) :
    NR.volt (moved g d) k.succ = NR.volt g k.succ * (1 - relChange g d k + polarRest (relChange g d k)) := by
  have : (g.mag k : ℂ) ≠ 0 := by exact_mod_cast (hg k).ne'
  have e1 : (1 - relChange g d k + polarRest (relChange g d k)) = (1 - (d (.inr k) / g.mag k : ℝ)) * exp (-(I * d (.inl k))) := by
    rw [polarRest, relChange_re, relChange_im]
    ring
  rw [e1, volt_succ, volt_succ, moved]
  push_cast
  rw [mul_sub, sub_eq_add_neg (I * _), exp_add]
  field_simp

theorem _root_.Anm.mag_moved {g : Guess m} (hg : ∀ k, 0 < g.mag k) {d : Ix m → ℝ} {k : Fin m} (h : ‖relChange g d k‖ < 1) : 0 < (moved g d).mag k := by
  have h1 := (Complex.abs_re_le_norm (relChange g d k)).trans_lt h
  rw [relChange_re, abs_lt, div_lt_one (hg k)] at h1
  simpa [moved] using h1.2

/-- The missing currents after an iteration. -/
theorem missing_moved {S : Fin m → ℂ} {g : Guess m} (hg : ∀ k, 0 < g.mag k) {d : Ix m → ℝ}
    (hd : ∀ k, NR.curr Y (NR.volt g) k.succ * conj (relChange g d k) + NR.curr Y (change g d) k.succ = missing Y S (NR.volt g) k)
    (hw : ∀ k, 1 - relChange g d k + polarRest (relChange g d k) ≠ 0) (k : Fin m) :
    missing Y S (NR.volt (moved g d)) k = missing Y S (NR.volt g) k * conj (relChange g d k) +
      conj (S k / NR.volt g k.succ * (((1 + relChange g d k) * polarRest (relChange g d k) - relChange g d k ^ 2) /
        (1 - relChange g d k + polarRest (relChange g d k)))) +
      NR.curr Y (Fin.cons 0 fun k => NR.volt g k.succ * polarRest (relChange g d k)) k.succ := by
  have hV : NR.volt (moved g d) = fun i => NR.volt g i - change g d i +
      (Fin.cons 0 fun k => NR.volt g k.succ * polarRest (relChange g d k) : Fin (m + 1) → ℂ) i := by
    funext i
    refine Fin.cases ?_ (fun k => ?_) i
    · simp [NR.volt, change_zero]
    · rw [volt_moved hg, change_succ, Fin.cons_succ]
      ring
  have hI : NR.curr Y (NR.volt (moved g d)) k.succ = NR.curr Y (NR.volt g) k.succ - NR.curr Y (change g d) k.succ +
      NR.curr Y (Fin.cons 0 fun k => NR.volt g k.succ * polarRest (relChange g d k)) k.succ := by
    rw [hV]
    simp only [NR.curr, ← Finset.sum_sub_distrib, ← Finset.sum_add_distrib]
    exact Finset.sum_congr rfl fun i _ => by ring
  have h1 := hd k
  have hv := volt_ne hg k
  have hwk := hw k
  have e1 : S k / NR.volt g k.succ * (((1 + relChange g d k) * polarRest (relChange g d k) - relChange g d k ^ 2) /
        (1 - relChange g d k + polarRest (relChange g d k))) =
      S k / NR.volt g k.succ * (1 + relChange g d k) - S k / NR.volt (moved g d) k.succ := by
    rw [volt_moved hg]
    field_simp
    ring
  rw [e1, missing, hI, map_sub, map_mul (starRingEnd ℂ), map_add, map_one]
  have e2 : NR.curr Y (change g d) k.succ = missing Y S (NR.volt g) k - NR.curr Y (NR.volt g) k.succ * conj (relChange g d k) := by
    rw [← h1]
    ring
  rw [e2]
  simp only [missing]
  ring

/-- A factor in the bound on the missing currents after an iteration. -/
noncomputable def quad (e : ℝ) : ℝ := e ^ 2 * (1 + 17 / 12 * (1 + e)) / (1 - e - 17 / 12 * e ^ 2)

/-- An iteration leads from bounds to bounds. -/
theorem stage {S : Fin m → ℂ} {g : Guess m} (hg : ∀ k, 0 < g.mag k) {s r lo c J A zn e r' : Fin m → ℝ} {hi : Fin (m + 1) → ℝ}
    (h : R.At S (NR.volt g) r lo c J A hi) (hs : ∀ k, ‖S k‖ ≤ s k) (hz : ∀ l, ‖R.z l‖ ≤ zn l) (he : ∀ k, 0 < e k) (he1 : ∀ k, e k ≤ 1 / 4)
    (hc : ∀ k, ∑ l ∈ R.path k, zn l * (r l + ∑ i ∈ R.sub l, A i * e i) < lo k * e k)
    (hr' : ∀ l, ∑ k ∈ R.sub l, (c k * e k + s k / lo k * quad (e k)) + J l * (17 / 12 * e l ^ 2) +
      hi (R.par l) * (17 / 12 * max (e l) ((Fin.cons 0 e : Fin (m + 1) → ℝ) (R.par l)) *
        ((r l + ∑ i ∈ R.sub l, A i * e i + J l * (Fin.cons 0 e : Fin (m + 1) → ℝ) (R.par l)) / lo l)) ≤ r' l)
    {d : Ix m → ℝ}
    (hd : ∀ k, NR.curr Y (NR.volt g) k.succ * conj (relChange g d k) + NR.curr Y (change g d) k.succ = missing Y S (NR.volt g) k) :
    (∀ k, 0 < (moved g d).mag k) ∧ (∀ l, ‖∑ k ∈ R.sub l, missing Y S (NR.volt (moved g d)) k‖ ≤ r' l) ∧
      ∀ k, lo k * (1 - e k - 17 / 12 * e k ^ 2) ≤ ‖NR.volt (moved g d) k.succ‖ := by
  obtain ⟨h1, h2⟩ := eps_le hg h hz he hc h.rest hd
  set ε := relChange g d with hε
  have hD : ∀ k, ‖polarRest (ε k)‖ ≤ 17 / 12 * e k ^ 2 := fun k =>
    (polarRest_le _).trans (by have := pow_le_pow_left₀ (norm_nonneg _) (h1 k) 2; linarith)
  have hq : ∀ k, 0 < 1 - e k - 17 / 12 * e k ^ 2 := fun k => by nlinarith [he k, he1 k]
  have hw1 : ∀ k, 1 - e k - 17 / 12 * e k ^ 2 ≤ ‖1 - ε k + polarRest (ε k)‖ := by
    intro k
    have h3 : (1 : ℝ) ≤ ‖1 - ε k + polarRest (ε k)‖ + ‖ε k‖ + ‖polarRest (ε k)‖ := by
      calc (1 : ℝ) = ‖(1 - ε k + polarRest (ε k)) + ε k - polarRest (ε k)‖ := by
            rw [show (1 - ε k + polarRest (ε k)) + ε k - polarRest (ε k) = 1 by ring, norm_one]
        _ ≤ _ := (norm_sub_le _ _).trans (add_le_add (norm_add_le _ _) le_rfl)
    linarith [h1 k, hD k]
  have hw : ∀ k, 1 - ε k + polarRest (ε k) ≠ 0 := fun k => norm_pos_iff.mp ((hq k).trans_le (hw1 k))
  refine ⟨fun k => mag_moved hg (lt_of_le_of_lt (h1 k) (by linarith [he1 k])), fun l => ?_, fun k => ?_⟩
  · refine le_trans ?_ (hr' l)
    rw [Finset.sum_congr rfl fun k _ => missing_moved hg hd hw k, Finset.sum_add_distrib, R.subtree]
    have hsum : ‖∑ k ∈ R.sub l, (missing Y S (NR.volt g) k * conj (ε k) +
        conj (S k / NR.volt g k.succ * (((1 + ε k) * polarRest (ε k) - ε k ^ 2) / (1 - ε k + polarRest (ε k)))))‖ ≤
        ∑ k ∈ R.sub l, (c k * e k + s k / lo k * quad (e k)) := by
      refine (norm_sum_le _ _).trans (Finset.sum_le_sum fun k _ => (norm_add_le _ _).trans (add_le_add ?_ ?_))
      · rw [norm_mul, RCLike.norm_conj]
        exact mul_le_mul (h.each k) (h1 k) (norm_nonneg _) ((norm_nonneg _).trans (h.each k))
      · rw [RCLike.norm_conj, norm_mul, norm_div, norm_div]
        have hsk : 0 ≤ s k := (norm_nonneg _).trans (hs k)
        have hn : ‖(1 + ε k) * polarRest (ε k) - ε k ^ 2‖ ≤ e k ^ 2 * (1 + 17 / 12 * (1 + e k)) := by
          have h4 : ‖(1 + ε k) * polarRest (ε k)‖ ≤ (1 + e k) * (17 / 12 * e k ^ 2) := by
            rw [norm_mul]
            refine mul_le_mul ((norm_add_le _ _).trans ?_) (hD k) (norm_nonneg _) (by linarith [he k])
            rw [norm_one]
            linarith [h1 k]
          have h5 : ‖ε k ^ 2‖ ≤ e k ^ 2 := by
            rw [norm_pow]
            exact pow_le_pow_left₀ (norm_nonneg _) (h1 k) 2
          refine (norm_sub_le _ _).trans ?_
          linarith
        rw [quad]
        have := h.pos k
        have := hq k
        have := he k
        exact mul_le_mul (div_le_div₀ hsk (hs k) (h.pos k) (h.low k))
          (div_le_div₀ (by positivity) hn (hq k) (hw1 k)) (by positivity) (by positivity)
    set f := R.par l with hf
    set Dx : Fin (m + 1) → ℂ := Fin.cons 0 fun k => polarRest (ε k) with hDx
    set εx : Fin (m + 1) → ℂ := Fin.cons 0 ε with hεx
    set ex : Fin (m + 1) → ℝ := Fin.cons 0 e with hex
    have hεx1 : ∀ i, ‖εx i‖ ≤ ex i := by
      intro i
      refine Fin.cases ?_ (fun k => ?_) i
      · simp [hεx, hex]
      · simpa [hεx, hex] using h1 k
    have hDx1 : Dx f = polarRest (εx f) := by
      refine Fin.cases ?_ (fun k => ?_) f
      · simp [hDx, hεx, polarRest_zero]
      · simp [hDx, hεx]
    have hT : (Fin.cons 0 fun k => NR.volt g k.succ * polarRest (ε k) : Fin (m + 1) → ℂ) f = NR.volt g f * Dx f := by
      refine Fin.cases ?_ (fun k => ?_) f
      · simp [hDx]
      · simp [hDx]
    have hu : change g d f = NR.volt g f * εx f := by
      refine Fin.cases ?_ (fun k => ?_) f
      · simp [change_zero, hεx]
      · simp [change_succ, hεx, hε]
    have hz0 := R.z_ne l
    have hv0 := volt_ne hg l
    have e1 : ((Fin.cons 0 fun k => NR.volt g k.succ * polarRest (ε k) : Fin (m + 1) → ℂ) l.succ -
        (Fin.cons 0 fun k => NR.volt g k.succ * polarRest (ε k) : Fin (m + 1) → ℂ) f) / R.z l =
        R.line (NR.volt g) l * polarRest (ε l) + NR.volt g f * ((polarRest (ε l) - polarRest (εx f)) / R.z l) := by
      rw [hT, Fin.cons_succ, line, ← hf, hDx1]
      field_simp
      ring
    have e2 : (ε l - εx f) / R.z l = (R.line (change g d) l - R.line (NR.volt g) l * εx f) / NR.volt g l.succ := by
      rw [line, line, ← hf, hu, change_succ, ← hε]
      field_simp
      ring
    have hM : ‖(polarRest (ε l) - polarRest (εx f)) / R.z l‖ ≤ 17 / 12 * max (e l) (ex f) *
        ((r l + ∑ i ∈ R.sub l, A i * e i + J l * ex f) / lo l) := by
      have h6 := polarRest_sub (e := εx f) (e' := ε l) (r := max (e l) (ex f)) ((hεx1 f).trans (le_max_right _ _))
        ((h1 l).trans (le_max_left _ _))
      have hmx : 0 ≤ max (e l) (ex f) := (he l).le.trans (le_max_left _ _)
      calc ‖(polarRest (ε l) - polarRest (εx f)) / R.z l‖ = ‖polarRest (ε l) - polarRest (εx f)‖ / ‖R.z l‖ := norm_div _ _
        _ ≤ 17 / 12 * max (e l) (ex f) * ‖ε l - εx f‖ / ‖R.z l‖ := div_le_div_of_nonneg_right h6 (norm_nonneg _)
        _ = 17 / 12 * max (e l) (ex f) * ‖(ε l - εx f) / R.z l‖ := by rw [norm_div]; ring
        _ ≤ _ := by
          refine mul_le_mul_of_nonneg_left ?_ (by positivity)
          rw [e2, norm_div]
          have h7 : ‖R.line (change g d) l - R.line (NR.volt g) l * εx f‖ ≤ r l + ∑ i ∈ R.sub l, A i * e i + J l * ex f := by
            refine (norm_sub_le _ _).trans (add_le_add (h2 l) ?_)
            rw [norm_mul]
            exact mul_le_mul (h.lines l) (hεx1 f) (norm_nonneg _) ((norm_nonneg _).trans (h.lines l))
          exact div_le_div₀ ((norm_nonneg _).trans h7) h7 (h.pos l) (h.low l)
    refine (norm_add_le _ _).trans ?_
    rw [e1, add_assoc]
    refine add_le_add hsum ((norm_add_le _ _).trans (add_le_add ?_ ?_))
    · rw [norm_mul]
      exact mul_le_mul (h.lines l) (hD l) (norm_nonneg _) ((norm_nonneg _).trans (h.lines l))
    · rw [norm_mul]
      exact mul_le_mul (h.high f) hM (norm_nonneg _) ((norm_nonneg _).trans (h.high f))
  · rw [volt_moved hg, norm_mul]
    exact mul_le_mul (h.low k) (hw1 k) (hq k).le (norm_nonneg _)

/-- Better bounds on the voltages. -/
theorem low_of_low {S : Fin m → ℂ} {V : Fin (m + 1) → ℂ} {s r lo lo' zn : Fin m → ℝ} (hV : V 0 = 1) (hs : ∀ k, ‖S k‖ ≤ s k)
    (hz : ∀ l, ‖R.z l‖ ≤ zn l) (hr : ∀ l, ‖∑ k ∈ R.sub l, missing Y S V k‖ ≤ r l) (hp : ∀ k, 0 < lo k) (hl : ∀ k, lo k ≤ ‖V k.succ‖)
    (hc : ∀ k, lo' k + ∑ l ∈ R.path k, zn l * (r l + ∑ i ∈ R.sub l, s i / lo i) ≤ 1) :
    (∀ k, lo' k ≤ ‖V k.succ‖) ∧ (∀ l, ‖R.line V l‖ ≤ r l + ∑ i ∈ R.sub l, s i / lo i) ∧
      ∀ k, ‖V k.succ‖ ≤ 1 + ∑ l ∈ R.path k, zn l * (r l + ∑ i ∈ R.sub l, s i / lo i) := by
  have hl1 : ∀ l, ‖R.line V l‖ ≤ r l + ∑ i ∈ R.sub l, s i / lo i := by
    intro l
    have e1 : R.line V l = ∑ k ∈ R.sub l, missing Y S V k + ∑ k ∈ R.sub l, conj (S k / V k.succ) := by
      rw [line, ← R.subtree, ← Finset.sum_add_distrib]
      exact Finset.sum_congr rfl fun k _ => by rw [missing]; ring
    rw [e1]
    refine (norm_add_le _ _).trans (add_le_add (hr l) ((norm_sum_le _ _).trans (Finset.sum_le_sum fun k _ => ?_)))
    rw [RCLike.norm_conj, norm_div]
    exact div_le_div₀ ((norm_nonneg _).trans (hs k)) (hs k) (hp k) (hl k)
  have hd : ∀ k, ‖V k.succ - 1‖ ≤ ∑ l ∈ R.path k, zn l * (r l + ∑ i ∈ R.sub l, s i / lo i) := by
    intro k
    rw [← hV, R.sum_line]
    refine (norm_sum_le _ _).trans (Finset.sum_le_sum fun l _ => ?_)
    rw [norm_mul]
    exact mul_le_mul (hz l) (hl1 l) (norm_nonneg _) ((norm_nonneg _).trans (hz l))
  refine ⟨fun k => ?_, hl1, fun k => ?_⟩
  · have h1 : (1 : ℝ) ≤ ‖V k.succ‖ + ‖V k.succ - 1‖ := by
      calc (1 : ℝ) = ‖V k.succ - (V k.succ - 1)‖ := by rw [sub_sub_cancel, norm_one]
        _ ≤ _ := norm_sub_le _ _
    linarith [hd k, hc k]
  · have h1 : ‖V k.succ‖ ≤ 1 + ‖V k.succ - 1‖ := by
      calc ‖V k.succ‖ = ‖1 + (V k.succ - 1)‖ := by rw [add_sub_cancel]
        _ ≤ _ := (norm_add_le _ _).trans (by rw [norm_one])
    linarith [hd k]

/-- All bounds follow from those on the missing currents and the voltages. -/
theorem at_of_low {S : Fin m → ℂ} {V : Fin (m + 1) → ℂ} {s r lo c J A zn : Fin m → ℝ} {hi : Fin m → ℝ} (hV : V 0 = 1) (hs : ∀ k, ‖S k‖ ≤ s k)
    (hz : ∀ l, ‖R.z l‖ ≤ zn l) (hr : ∀ l, ‖∑ k ∈ R.sub l, missing Y S V k‖ ≤ r l) (hp : ∀ k, 0 < lo k) (hl : ∀ k, lo k ≤ ‖V k.succ‖)
    (hJ : ∀ l, r l + ∑ i ∈ R.sub l, s i / lo i ≤ J l) (hh : ∀ k, 1 + ∑ l ∈ R.path k, zn l * J l ≤ hi k)
    (hc : ∀ k, r k + ∑ l ∈ R.kids k, r l ≤ c k) (hA : ∀ k, c k + s k / lo k ≤ A k) :
    R.At S V r lo c J A (Fin.cons 1 hi) := by
  obtain ⟨-, h1, h2⟩ := low_of_low (lo' := fun k => 1 - ∑ l ∈ R.path k, zn l * (r l + ∑ i ∈ R.sub l, s i / lo i)) hV hs hz hr hp hl
    (fun k => by linarith)
  have hc1 : ∀ k, ‖missing Y S V k‖ ≤ c k := by
    intro k
    rw [R.own (missing Y S V) k]
    refine le_trans ((norm_sub_le _ _).trans (add_le_add (hr k) ((norm_sum_le _ _).trans (Finset.sum_le_sum fun l _ => hr l)))) (hc k)
  refine ⟨hr, hl, hp, hc1, fun l => (h1 l).trans (hJ l), fun k => ?_, fun i => ?_⟩
  · have e1 : NR.curr Y V k.succ = missing Y S V k + conj (S k / V k.succ) := by
      rw [missing]
      ring
    rw [e1]
    refine le_trans ((norm_add_le _ _).trans (add_le_add (hc1 k) ?_)) (hA k)
    rw [RCLike.norm_conj, norm_div]
    exact div_le_div₀ ((norm_nonneg _).trans (hs k)) (hs k) (hp k) (hl k)
  · refine Fin.cases ?_ (fun k => ?_) i
    · simp [hV]
    · rw [Fin.cons_succ]
      refine ((h2 k).trans (add_le_add le_rfl (Finset.sum_le_sum fun l _ => ?_))).trans (hh k)
      exact mul_le_mul_of_nonneg_left (hJ l) ((norm_nonneg _).trans (hz l))

end Radial

end

end Anm
