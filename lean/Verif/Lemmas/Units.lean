import Verif.Lemmas.Components

/-! # Multiplying numbers by a positive factor

`X.sc k` multiplies the finite numbers by `k` and leaves infinities and NaN alone. -/

namespace Anm
variable {K : Type} [Field K] [LinearOrder K] [IsStrictOrderedRing K]

/-- Change of unit: one old unit is `k` new ones. -/
def X.sc (k : K) : X K → X K
  | .fin a => .fin (a * k)
  | x => x

namespace X
variable {k : K}

omit [LinearOrder K] [IsStrictOrderedRing K] in
@[simp] theorem sc_fin (a : K) : sc k (fin a) = fin (a * k) := rfl
omit [LinearOrder K] [IsStrictOrderedRing K] in
@[simp] theorem sc_nan : sc k (nan : X K) = nan := rfl
omit [LinearOrder K] [IsStrictOrderedRing K] in
@[simp] theorem sc_pinf : sc k (pinf : X K) = pinf := rfl
omit [LinearOrder K] [IsStrictOrderedRing K] in
@[simp] theorem sc_ninf : sc k (ninf : X K) = ninf := rfl
omit [LinearOrder K] [IsStrictOrderedRing K] in
@[simp] theorem sc_zero : sc k (0 : X K) = 0 := by simp [zero_def]

/-- It is the multiplication of the code. -/
theorem sc_eq_mul (hk : 0 < k) (x : X K) : sc k x = x * fin k := by
  have hs : sgn (fin k : X K) = 1 := by simp [sgn, hk]
  cases x
  · rfl
  · have e : (ninf * fin k : X K) = infOf (-1 * sgn (fin k : X K)) := rfl
    rw [e, hs]; rfl
  · rfl
  · have e : (pinf * fin k : X K) = infOf (1 * sgn (fin k : X K)) := rfl
    rw [e, hs]; rfl

theorem sc_inv (hk : 0 < k) (x : X K) : sc k⁻¹ (sc k x) = x := by cases x <;> simp [hk.ne']
theorem sc_inv' (hk : 0 < k) (x : X K) : sc k (sc k⁻¹ x) = x := by cases x <;> simp [hk.ne']

omit [LinearOrder K] [IsStrictOrderedRing K] in
theorem sc_add (a b : X K) : sc k (a + b) = sc k a + sc k b := by
  cases a <;> cases b <;> first | rfl | simp [add_mul]
omit [LinearOrder K] [IsStrictOrderedRing K] in
theorem sc_neg (a : X K) : sc k (-a) = - sc k a := by
  cases a <;> first | rfl | simp
theorem sc_sub (a b : X K) : sc k (a - b) = sc k a - sc k b := by
  rw [sub_def, sub_def, sc_add, sc_neg]

theorem sc_le (hk : 0 < k) {a b : X K} : sc k a ≤ sc k b ↔ a ≤ b := by
  cases a <;> cases b <;> simp [hk]
theorem sc_lt (hk : 0 < k) {a b : X K} : sc k a < sc k b ↔ a < b := by
  cases a <;> cases b <;> simp [hk]
theorem sc_inj (hk : 0 < k) {a b : X K} : sc k a = sc k b ↔ a = b := by
  cases a <;> cases b <;> simp [hk.ne']
theorem sc_feq (hk : 0 < k) {a b : X K} : feq (sc k a) (sc k b) ↔ feq a b := by
  cases a <;> cases b <;> simp [hk.ne', feq]
theorem sc_nan_iff {a : X K} : sc k a = nan ↔ a = nan := by cases a <;> simp
theorem sc_le_zero (hk : 0 < k) {a : X K} : sc k a ≤ 0 ↔ a ≤ 0 := by
  have := sc_le hk (a := a) (b := 0); rwa [sc_zero] at this
theorem sc_lt_zero (hk : 0 < k) {a : X K} : sc k a < 0 ↔ a < 0 := by
  have := sc_lt hk (a := a) (b := 0); rwa [sc_zero] at this
theorem sc_zero_lt (hk : 0 < k) {a : X K} : .fin 0 < sc k a ↔ .fin 0 < a := by
  have := sc_lt hk (a := 0) (b := a); rwa [sc_zero] at this
theorem sc_feq_zero (hk : 0 < k) {a : X K} : feq (sc k a) 0 ↔ feq a 0 := by
  have := sc_feq hk (a := a) (b := 0); rwa [sc_zero] at this
theorem sc_eq_zero (hk : 0 < k) {a : X K} : sc k a = fin 0 ↔ a = fin 0 := by
  have := sc_inj hk (a := a) (b := 0); rwa [sc_zero] at this

theorem sc_maximum (hk : 0 < k) (a b : X K) : maximum (sc k a) (sc k b) = sc k (maximum a b) := by
  simp only [maximum, sc_nan_iff, sc_le hk]
  split_ifs <;> rfl
theorem sc_minimum (hk : 0 < k) (a b : X K) : minimum (sc k a) (sc k b) = sc k (minimum a b) := by
  simp only [minimum, sc_nan_iff, sc_le hk]
  split_ifs <;> rfl
theorem sc_clip (hk : 0 < k) (x a b : X K) : clip (sc k x) (sc k a) (sc k b) = sc k (clip x a b) := by
  simp only [clip, sc_maximum hk, sc_minimum hk]
theorem sc_max_zero (hk : 0 < k) (a : X K) : maximum 0 (sc k a) = sc k (maximum 0 a) := by
  rw [← sc_maximum hk, sc_zero]
theorem sc_abs (hk : 0 < k) (a : X K) : abs (sc k a) = sc k (abs a) := by
  cases a <;> simp [abs, abs_mul, abs_of_pos hk]

theorem neg_sc {k a : K} (hk : 0 < k) : a * k < 0 ↔ a < 0 := by
  constructor
  · intro h; by_contra h'; exact absurd (mul_nonneg (not_lt.1 h') hk.le) (not_le.2 h)
  · intro h; exact mul_neg_of_neg_of_pos h hk

theorem sgn_sc (hk : 0 < k) (a : X K) : sgn (sc k a) = sgn a := by
  cases a with
  | fin a => simp only [sc_fin, sgn, mul_pos_iff_of_pos_right hk, neg_sc hk]
  | _ => rfl

omit [LinearOrder K] [IsStrictOrderedRing K] in
theorem sc_infOf (n : ℤ) : sc k (infOf n : X K) = infOf n := by
  unfold infOf; split_ifs <;> rfl

theorem mul_sc (hk : 0 < k) (a b : X K) : a * sc k b = sc k (a * b) := by
  cases a with
  | nan => cases b <;> rfl
  | fin a =>
    cases b with
    | fin b => simp [mul_assoc]
    | nan => rfl
    | pinf =>
      have e : (fin a * pinf : X K) = infOf (sgn (fin a) * 1) := rfl
      rw [sc_pinf, e, sc_infOf]
    | ninf =>
      have e : (fin a * ninf : X K) = infOf (sgn (fin a) * (-1)) := rfl
      rw [sc_ninf, e, sc_infOf]
  | pinf =>
    cases b with
    | fin b =>
      have e : ∀ c : K, (pinf * fin c : X K) = infOf (1 * sgn (fin c)) := fun c => rfl
      rw [sc_fin, e, e, sc_infOf, ← sc_fin, sgn_sc hk]
    | _ => rfl
  | ninf =>
    cases b with
    | fin b =>
      have e : ∀ c : K, (ninf * fin c : X K) = infOf (-1 * sgn (fin c)) := fun c => rfl
      rw [sc_fin, e, e, sc_infOf, ← sc_fin, sgn_sc hk]
    | _ => rfl

theorem sc_mul (hk : 0 < k) (a b : X K) : sc k a * b = sc k (a * b) := by
  cases a with
  | nan => cases b <;> rfl
  | fin a =>
    cases b with
    | fin b => simp [mul_right_comm]
    | nan => rfl
    | pinf =>
      have e : ∀ a : K, (fin a * pinf : X K) = infOf (sgn (fin a) * 1) := fun _ => rfl
      rw [sc_fin, e, e, sc_infOf, ← sc_fin, sgn_sc hk]
    | ninf =>
      have e : ∀ a : K, (fin a * ninf : X K) = infOf (sgn (fin a) * (-1)) := fun _ => rfl
      rw [sc_fin, e, e, sc_infOf, ← sc_fin, sgn_sc hk]
  | pinf =>
    cases b with
    | fin b =>
      have e : ∀ c : K, (pinf * fin c : X K) = infOf (1 * sgn (fin c)) := fun c => rfl
      rw [sc_pinf, e, sc_infOf]
    | _ => rfl
  | ninf =>
    cases b with
    | fin b =>
      have e : ∀ c : K, (ninf * fin c : X K) = infOf (-1 * sgn (fin c)) := fun c => rfl
      rw [sc_ninf, e, sc_infOf]
    | _ => rfl

theorem sc_div (hk : 0 < k) (a b : X K) : sc k a / b = sc k (a / b) := by
  have hz : ∀ x : K, (fin x / fin 0 : X K) = infOf (sgn (fin x)) := fun x => if_pos rfl
  cases a with
  | fin a =>
    cases b with
    | fin b =>
      by_cases hb : b = 0
      · subst hb
        rw [sc_fin, hz, hz, sc_infOf, ← sc_fin, sgn_sc hk]
      · rw [sc_fin, fin_div_fin hb, fin_div_fin hb, sc_fin, div_mul_eq_mul_div]
    | nan => rfl
    | pinf => exact (congrArg fin (zero_mul k)).symm
    | ninf => exact (congrArg fin (zero_mul k)).symm
  | nan => cases b <;> rfl
  | pinf =>
    cases b with
    | fin b =>
      have e : (pinf / fin b : X K) = if b < 0 then infOf (-1) else infOf 1 := rfl
      rw [sc_pinf, e]; split_ifs <;> rfl
    | _ => rfl
  | ninf =>
    cases b with
    | fin b =>
      have e : (ninf / fin b : X K) = if b < 0 then infOf (- -1) else infOf (-1) := rfl
      rw [sc_ninf, e]; split_ifs <;> rfl
    | _ => rfl

/-- Dividing by a quantity in the new unit. -/
theorem div_sc (hk : 0 < k) (a b : X K) : a / sc k b = sc k⁻¹ (a / b) := by
  have hz : ∀ x : K, (fin x / fin 0 : X K) = infOf (sgn (fin x)) := fun x => if_pos rfl
  cases a with
  | fin a =>
    cases b with
    | fin b =>
      by_cases hb : b = 0
      · subst hb
        rw [sc_fin, zero_mul, hz, sc_infOf]
      · rw [sc_fin, fin_div_fin hb, fin_div_fin (mul_ne_zero hb hk.ne'), sc_fin, div_mul_eq_div_div, div_eq_mul_inv (a / b)]
    | nan => rfl
    | pinf => exact (congrArg fin (zero_mul _)).symm
    | ninf => exact (congrArg fin (zero_mul _)).symm
  | nan => cases b <;> rfl
  | pinf =>
    cases b with
    | fin b =>
      have e : ∀ b : K, (pinf / fin b : X K) = if b < 0 then infOf (-1) else infOf 1 := fun _ => rfl
      rw [sc_fin, e, e]; simp only [neg_sc hk]; split_ifs <;> rfl
    | _ => rfl
  | ninf =>
    cases b with
    | fin b =>
      have e : ∀ b : K, (ninf / fin b : X K) = if b < 0 then infOf (- -1) else infOf (-1) := fun _ => rfl
      rw [sc_fin, e, e]; simp only [neg_sc hk]; split_ifs <;> rfl
    | _ => rfl

/-- Converting to per-unit with the other base. -/
theorem div_base (hk : 0 < k) (x m : X K) : x / sc k⁻¹ m = sc k (x / m) := by
  rw [div_sc (inv_pos.2 hk), inv_inv]

/-- Converting back to physical units with the other base. -/
theorem mul_base (hk : 0 < k) (x m : X K) : sc k x * sc k⁻¹ m = x * m := by
  rw [sc_mul hk, mul_sc (inv_pos.2 hk), sc_inv' hk]

/-- Slopes do not depend on the unit. -/
theorem sc_div_sc (hk : 0 < k) (a b : X K) : sc k a / sc k b = a / b := by
  rw [sc_div hk, div_sc hk, sc_inv' hk]

omit [LinearOrder K] [IsStrictOrderedRing K] in
theorem sc_fold {α : Type} (f : α → X K) (l : List α) (a : X K) :
    l.foldl (fun x d => x + sc k (f d)) (sc k a) = sc k (l.foldl (fun x d => x + f d) a) := by
  induction l generalizing a with
  | nil => rfl
  | cons d l ih => rw [List.foldl_cons, List.foldl_cons, ← sc_add, ih]

end X
end Anm
