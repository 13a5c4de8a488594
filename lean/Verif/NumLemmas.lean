import Verif.Num

/-! # Lemmas about the number model -/

set_option linter.unusedSectionVars false
set_option linter.unnecessarySeqFocus false

namespace Anm
namespace X

variable {K : Type} [Field K] [LinearOrder K]

@[simp] theorem fin_add_fin (a b : K) : (fin a + fin b : X K) = fin (a + b) := rfl
@[simp] theorem fin_mul_fin (a b : K) : (fin a * fin b : X K) = fin (a * b) := rfl
@[simp] theorem neg_fin (a : K) : (- fin a : X K) = fin (-a) := rfl
@[simp] theorem neg_nan : (- nan : X K) = nan := rfl
@[simp] theorem neg_pinf : (- pinf : X K) = ninf := rfl
@[simp] theorem neg_ninf : (- ninf : X K) = pinf := rfl
theorem sub_def (a b : X K) : a - b = a + (-b) := rfl
@[simp] theorem fin_sub_fin (a b : K) : (fin a - fin b : X K) = fin (a - b) := by
  rw [sub_def, neg_fin, fin_add_fin, sub_eq_add_neg]
theorem fin_div_fin {a b : K} (h : b ≠ 0) : (fin a / fin b : X K) = fin (a / b) := by
  show div _ _ = _
  simp [div, h]
@[simp] theorem fin_lt_fin {a b : K} : (fin a < fin b : Prop) ↔ a < b := Iff.rfl
@[simp] theorem fin_le_fin {a b : K} : (fin a ≤ fin b : Prop) ↔ a ≤ b := Iff.rfl
@[simp] theorem not_nan_lt (a : X K) : ¬ (nan : X K) < a := by cases a <;> exact id
@[simp] theorem not_lt_nan (a : X K) : ¬ a < (nan : X K) := by cases a <;> exact id
@[simp] theorem not_nan_le (a : X K) : ¬ (nan : X K) ≤ a := by cases a <;> exact id
@[simp] theorem not_le_nan (a : X K) : ¬ a ≤ (nan : X K) := by cases a <;> exact id
@[simp] theorem ninf_lt_fin (a : K) : (ninf : X K) < fin a := trivial
@[simp] theorem ninf_lt_pinf : (ninf : X K) < pinf := trivial
@[simp] theorem fin_lt_pinf (a : K) : (fin a : X K) < pinf := trivial
@[simp] theorem not_lt_ninf (a : X K) : ¬ a < (ninf : X K) := by cases a <;> exact id
@[simp] theorem not_pinf_lt (a : X K) : ¬ (pinf : X K) < a := by cases a <;> exact id
@[simp] theorem ninf_le_fin (a : K) : (ninf : X K) ≤ fin a := trivial
@[simp] theorem ninf_le_pinf : (ninf : X K) ≤ pinf := trivial
@[simp] theorem ninf_le_ninf : (ninf : X K) ≤ ninf := trivial
@[simp] theorem pinf_le_pinf : (pinf : X K) ≤ pinf := trivial
@[simp] theorem fin_le_pinf (a : K) : (fin a : X K) ≤ pinf := trivial
@[simp] theorem not_fin_le_ninf (a : K) : ¬ (fin a : X K) ≤ ninf := id
@[simp] theorem not_pinf_le_ninf : ¬ (pinf : X K) ≤ ninf := id
@[simp] theorem not_pinf_le_fin (a : K) : ¬ (pinf : X K) ≤ fin a := id
@[simp] theorem feq_fin {a b : K} : feq (fin a) (fin b) ↔ a = b := by simp [feq]
@[simp] theorem not_feq_nan {a : X K} : ¬ feq nan a := by simp [feq]
@[simp] theorem not_feq_nan' {a : X K} : ¬ feq a nan := by cases a <;> simp [feq]
@[simp] theorem notNan_fin (a : K) : NotNan (fin a) := trivial
@[simp] theorem notNan_pinf : NotNan (pinf : X K) := trivial
@[simp] theorem notNan_ninf : NotNan (ninf : X K) := trivial
@[simp] theorem notNan_nan : ¬ NotNan (nan : X K) := id

theorem notNan_iff {x : X K} : NotNan x ↔ x ≠ nan := by cases x <;> simp

theorem feq_iff {a b : X K} : feq a b ↔ a = b ∧ NotNan a := by
  cases a <;> simp [feq]

theorem not_lt_iff {a b : X K} (ha : NotNan a) (hb : NotNan b) : ¬ a < b ↔ b ≤ a := by
  cases a <;> cases b <;> simp_all

theorem not_le_iff {a b : X K} (ha : NotNan a) (hb : NotNan b) : ¬ a ≤ b ↔ b < a := by
  cases a <;> cases b <;> simp_all

theorem le_refl_of {a : X K} (h : NotNan a) : a ≤ a := by cases a <;> simp_all

theorem le_trans' {a b c : X K} (h : a ≤ b) (h' : b ≤ c) : a ≤ c := by
  cases a <;> cases b <;> cases c <;> simp_all <;> exact le_trans h h'

theorem lt_of_lt_of_le' {a b c : X K} (h : a < b) (h' : b ≤ c) : a < c := by
  cases a <;> cases b <;> cases c <;> simp_all <;> exact lt_of_lt_of_le h h'

theorem le_antisymm' {a b : X K} (h : a ≤ b) (h' : b ≤ a) : a = b := by
  cases a <;> cases b <;> simp_all <;> exact le_antisymm h h'

theorem le_of_lt' {a b : X K} (h : a < b) : a ≤ b := by
  cases a <;> cases b <;> simp_all <;> exact le_of_lt h

theorem le_notNan {a b : X K} (h : a ≤ b) : NotNan a ∧ NotNan b := by
  cases a <;> cases b <;> simp_all

theorem mul_fin_one [IsStrictOrderedRing K] (x : X K) : x * fin 1 = x := by
  show mul x (fin 1) = x
  cases x <;> simp [mul, sgn, infOf]

/-! ### clip -/

theorem clip_notNan {x lo hi : X K} (hx : NotNan x) (hl : NotNan lo) (hh : NotNan hi) :
    NotNan (clip x lo hi) := by
  rw [notNan_iff] at *
  unfold clip minimum maximum
  split_ifs <;> simp_all

/-- A clipped value is within ordered bounds. -/
theorem clip_mem {x lo hi : X K} (hx : NotNan x) (h : lo ≤ hi) :
    lo ≤ clip x lo hi ∧ clip x lo hi ≤ hi := by
  have ⟨hl, hh⟩ := le_notNan h
  have hl' := notNan_iff.1 hl
  have hh' := notNan_iff.1 hh
  have hx' := notNan_iff.1 hx
  unfold clip minimum maximum
  simp only [hl', hh', hx', if_false]
  split_ifs with h1 h2
  · exact ⟨h1, h2⟩
  · exact ⟨h, le_refl_of hh⟩
  · exact ⟨le_refl_of hl, h⟩

theorem clip_eq_self {x lo hi : X K} (h1 : lo ≤ x) (h2 : x ≤ hi) : clip x lo hi = x := by
  have ⟨hl, hx⟩ := le_notNan h1
  have ⟨_, hh⟩ := le_notNan h2
  have hl' := notNan_iff.1 hl
  have hh' := notNan_iff.1 hh
  have hx' := notNan_iff.1 hx
  unfold clip minimum maximum
  simp [hl', hh', hx', h1, h2]

@[simp] theorem clip_nan (lo hi : X K) : clip nan lo hi = nan := by
  simp [clip, maximum, minimum]

theorem clip_nan_iff {x lo hi : X K} (hl : NotNan lo) (hh : NotNan hi) :
    clip x lo hi = nan ↔ x = nan := by
  constructor
  · intro h; by_contra hx
    exact notNan_iff.1 (clip_notNan (notNan_iff.2 hx) hl hh) h
  · rintro rfl; simp

/-- Clipping below a bound: the value is at most the input or the lower bound. -/
theorem clip_le {x lo hi : X K} (hx : NotNan x) (h : lo ≤ hi) (hlx : lo ≤ x) :
    clip x lo hi ≤ x := by
  have ⟨hl, hh⟩ := le_notNan h
  have hl' := notNan_iff.1 hl
  have hh' := notNan_iff.1 hh
  have hx' := notNan_iff.1 hx
  unfold clip minimum maximum
  simp only [hl', hh', hx', if_false, hlx, if_true]
  split_ifs with h1
  · exact le_refl_of hx
  · exact le_of_lt' ((not_le_iff hx hh).1 h1)

/-! ### arithmetic -/

theorem add_fin_inv {a b : X K} {c : K} (h : a + b = fin c) :
    ∃ x y, a = fin x ∧ b = fin y ∧ c = x + y := by
  cases a <;> cases b <;> simp_all [HAdd.hAdd, Add.add, add]

variable [IsStrictOrderedRing K]

theorem div_pos_le_div {a b : X K} {c : K} (hc : 0 < c) (h : a ≤ b) :
    a / fin c ≤ b / fin c := by
  cases a <;> cases b <;> simp_all [HDiv.hDiv, Div.div, div, infOf, sgn, hc.ne', not_lt.2 hc.le]
  all_goals exact (div_le_div_iff_of_pos_right hc).2 h

theorem div_notNan {a : X K} {c : K} (hc : 0 < c) (h : NotNan a) : NotNan (a / fin c) := by
  cases a <;> simp_all [HDiv.hDiv, Div.div, div, infOf, sgn, hc.ne', not_lt.2 hc.le]

theorem pinf_div {c : K} (hc : 0 < c) : (pinf / fin c : X K) = pinf := by
  simp_all [HDiv.hDiv, Div.div, div, infOf, sgn, not_lt.2 hc.le]

theorem ninf_div {c : K} (hc : 0 < c) : (ninf / fin c : X K) = ninf := by
  simp_all [HDiv.hDiv, Div.div, div, infOf, sgn, not_lt.2 hc.le]

end X
end Anm
