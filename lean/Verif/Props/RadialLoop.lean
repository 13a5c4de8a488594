import Mathlib.Tactic.Rify
import Verif.Props.Radial

/-!
# The load flow of a radial network converges

The loop of the load flow, with exactly solved linear systems, if a table of bounds passes a check.
-/

namespace Anm

open Spec Complex ComplexConjugate

section
variable {m : ℕ} {Y : Matrix (Fin (m + 1)) (Fin (m + 1)) ℂ}

/-- The complex powers. -/
def powersOf (p q : Fin m → ℝ) (k : Fin m) : ℂ := ⟨p k, q k⟩

/-- The mismatches in terms of the missing currents. -/
theorem f_missing {g : Guess m} (hg : ∀ k, 0 < g.mag k) (p q : Fin m → ℝ) (k : Fin m) :
    ((finVal (NR.f Y (fun k => .fin (p k)) (fun k => .fin (q k)) g (.inl k)) : ℝ) : ℂ) +
      (finVal (NR.f Y (fun k => .fin (p k)) (fun k => .fin (q k)) g (.inr k)) : ℝ) * I =
      NR.volt g k.succ * conj (missing Y (powersOf p q) (NR.volt g) k) := by
  have hv := volt_ne hg k
  have e1 : NR.volt g k.succ * conj (missing Y (powersOf p q) (NR.volt g) k) = NR.power Y g k - powersOf p q k := by
    rw [missing, map_sub, Complex.conj_conj, mul_sub, mul_div_cancel₀ _ hv]
    rfl
  rw [e1]
  have h1 : finVal (NR.f Y (fun k => .fin (p k)) (fun k => .fin (q k)) g (.inl k)) = (NR.power Y g k).re - (p k + 0 * q k) := rfl
  have h2 : finVal (NR.f Y (fun k => .fin (p k)) (fun k => .fin (q k)) g (.inr k)) = (NR.power Y g k).im - q k := rfl
  rw [h1, h2]
  apply Complex.ext <;> simp [powersOf]

theorem f_finite (p q : Fin m → ℝ) (g : Guess m) (a : Ix m) : NR.f Y (fun k => .fin (p k)) (fun k => .fin (q k)) g a =
    .fin (finVal (NR.f Y (fun k => .fin (p k)) (fun k => .fin (q k)) g a)) := by
  cases a <;> rfl

/-- Small missing currents, small mismatches. -/
theorem norm_of_missing {g : Guess m} (hg : ∀ k, 0 < g.mag k) {p q : Fin m → ℝ} {c : ℝ} (hc : 0 ≤ c)
    (h : ∀ k, ‖NR.volt g k.succ‖ * ‖missing Y (powersOf p q) (NR.volt g) k‖ ≤ c) :
    NR.norm (NR.f Y (fun k => .fin (p k)) (fun k => .fin (q k)) g) ≤ .fin c := by
  rw [norm_le hc]
  have key : ∀ k, ‖((finVal (NR.f Y (fun k => .fin (p k)) (fun k => .fin (q k)) g (.inl k)) : ℝ) : ℂ) +
      (finVal (NR.f Y (fun k => .fin (p k)) (fun k => .fin (q k)) g (.inr k)) : ℝ) * I‖ ≤ c := by
    intro k
    rw [f_missing hg, norm_mul, RCLike.norm_conj]
    exact h k
  rintro (k | k) <;> rw [f_finite] <;> simp only [X.abs, X.fin_le_fin]
  · have := (Complex.abs_re_le_norm _).trans (key k)
    simpa using this
  · have := (Complex.abs_im_le_norm _).trans (key k)
    simpa using this

/-- The missing currents of a state with small mismatches. -/
theorem missing_of_norm {g : Guess m} (hg : ∀ k, 0 < g.mag k) {p q : Fin m → ℝ} {c : ℝ} (hc : 0 ≤ c)
    (h : NR.norm (NR.f Y (fun k => .fin (p k)) (fun k => .fin (q k)) g) ≤ .fin c) (k : Fin m) :
    ‖NR.volt g k.succ‖ * ‖missing Y (powersOf p q) (NR.volt g) k‖ ≤ 17 / 12 * c := by
  rw [norm_le hc] at h
  have h1 := h (.inl k)
  have h2 := h (.inr k)
  rw [f_finite] at h1 h2
  simp only [X.abs, X.fin_le_fin] at h1 h2
  have e1 := f_missing (Y := Y) hg p q k
  set a := finVal (NR.f Y (fun k => .fin (p k)) (fun k => .fin (q k)) g (.inl k))
  set b := finVal (NR.f Y (fun k => .fin (p k)) (fun k => .fin (q k)) g (.inr k))
  have e2 : ‖NR.volt g k.succ‖ * ‖missing Y (powersOf p q) (NR.volt g) k‖ = ‖(a : ℂ) + b * I‖ := by
    rw [e1, norm_mul, RCLike.norm_conj]
  rw [e2]
  refine abs_le_of_sq_le_sq' ?_ (by positivity) |>.2
  have e3 : ‖(a : ℂ) + b * I‖ ^ 2 = a ^ 2 + b ^ 2 := by
    rw [← Complex.normSq_eq_norm_sq, Complex.normSq_add_mul_I]
  rw [e3]
  have := sq_le_sq' (abs_le.mp h1).1 (abs_le.mp h1).2
  have := sq_le_sq' (abs_le.mp h2).1 (abs_le.mp h2).2
  nlinarith

theorem norm_f_real (p q : Fin m → ℝ) (g : Guess m) {c : ℝ}
    (h : ¬ (.fin c : X ℝ) < NR.norm (NR.f Y (fun k => .fin (p k)) (fun k => .fin (q k)) g)) :
    NR.norm (NR.f Y (fun k => .fin (p k)) (fun k => .fin (q k)) g) ≤ .fin c := by
  by_contra h0
  apply h
  rw [X.not_le_iff _ (X.notNan_fin _)] at h0
  · exact h0
  · rw [X.notNan_iff]
    intro e
    have := (norm_le (F := NR.f Y (fun k => .fin (p k)) (fun k => .fin (q k)) g)
      (c := ∑ a, |finVal (NR.f Y (fun k => .fin (p k)) (fun k => .fin (q k)) g a)|) (by positivity)).2 (by
        intro a
        rw [f_finite]
        simp only [X.abs, X.fin_le_fin]
        exact Finset.single_le_sum (f := fun a => |finVal (NR.f Y (fun k => .fin (p k)) (fun k => .fin (q k)) g a)|)
          (fun _ _ => abs_nonneg _) (Finset.mem_univ a))
    rw [e] at this
    exact this

/-- The loop has ended at a guess with small mismatches and voltages not below `M`. -/
def Settled (Y : Matrix (Fin (m + 1)) (Fin (m + 1)) ℂ) (p q : Fin m → ℝ) (M : Fin m → ℝ) (st : NR.St m) : Prop :=
  ∃ g, st.guess = some g ∧ (∀ k, 0 < g.mag k) ∧ st.F = NR.f Y (fun k => .fin (p k)) (fun k => .fin (q k)) g ∧
    NR.norm st.F ≤ .fin xtol ∧ ∀ k, M k ≤ ‖NR.volt g k.succ‖

/-- The state of the loop at a guess. -/
noncomputable def stAt (Y : Matrix (Fin (m + 1)) (Fin (m + 1)) ℂ) (p q : Fin m → ℝ) (i : ℕ) (g : Guess m) : NR.St m :=
  ⟨i, some g, NR.f Y (fun k => .fin (p k)) (fun k => .fin (q k)) g⟩

theorem loop_done {o : LFOracle} {p q : Fin m → ℝ} {M : Fin m → ℝ} {g : Guess m} (hg : ∀ k, 0 < g.mag k)
    (h : NR.norm (NR.f Y (fun k => .fin (p k)) (fun k => .fin (q k)) g) ≤ .fin xtol) (hM : ∀ k, M k ≤ ‖NR.volt g k.succ‖) (i fuel : ℕ) :
    Settled Y p q M (NR.loop o Y (fun k => .fin (p k)) (fun k => .fin (q k)) xtol fuel (stAt Y p q i g)) := by
  have e : NR.loop o Y (fun k => .fin (p k)) (fun k => .fin (q k)) xtol fuel (stAt Y p q i g) = stAt Y p q i g := by
    cases fuel with
    | zero => rfl
    | succ n =>
      rw [NR.loop, if_neg]
      rintro ⟨h1, -⟩
      exact absurd h ((X.not_le_iff (X.le_notNan h).1 (X.notNan_fin _)).2 h1)
  rw [e]
  exact ⟨g, rfl, hg, rfl, h, hM⟩

namespace Radial
variable (R : Radial Y)

/-- From a guess within the bounds the loop ends well in `n` iterations. -/
def Conv (o : LFOracle) (p q : Fin m → ℝ) (M : Fin m → ℝ) (r lo : Fin m → ℚ) (n : ℕ) : Prop :=
  ∀ g : Guess m, (∀ k, 0 < g.mag k) → (∀ l, ‖∑ k ∈ R.sub l, missing Y (powersOf p q) (NR.volt g) k‖ ≤ r l) →
    (∀ k, (lo k : ℝ) ≤ ‖NR.volt g k.succ‖) → ∀ i fuel, i + n ≤ 100 → n ≤ fuel →
      Settled Y p q M (NR.loop o Y (fun k => .fin (p k)) (fun k => .fin (q k)) xtol fuel (stAt Y p q i g))

/-- A row of the table of bounds. -/
structure _root_.Anm.BRow (m : ℕ) where
  r : Fin m → ℚ
  lo : Fin m → ℚ
  c : Fin m → ℚ
  J : Fin m → ℚ
  A : Fin m → ℚ
  hi : Fin m → ℚ
  e : Fin m → ℚ

/-- The bounds of a row follow from the first two. -/
def rowOk (zn s : Fin m → ℚ) (B : BRow m) : Prop :=
  (∀ k, 0 < B.lo k) ∧ (∀ l, B.r l + ∑ i ∈ R.sub l, s i / B.lo i ≤ B.J l) ∧ (∀ k, 1 + ∑ l ∈ R.path k, zn l * B.J l ≤ B.hi k) ∧
    (∀ k, B.r k + ∑ l ∈ R.kids k, B.r l ≤ B.c k) ∧ ∀ k, B.c k + s k / B.lo k ≤ B.A k

/-- The bounds of a row lead to those of the next. -/
def stepOk (zn s : Fin m → ℚ) (B : BRow m) (r' lo' : Fin m → ℚ) : Prop :=
  (∀ k, 0 < B.e k) ∧ (∀ k, B.e k ≤ 1 / 4) ∧
  (∀ k, ∑ l ∈ R.path k, zn l * (B.r l + ∑ i ∈ R.sub l, B.A i * B.e i) < B.lo k * B.e k) ∧
  (∀ l, ∑ k ∈ R.sub l, (B.c k * B.e k + s k / B.lo k * (B.e k ^ 2 * (1 + 17 / 12 * (1 + B.e k)) / (1 - B.e k - 17 / 12 * B.e k ^ 2))) +
      B.J l * (17 / 12 * B.e l ^ 2) +
      (Fin.cons 1 B.hi : Fin (m + 1) → ℚ) (R.par l) * (17 / 12 * max (B.e l) ((Fin.cons 0 B.e : Fin (m + 1) → ℚ) (R.par l)) *
        ((B.r l + ∑ i ∈ R.sub l, B.A i * B.e i + B.J l * (Fin.cons 0 B.e : Fin (m + 1) → ℚ) (R.par l)) / B.lo l)) ≤ r' l) ∧
  ∀ k, lo' k ≤ B.lo k * (1 - B.e k - 17 / 12 * B.e k ^ 2)

theorem cons_cast (a : ℚ) (f : Fin m → ℚ) (i : Fin (m + 1)) : ((Fin.cons a f : Fin (m + 1) → ℚ) i : ℝ) = (Fin.cons (a : ℝ) fun k => (f k : ℝ) : Fin (m + 1) → ℝ) i := by
  refine Fin.cases ?_ (fun k => ?_) i <;> simp

variable {R}

/-- One iteration of the loop. -/
theorem loop_step {o : LFOracle} (ho : ExactLF o) {p q : Fin m → ℝ} {M : Fin m → ℝ} {zn s : Fin m → ℚ} {B : BRow m} {r' lo' : Fin m → ℚ} {n : ℕ}
    (hz : ∀ l, ‖R.z l‖ ≤ zn l) (hs : ∀ k, ‖powersOf p q k‖ ≤ s k) (hB : R.stepOk zn s B r' lo') (hM : ∀ k, M k ≤ B.lo k)
    (hn : R.Conv o p q M r' lo' n) {g : Guess m} (hg : ∀ k, 0 < g.mag k)
    (h : R.At (powersOf p q) (NR.volt g) (fun k => B.r k) (fun k => B.lo k) (fun k => B.c k) (fun k => B.J k) (fun k => B.A k)
      (Fin.cons 1 fun k => (B.hi k : ℝ))) {i fuel : ℕ} (hi : i + (n + 1) ≤ 100) (hf : n + 1 ≤ fuel) :
    Settled Y p q M (NR.loop o Y (fun k => .fin (p k)) (fun k => .fin (q k)) xtol fuel (stAt Y p q i g)) := by
  obtain ⟨b1, b2, b3, b4, b5⟩ := hB
  have he : ∀ k, (0 : ℝ) < B.e k := fun k => by exact_mod_cast b1 k
  have he1 : ∀ k, (B.e k : ℝ) ≤ 1 / 4 := fun k => by have := b2 k; rify at this; exact this
  have hc : ∀ k, ∑ l ∈ R.path k, (zn l : ℝ) * (B.r l + ∑ i ∈ R.sub l, (B.A i : ℝ) * B.e i) < B.lo k * B.e k := fun k => by
    exact_mod_cast b3 k
  obtain ⟨f, rfl⟩ : ∃ f, fuel = f + 1 := ⟨fuel - 1, by omega⟩
  by_cases hcond : NR.cond xtol (stAt Y p q i g)
  · rw [NR.loop, if_pos hcond]
    obtain ⟨d, h1, h2⟩ := ho.solve m (NR.dfdx Y g) (fun a => finVal (NR.f Y (fun k => .fin (p k)) (fun k => .fin (q k)) g a))
      (regular hg h hz he hc)
    have hj : NR.jac Y g = some (NR.dfdx Y g) := by
      rw [NR.jac, if_neg]
      rintro ⟨k, hk⟩
      exact (hg k).ne' hk
    have hf : NR.f Y (fun k => .fin (p k)) (fun k => .fin (q k)) g =
        fun a => .fin (finVal (NR.f Y (fun k => .fin (p k)) (fun k => .fin (q k)) g a)) := funext fun a => f_finite p q g a
    have hnext : NR.next o Y (some g) (NR.f Y (fun k => .fin (p k)) (fun k => .fin (q k)) g) = some (moved g d) := by
      rw [NR.next, hj, hf, h1]
      rfl
    have hbody : NR.body o Y (fun k => .fin (p k)) (fun k => .fin (q k)) (stAt Y p q i g) = stAt Y p q (i + 1) (moved g d) := by
      simp only [NR.body, stAt, hnext, NR.evalF]
    rw [hbody]
    obtain ⟨c1, c2, c3⟩ := stage (r' := fun l => r' l) (s := fun k => s k) (zn := fun l => zn l) (e := fun k => B.e k) hg h hs hz he he1 hc
      (fun l => by
        have := b4 l
        rify at this
        simp only [cons_cast] at this
        push_cast at this
        simpa only [quad] using this)
      (newton_currents (x := missing Y (powersOf p q) (NR.volt g)) hg fun k => by rw [h2, h2, f_missing hg])
    refine hn _ c1 c2 (fun k => le_trans ?_ (c3 k)) _ _ (by omega) (by omega)
    have := b5 k
    rify at this
    exact this
  · refine loop_done hg (norm_f_real p q g fun h0 => hcond ⟨h0, ?_⟩) (fun k => (hM k).trans (h.low k)) i _
    show i < 100
    omega

/-- Better bounds on the voltages. -/
def refineOk (R : Radial Y) (zn s r lo lo' : Fin m → ℚ) : Prop :=
  (∀ k, 0 < lo k) ∧ ∀ k, lo' k ≤ lo k ∨ lo' k + ∑ l ∈ R.path k, zn l * (r l + ∑ i ∈ R.sub l, s i / lo i) ≤ 1

theorem conv_refine {o : LFOracle} {p q : Fin m → ℝ} {M : Fin m → ℝ} {zn s : Fin m → ℚ} {r lo lo' : Fin m → ℚ} {n : ℕ}
    (hz : ∀ l, ‖R.z l‖ ≤ zn l) (hs : ∀ k, ‖powersOf p q k‖ ≤ s k) (hB : R.refineOk zn s r lo lo')
    (hn : R.Conv o p q M r lo' n) : R.Conv o p q M r lo n := by
  intro g hg hr hl
  refine hn g hg hr fun k => ?_
  have h1 := (low_of_low (s := fun k => s k) (zn := fun l => zn l) (lo := fun k => lo k)
    (lo' := fun k => 1 - ∑ l ∈ R.path k, (zn l : ℝ) * (r l + ∑ i ∈ R.sub l, (s i : ℝ) / lo i)) rfl hs hz hr (fun k => by exact_mod_cast hB.1 k) hl
    (fun k => by linarith)).1 k
  rcases hB.2 k with h | h
  · exact le_trans (by exact_mod_cast h) (hl k)
  · rify at h
    linarith

/-! ### Tables of bounds -/

/-- A sequence of bounds on the voltages, each better than the one before. -/
def lowsOk (R : Radial Y) (zn s r lo' : Fin m → ℚ) : (Fin m → ℚ) → List (Fin m → ℚ) → Prop
  | lo, [] => ∀ k, lo' k ≤ lo k
  | lo, l :: ls => R.refineOk zn s r lo l ∧ lowsOk R zn s r lo' l ls

/-- A table of bounds: for every iteration bounds on the voltages and a row. -/
def chainOk (R : Radial Y) (zn s M : Fin m → ℚ) : BRow m → List (List (Fin m → ℚ) × BRow m) → Prop
  | B, [] => ∀ k, B.hi k * B.c k ≤ 1 / 100000
  | B, (ls, B') :: rest => R.stepOk zn s B B'.r (fun k => B.lo k * (1 - B.e k - 17 / 12 * B.e k ^ 2)) ∧
      R.lowsOk zn s B'.r B'.lo (fun k => B.lo k * (1 - B.e k - 17 / 12 * B.e k ^ 2)) ls ∧ R.rowOk zn s B' ∧ (∀ k, M k ≤ B'.lo k) ∧
      chainOk R zn s M B' rest

instance (zn s r lo lo' : Fin m → ℚ) : Decidable (R.refineOk zn s r lo lo') := by unfold refineOk; infer_instance
instance (zn s : Fin m → ℚ) (B : BRow m) : Decidable (R.rowOk zn s B) := by unfold rowOk; infer_instance
instance (zn s : Fin m → ℚ) (B : BRow m) (r' lo' : Fin m → ℚ) : Decidable (R.stepOk zn s B r' lo') := by unfold stepOk; infer_instance
instance decLows (zn s r lo' : Fin m → ℚ) : ∀ (lo : Fin m → ℚ) (ls : List (Fin m → ℚ)), Decidable (R.lowsOk zn s r lo' lo ls)
  | lo, [] => by unfold lowsOk; infer_instance
  | lo, l :: ls => by have := decLows zn s r lo' l ls; unfold lowsOk; infer_instance
instance decChain (zn s M : Fin m → ℚ) : ∀ (B : BRow m) (rest : List (List (Fin m → ℚ) × BRow m)), Decidable (R.chainOk zn s M B rest)
  | B, [] => by unfold chainOk; infer_instance
  | B, (ls, B') :: rest => by have := decChain zn s M B' rest; unfold chainOk; infer_instance

theorem conv_lows {o : LFOracle} {p q : Fin m → ℝ} {M : Fin m → ℝ} {zn s : Fin m → ℚ} {r lo' : Fin m → ℚ} {n : ℕ}
    (hz : ∀ l, ‖R.z l‖ ≤ zn l) (hs : ∀ k, ‖powersOf p q k‖ ≤ s k) (hn : R.Conv o p q M r lo' n) :
    ∀ (lo : Fin m → ℚ) (ls : List (Fin m → ℚ)), R.lowsOk zn s r lo' lo ls → R.Conv o p q M r lo n
  | lo, [], h => fun g hg hr hl => hn g hg hr fun k => le_trans (by exact_mod_cast h k) (hl k)
  | lo, l :: ls, h => conv_refine hz hs h.1 (conv_lows hz hs hn l ls h.2)

/-- The last of a sequence of bounds holds if the first does. -/
theorem lows_bound {S : Fin m → ℂ} {V : Fin (m + 1) → ℂ} {zn s : Fin m → ℚ} {r lo' : Fin m → ℚ} (hV : V 0 = 1)
    (hz : ∀ l, ‖R.z l‖ ≤ zn l) (hs : ∀ k, ‖S k‖ ≤ s k) (hr : ∀ l, ‖∑ k ∈ R.sub l, missing Y S V k‖ ≤ r l) :
    ∀ (lo : Fin m → ℚ) (ls : List (Fin m → ℚ)), R.lowsOk zn s r lo' lo ls → (∀ k, lo k ≤ ‖V k.succ‖) → ∀ k, lo' k ≤ ‖V k.succ‖
  | lo, [], h, hl => fun k => le_trans (by exact_mod_cast h k) (hl k)
  | lo, l :: ls, h, hl => by
    refine lows_bound hV hz hs hr l ls h.2 fun k => ?_
    have h1 := (low_of_low (s := fun k => s k) (zn := fun l => zn l) (lo := fun k => lo k) (r := fun k => r k)
      (lo' := fun k => 1 - ∑ l ∈ R.path k, (zn l : ℝ) * (r l + ∑ i ∈ R.sub l, (s i : ℝ) / lo i)) hV hs hz hr (fun k => by exact_mod_cast h.1.1 k) hl
      (fun k => by linarith)).1 k
    rcases h.1.2 k with h | h
    · exact le_trans (by exact_mod_cast h) (hl k)
    · rify at h
      linarith

/-- If a table passes the check, then the loop of the load flow ends well. -/
theorem chain_settled {o : LFOracle} (ho : ExactLF o) {p q : Fin m → ℝ} {zn s M : Fin m → ℚ}
    (hz : ∀ l, ‖R.z l‖ ≤ zn l) (hs : ∀ k, ‖powersOf p q k‖ ≤ s k) :
    ∀ (B : BRow m) (rest : List (List (Fin m → ℚ) × BRow m)), R.chainOk zn s M B rest → (∀ k, M k ≤ B.lo k) → ∀ {g : Guess m}, (∀ k, 0 < g.mag k) →
      R.At (powersOf p q) (NR.volt g) (fun k => B.r k) (fun k => B.lo k) (fun k => B.c k) (fun k => B.J k) (fun k => B.A k)
        (Fin.cons 1 fun k => (B.hi k : ℝ)) → ∀ {i fuel : ℕ}, i + rest.length ≤ 100 → rest.length ≤ fuel →
      Settled Y p q (fun k => M k) (NR.loop o Y (fun k => .fin (p k)) (fun k => .fin (q k)) xtol fuel (stAt Y p q i g))
  | B, [], hB, hM, g, hg, h, i, fuel, _, _ => by
    refine loop_done hg (norm_of_missing hg (by unfold xtol; norm_num) fun k => ?_) (fun k => le_trans (by exact_mod_cast hM k) (h.low k)) i fuel
    have h1 := h.high k.succ
    rw [Fin.cons_succ] at h1
    have h2 := hB k
    rify at h2
    refine (mul_le_mul h1 (h.each k) (norm_nonneg _) ((norm_nonneg _).trans h1)).trans (h2.trans ?_)
    unfold xtol
    norm_num
  | B, (ls, B') :: rest, ⟨h1, h2, h3, h4, h5⟩, hM, g, hg, h, i, fuel, hi, hf => by
    refine loop_step ho hz hs h1 (fun k => by exact_mod_cast hM k) (conv_lows hz hs (n := rest.length) ?_ _ _ h2) hg h hi hf
    intro g' hg' hr hl i' fuel' hi' hf'
    obtain ⟨a1, a2, a3, a4, a5⟩ := h3
    refine chain_settled ho hz hs B' rest h5 h4 hg' (at_of_low (s := fun k => s k) (zn := fun l => zn l) rfl hs hz hr ?_ hl ?_ ?_ ?_ ?_) hi' hf'
    · exact fun k => by exact_mod_cast a1 k
    · exact fun k => by exact_mod_cast a2 k
    · exact fun k => by exact_mod_cast a3 k
    · exact fun k => by exact_mod_cast a4 k
    · exact fun k => by exact_mod_cast a5 k

end Radial

end

end Anm
