import Mathlib.LinearAlgebra.Matrix.NonsingularInverse
import Mathlib.LinearAlgebra.Matrix.ToLinearEquiv
import Verif.Props.Jacobian

/-!
# C114: the load flow is Newton's method

What the iterations of the load flow do if the sparse linear systems are solved exactly.
-/

namespace Anm

open Spec Complex ComplexConjugate

namespace Spec

/-- A linear solver that solves every regular linear system. -/
structure ExactLF (o : LFOracle) : Prop where
  solve : ∀ (m : ℕ) (J : Matrix (Ix m) (Ix m) ℝ) (x : Ix m → ℝ), J.det ≠ 0 →
    ∃ d, o.spsolve m (some J) (fun a => .fin (x a)) = some d ∧ ∀ a, ∑ b, J a b * d b = x a

/-- The guess on the way from `g` to `g'`: at `g` for `t = 0`, at `g'` for `t = 1`. -/
noncomputable def between {m : ℕ} (g g' : Guess m) (t : ℝ) : Guess m :=
  ⟨fun k => g.ang k + t * (g'.ang k - g.ang k), fun k => g.mag k + t * (g'.mag k - g.mag k)⟩

end Spec

section
variable {m : ℕ} (Y : Matrix (Fin (m + 1)) (Fin (m + 1)) ℂ)

/-- The relative changes of the voltages that belong to changes of the angles and magnitudes. -/
noncomputable def relChange (g : Guess m) (d : Ix m → ℝ) (k : Fin m) : ℂ := (d (.inr k) / g.mag k : ℝ) + I * d (.inl k)

/-- The changes of the voltages, to first order. -/
noncomputable def change (g : Guess m) (d : Ix m → ℝ) : Fin (m + 1) → ℂ :=
  Fin.cons 0 fun k => NR.volt g k.succ * relChange g d k

/-- The Jacobian, applied to changes of the angles and magnitudes, in complex numbers. -/
theorem dfdx_apply {g : Guess m} (hg : ∀ k, 0 < g.mag k) (d : Ix m → ℝ) (k : Fin m) :
    ((∑ b, NR.dfdx Y g (.inl k) b * d b : ℝ) : ℂ) + (∑ b, NR.dfdx Y g (.inr k) b * d b : ℝ) * I =
      NR.volt g k.succ * (conj (NR.curr Y (NR.volt g) k.succ) * relChange g d k + conj (NR.curr Y (change g d) k.succ)) := by
  have h1 : ((∑ b, NR.dfdx Y g (.inl k) b * d b : ℝ) : ℂ) + (∑ b, NR.dfdx Y g (.inr k) b * d b : ℝ) * I =
      (∑ j, NR.dSdVa Y (NR.volt g) k.succ j.succ * d (.inl j)) + ∑ j, NR.dSdVm Y (NR.volt g) k.succ j.succ * d (.inr j) := by
    rw [Fintype.sum_sum_type, Fintype.sum_sum_type]
    push_cast
    rw [add_mul, Finset.sum_mul, Finset.sum_mul, add_add_add_comm, ← Finset.sum_add_distrib, ← Finset.sum_add_distrib]
    congr 1 <;> refine Finset.sum_congr rfl fun j _ => ?_
    · rw [show NR.dfdx Y g (.inl k) (.inl j) = (NR.dSdVa Y (NR.volt g) k.succ j.succ).re from rfl,
        show NR.dfdx Y g (.inr k) (.inl j) = (NR.dSdVa Y (NR.volt g) k.succ j.succ).im from rfl]
      conv_rhs => rw [← Complex.re_add_im (NR.dSdVa Y (NR.volt g) k.succ j.succ)]
      ring
    · rw [show NR.dfdx Y g (.inl k) (.inr j) = (NR.dSdVm Y (NR.volt g) k.succ j.succ).re from rfl,
        show NR.dfdx Y g (.inr k) (.inr j) = (NR.dSdVm Y (NR.volt g) k.succ j.succ).im from rfl]
      conv_rhs => rw [← Complex.re_add_im (NR.dSdVm Y (NR.volt g) k.succ j.succ)]
      ring
  have hn : ∀ j, (‖NR.volt g j.succ‖ : ℂ) = g.mag j := by
    intro j
    rw [volt_succ, norm_mul, mul_comm I, Complex.norm_exp_ofReal_mul_I, mul_one, Complex.norm_real, Real.norm_of_nonneg (hg j).le]
  have hz : ∀ j, (g.mag j : ℂ) ≠ 0 := fun j => by exact_mod_cast (hg j).ne'
  have h2 : conj (NR.curr Y (change g d) k.succ) = ∑ j, conj (Y k.succ j.succ * (NR.volt g j.succ * relChange g d j)) := by
    rw [NR.curr, Fin.sum_univ_succ, map_add, map_sum]
    simp [change]
  have h3 : ∀ j, NR.dSdVa Y (NR.volt g) k.succ j.succ * d (.inl j) + NR.dSdVm Y (NR.volt g) k.succ j.succ * d (.inr j) =
      (if k = j then NR.volt g k.succ * (conj (NR.curr Y (NR.volt g) k.succ) * relChange g d k) else 0) +
        NR.volt g k.succ * conj (Y k.succ j.succ * (NR.volt g j.succ * relChange g d j)) := by
    intro j
    simp only [NR.dSdVa, NR.dSdVm, NR.iDiag, hn, Fin.succ_inj, relChange]
    have := hz j
    have := hz k
    split_ifs with h
    · subst h
      simp only [map_sub, map_mul, map_add, map_div₀, conj_I, conj_ofReal]
      push_cast
      field_simp
      ring
    · simp only [map_sub, map_mul, map_add, map_div₀, conj_I, conj_ofReal, map_zero]
      push_cast
      field_simp
      ring
  rw [h1, ← Finset.sum_add_distrib, h2, mul_add, Finset.mul_sum, Finset.sum_congr rfl fun j _ => h3 j, Finset.sum_add_distrib]
  simp

/-- Derivative of the voltages on the way to another guess. -/
theorem hasDerivAt_between {g g' : Guess m} (hg : ∀ k, 0 < g.mag k) {d : Ix m → ℝ}
    (h : g' = ⟨fun k => g.ang k - d (.inl k), fun k => g.mag k - d (.inr k)⟩) (i : Fin (m + 1)) :
    HasDerivAt (fun t => NR.volt (between g g' t) i) (-change g d i) 0 := by
  refine Fin.cases ?_ (fun k => ?_) i
  · simpa [change, NR.volt] using hasDerivAt_const (0 : ℝ) (1 : ℂ)
  · have hk : (g.mag k : ℂ) ≠ 0 := by exact_mod_cast (hg k).ne'
    have h1 : HasDerivAt (fun t : ℝ => (t : ℂ)) 1 0 := (hasDerivAt_id _).ofReal_comp
    have h2 : HasDerivAt (fun t : ℝ => ((g.mag k + t * -d (.inr k) : ℝ) : ℂ)) (-d (.inr k)) 0 := by
      have := (h1.mul_const (-(d (.inr k) : ℂ))).const_add (g.mag k : ℂ)
      push_cast
      exact this.congr_deriv (by ring)
    have h3 : HasDerivAt (fun t : ℝ => I * ((g.ang k + t * -d (.inl k) : ℝ) : ℂ)) (I * -d (.inl k)) 0 := by
      have := ((h1.mul_const (-(d (.inl k) : ℂ))).const_add (g.ang k : ℂ)).const_mul I
      push_cast
      exact this.congr_deriv (by ring)
    have h4 := h2.mul h3.cexp
    have e : (fun t => NR.volt (between g g' t) k.succ) =
        fun t : ℝ => ((g.mag k + t * -d (.inr k) : ℝ) : ℂ) * exp (I * ((g.ang k + t * -d (.inl k) : ℝ) : ℂ)) := by
      funext t
      rw [volt_succ, between, h]
      simp only [sub_sub_cancel_left]
    rw [e]
    refine h4.congr_deriv ?_
    simp only [change, Fin.cons_succ, volt_succ, relChange, zero_mul, add_zero]
    push_cast
    field_simp
    ring

/-- **C114.** The load flow is Newton's method: if the sparse linear systems are solved exactly, then
on the straight way from a guess with positive magnitudes and a regular Jacobian to the next guess, every
mismatch of the powers starts to fall at the rate that would bring it to zero exactly at the next guess. -/
theorem C114_newton {o : LFOracle} (ho : ExactLF o) (p q : Fin m → ℝ) {g : Guess m} (hg : ∀ k, 0 < g.mag k)
    (hd : (NR.dfdx Y g).det ≠ 0) :
    ∃ g', NR.next o Y (some g) (NR.f Y (fun k => .fin (p k)) (fun k => .fin (q k)) g) = some g' ∧
      ∀ a, HasDerivAt (fun t => finVal (NR.f Y (fun k => .fin (p k)) (fun k => .fin (q k)) (between g g' t) a))
        (-finVal (NR.f Y (fun k => .fin (p k)) (fun k => .fin (q k)) g a)) 0 := by
  obtain ⟨d, h1, h2⟩ := ho.solve m (NR.dfdx Y g)
    (fun a => finVal (NR.f Y (fun k => .fin (p k)) (fun k => .fin (q k)) g a)) hd
  have hj : NR.jac Y g = some (NR.dfdx Y g) := by
    rw [NR.jac, if_neg]
    rintro ⟨k, hk⟩
    exact (hg k).ne' hk
  have hf : NR.f Y (fun k => .fin (p k)) (fun k => .fin (q k)) g =
      fun a => .fin (finVal (NR.f Y (fun k => .fin (p k)) (fun k => .fin (q k)) g a)) := by
    funext a
    cases a <;> rfl
  refine ⟨⟨fun k => g.ang k - d (.inl k), fun k => g.mag k - d (.inr k)⟩, ?_, ?_⟩
  · rw [NR.next, hj, hf, h1]
  · set g' : Guess m := ⟨fun k => g.ang k - d (.inl k), fun k => g.mag k - d (.inr k)⟩ with hg'
    have e0 : between g g' 0 = g := by simp [between]
    have key : ∀ k : Fin m, HasDerivAt (fun t => NR.power Y (between g g' t) k)
        (-((finVal (NR.f Y (fun k => .fin (p k)) (fun k => .fin (q k)) g (.inl k)) : ℂ) +
          (finVal (NR.f Y (fun k => .fin (p k)) (fun k => .fin (q k)) g (.inr k)) : ℂ) * I)) 0 := by
      intro k
      refine (hasDerivAt_power Y (fun i => hasDerivAt_between hg hg' i) k.succ).congr_deriv ?_
      rw [← h2 (.inl k), ← h2 (.inr k), dfdx_apply Y hg, e0]
      simp only [NR.curr, mul_neg, Finset.sum_neg_distrib, map_neg, change, Fin.cons_succ]
      ring
    have hre : ∀ {f : ℝ → ℂ} {f' : ℂ} {t : ℝ}, HasDerivAt f f' t → HasDerivAt (fun t => (f t).re) f'.re t :=
      fun h => Complex.reCLM.hasFDerivAt.comp_hasDerivAt _ h
    have him : ∀ {f : ℝ → ℂ} {f' : ℂ} {t : ℝ}, HasDerivAt f f' t → HasDerivAt (fun t => (f t).im) f'.im t :=
      fun h => Complex.imCLM.hasFDerivAt.comp_hasDerivAt _ h
    rintro (k | k)
    · exact ((hre (key k)).sub_const (p k + 0 * q k)).congr_deriv (by simp)
    · exact ((him (key k)).sub_const (q k)).congr_deriv (by simp)

end

open Classical in
/-- A linear solver that multiplies with the inverse matrix. -/
noncomputable def exactOracle : LFOracle where
  spsolve _ J x := J.map fun J => J⁻¹.mulVec fun a => finVal (x a)
  blowup _ := false
  garbage _ := ⟨fun _ => .undef, fun _ => .undef, .nan, .nan, fun _ => {}, false⟩
  other := fun _ => .error .valueError

theorem exactOracle_exact : ExactLF exactOracle where
  solve m J x hJ := by
    refine ⟨J⁻¹.mulVec x, rfl, fun a => ?_⟩
    have : J.mulVec (J⁻¹.mulVec x) = x := by
      rw [Matrix.mulVec_mulVec, Matrix.mul_nonsing_inv _ (isUnit_iff_ne_zero.mpr hJ), Matrix.one_mulVec]
    exact congrFun this a

/-- Two buses and one line, a load at the second bus: the Jacobian of the flat start is regular. -/
example : ∃ g', NR.next exactOracle (fun i j => if i = j then 1 else -1) (some NR.flat)
    (NR.f (m := 1) (fun i j => if i = j then 1 else -1) (fun _ => .fin (-1)) (fun _ => .fin 2) NR.flat) = some g' ∧
      ∀ a, HasDerivAt (fun t => finVal (NR.f (fun i j => if i = j then 1 else -1) (fun _ => .fin (-1)) (fun _ => .fin 2) (between NR.flat g' t) a))
        (-finVal (NR.f (fun i j => if i = j then 1 else -1) (fun _ => .fin (-1)) (fun _ => .fin 2) NR.flat a)) 0 := by
  refine C114_newton _ exactOracle_exact (fun _ => -1) (fun _ => 2) (fun _ => one_pos) fun h => ?_
  obtain ⟨x, hx, h0⟩ := Matrix.exists_mulVec_eq_zero_iff.mpr h
  apply hx
  have h1 := congrFun h0 (.inl 0)
  have h2 := congrFun h0 (.inr 0)
  simp [Matrix.mulVec, dotProduct, NR.dfdx, NR.dSdVm, NR.dSdVa, NR.iDiag, NR.curr, NR.volt, NR.flat, Fin.sum_univ_succ] at h1 h2
  funext a
  rcases a with k | k <;> obtain rfl : k = 0 := Subsingleton.elim _ _ <;> simp_all

end Anm
