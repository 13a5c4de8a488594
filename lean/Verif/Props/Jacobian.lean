import Mathlib.Analysis.Calculus.Deriv.Mul
import Mathlib.Analysis.Calculus.Deriv.Star
import Mathlib.Analysis.SpecialFunctions.ExpDeriv
import Mathlib.Analysis.Complex.RealDeriv
import Verif.Spec.LoadFlow
import Verif.Lemmas.RealPF

/-! # C27: the Jacobian -/


set_option linter.unusedSectionVars false

namespace Anm

open Spec Complex ComplexConjugate

section
variable {m : ℕ} (Y : Matrix (Fin (m + 1)) (Fin (m + 1)) ℂ)

/-- Derivative of the complex powers along a curve of voltages. -/
theorem hasDerivAt_power {v : ℝ → Fin (m + 1) → ℂ} {v' : Fin (m + 1) → ℂ} {t : ℝ}
    (hv : ∀ i, HasDerivAt (fun t => v t i) (v' i) t) (i : Fin (m + 1)) :
    HasDerivAt (fun t => v t i * conj (NR.curr Y (v t) i))
      (v' i * conj (NR.curr Y (v t) i) + v t i * conj (∑ j, Y i j * v' j)) t := by
  refine (hv i).mul ?_
  have h1 : HasDerivAt (fun t => NR.curr Y (v t) i) (∑ j, Y i j * v' j) t := by
    unfold NR.curr
    exact HasDerivAt.fun_sum fun j _ => (hv j).const_mul (Y i j)
  exact h1.star

theorem volt_succ (g : Guess m) (k : Fin m) :
    NR.volt g k.succ = (g.mag k : ℂ) * exp (I * g.ang k) := rfl

/-- Derivative of the voltages with respect to an angle. -/
theorem hasDerivAt_volt_ang (g : Guess m) (j : Fin m) (i : Fin (m + 1)) :
    HasDerivAt (fun t => NR.volt (guessSet g (.inl j) t) i)
      (if i = j.succ then I * NR.volt g i else 0) (g.ang j) := by
  refine Fin.cases ?_ (fun k => ?_) i
  · simp only [(Fin.succ_ne_zero j).symm, if_false]
    exact hasDerivAt_const _ _
  · by_cases hk : k = j
    · subst hk
      simp only [if_true, volt_succ, guessSet, Function.update_self]
      have h1 : HasDerivAt (fun t : ℝ => (t : ℂ)) 1 (g.ang k) := (hasDerivAt_id _).ofReal_comp
      have h2 := ((h1.const_mul I).cexp).const_mul (g.mag k : ℂ)
      exact h2.congr_deriv (by ring)
    · rw [if_neg fun h => hk (Fin.succ_injective _ h)]
      simp only [volt_succ, guessSet, Function.update_of_ne hk]
      exact hasDerivAt_const _ _

/-- Derivative of the voltages with respect to a magnitude. -/
theorem hasDerivAt_volt_mag (g : Guess m) (j : Fin m) (i : Fin (m + 1)) :
    HasDerivAt (fun t => NR.volt (guessSet g (.inr j) t) i)
      (if i = j.succ then exp (I * g.ang j) else 0) (g.mag j) := by
  refine Fin.cases ?_ (fun k => ?_) i
  · simp only [(Fin.succ_ne_zero j).symm, if_false]
    exact hasDerivAt_const _ _
  · by_cases hk : k = j
    · subst hk
      simp only [if_true, volt_succ, guessSet, Function.update_self]
      have h1 : HasDerivAt (fun t : ℝ => (t : ℂ)) 1 (g.mag k) := (hasDerivAt_id _).ofReal_comp
      have h2 := h1.mul_const (exp (I * g.ang k))
      simpa using h2
    · rw [if_neg fun h => hk (Fin.succ_injective _ h)]
      simp only [volt_succ, guessSet, Function.update_of_ne hk]
      exact hasDerivAt_const _ _

theorem guessSet_get (g : Guess m) (b : Ix m) : guessSet g b (guessGet g b) = g := by
  cases b <;> simp [guessSet, guessGet]

theorem volt_div_norm {g : Guess m} {k : Fin m} (h : 0 < g.mag k) :
    NR.volt g k.succ / (‖NR.volt g k.succ‖ : ℂ) = exp (I * g.ang k) := by
  have h1 : ‖NR.volt g k.succ‖ = g.mag k := by
    rw [volt_succ, norm_mul, mul_comm I, Complex.norm_exp_ofReal_mul_I, mul_one, Complex.norm_real,
      Real.norm_of_nonneg h.le]
  rw [h1, volt_succ]
  have : (g.mag k : ℂ) ≠ 0 := by exact_mod_cast h.ne'
  field_simp

/-- **C27 (partial: positive magnitudes).** The entries of `_dfdx` are the partial derivatives of the
entries of `_f`.  Missing: guesses with a magnitude that is not positive, for which the claim is false
(`C27_counterexample`). -/
theorem C27_jacobian_partial (p q : Fin m → ℝ) (g : Guess m) (hg : ∀ k, 0 < g.mag k) (a b : Ix m) :
    HasDerivAt (fun t => finVal (NR.f Y (fun k => .fin (p k)) (fun k => .fin (q k)) (guessSet g b t) a))
      (NR.dfdx Y g a b) (guessGet g b) := by
  have key : ∀ k : Fin m, HasDerivAt (fun t => NR.power Y (guessSet g b t) k)
      (match b with
        | .inl j => NR.dSdVa Y (NR.volt g) k.succ j.succ
        | .inr j => NR.dSdVm Y (NR.volt g) k.succ j.succ) (guessGet g b) := by
    intro k
    cases b with
    | inl j =>
      have e : guessSet g (.inl j) (g.ang j) = g := guessSet_get g (.inl j)
      have h := hasDerivAt_power Y (fun i => hasDerivAt_volt_ang g j i) k.succ
      simp only [e] at h
      refine h.congr_deriv ?_
      simp only [NR.dSdVa, NR.iDiag, mul_ite, mul_zero]
      rw [Finset.sum_ite_eq' Finset.univ j.succ]
      simp only [Finset.mem_univ, if_true, map_sub, map_mul, conj_I]
      split_ifs <;> simp <;> ring
    | inr j =>
      have e : guessSet g (.inr j) (g.mag j) = g := guessSet_get g (.inr j)
      have h := hasDerivAt_power Y (fun i => hasDerivAt_volt_mag g j i) k.succ
      simp only [e] at h
      refine h.congr_deriv ?_
      simp only [NR.dSdVm, NR.iDiag, mul_ite, mul_zero]
      rw [Finset.sum_ite_eq' Finset.univ j.succ]
      simp only [Finset.mem_univ, if_true, volt_div_norm (hg j)]
      split_ifs with hk
      · rw [hk, volt_div_norm (hg j)]
      · simp
  have hre : ∀ {f : ℝ → ℂ} {f' : ℂ} {t : ℝ}, HasDerivAt f f' t → HasDerivAt (fun t => (f t).re) f'.re t :=
    fun h => Complex.reCLM.hasFDerivAt.comp_hasDerivAt _ h
  have him : ∀ {f : ℝ → ℂ} {f' : ℂ} {t : ℝ}, HasDerivAt f f' t → HasDerivAt (fun t => (f t).im) f'.im t :=
    fun h => Complex.imCLM.hasFDerivAt.comp_hasDerivAt _ h
  cases a with
  | inl i => 
    have := (hre (key i)).sub_const (p i + 0 * q i)
    cases b <;> exact this
  | inr i =>
    have := (him (key i)).sub_const (q i)
    cases b <;> exact this

end

/-- **C27 is false** for a negative magnitude: with two buses, `Y = [[1, -1], [-1, 1]]`, angle 0 and
magnitude -1, the derivative of the active mismatch with respect to the magnitude is -3; `_dfdx` has 3. -/
theorem C27_counterexample : ∃ (Y : Matrix (Fin 2) (Fin 2) ℂ) (g : Guess 1),
    NR.jac Y g = some (NR.dfdx Y g) ∧
    ¬ HasDerivAt (fun t => finVal (NR.f Y (fun _ => .fin 0) (fun _ => .fin 0) (guessSet g (.inr 0) t) (.inl 0)))
      (NR.dfdx Y g (.inl 0) (.inr 0)) (guessGet g (.inr 0)) := by
  let Y : Matrix (Fin 2) (Fin 2) ℂ := fun i j => if i = j then 1 else -1
  let g : Guess 1 := ⟨fun _ => 0, fun _ => -1⟩
  refine ⟨Y, g, by simp [NR.jac, g], fun h => ?_⟩
  have e : (fun t => finVal (NR.f Y (fun _ => .fin 0) (fun _ => .fin 0) (guessSet g (.inr 0) t) (.inl 0))) =
      fun t : ℝ => t * (t - 1) := by
    funext t
    show ((NR.power Y (guessSet g (.inr 0) t) 0).re - (0 + 0 * 0) : ℝ) = _
    simp [NR.power, NR.curr, NR.volt, guessSet, g, Y, Fin.sum_univ_succ]
    left; ring
  have d : NR.dfdx Y g (.inl 0) (.inr 0) = 3 := by
    simp [NR.dfdx, NR.dSdVm, NR.iDiag, NR.curr, NR.volt, g, Y, Fin.sum_univ_succ]
    norm_num
  rw [e, d] at h
  have h2 : HasDerivAt (fun t : ℝ => t * (t - 1)) (-3) (guessGet g (.inr 0)) := by
    have := (hasDerivAt_id (-1 : ℝ)).mul ((hasDerivAt_id (-1 : ℝ)).sub_const 1)
    exact this.congr_deriv (by norm_num)
  have := h.unique h2
  norm_num at this

end Anm
