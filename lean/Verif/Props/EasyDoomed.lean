import Verif.Props.EasyPlay

/-! # C111: initial states of ANM6Easy from which an agent cannot avoid a penalty -/

namespace Anm

open Spec

noncomputable section

variable {ρ : Type} {w : EasyWorld ℝ ρ} {s0 : Sim ℝ} {a a' a2 : Anm6 ℝ ρ} {o : LFOracle}

/-- The function `spent` on rational numbers. -/
def spentQ (x : ℚ) : ℚ := if 0 ≤ x then x / 4 / (9/10) else x / 4 * (9/10)

/-- The function `needed` on rational numbers. -/
def neededQ (t : ℕ) : ℕ → ℚ
  | 0 => 0
  | n + 1 => spentQ (-((loadSeries.getD 2 []).getD ((t + 1) % 96) 0) - 18001/1000) + neededQ ((t + 1) % 96) n

theorem spent_cast (x : ℚ) : spent (x : ℝ) = ((spentQ x : ℚ) : ℝ) := by
  unfold spent spentQ
  by_cases h : 0 ≤ x
  · rw [if_pos h, if_pos (by exact_mod_cast h)]; push_cast; norm_num
  · rw [if_neg h, if_neg (by exact_mod_cast h)]; push_cast; norm_num

theorem needed_cast : ∀ (n t : ℕ), needed t n = ((neededQ t n : ℚ) : ℝ)
  | 0, _ => by simp [needed, neededQ]
  | n + 1, t => by
    rw [needed, neededQ, needed_cast n]
    push_cast
    rw [← spent_cast]
    push_cast
    norm_num

/-- The number of steps from the time of day `t` to 11:30 am, or to 9:30 pm. -/
def Spec.untilEnd (t : ℕ) : ℕ := if t < 46 then 46 - t else 86 - t

theorem needed_all : ∀ t < 96, (20 ≤ t ∧ t ≤ 44) ∨ (60 ≤ t ∧ t ≤ 84) → 1 < neededQ t (untilEnd t) := by decide +kernel

/-- **C111.** Whatever the linear solver returns: if a reset of ANM6Easy draws a time of day from 5 to 11 am or from 3 to
9 pm, then an agent cannot avoid a penalty until the vehicles are charged, at 11:30 am or at 9:30 pm. -/
theorem C111_doomed (ha : EasyOf w s0 a) (hg : Fair w.rng) (G : GoodSolvers w.sim (easySim : Sim ℝ)) (hpf : w.sim.pf = realPF o)
    {seed date : Option ℤ} {obs : List (X ℝ)} (h : a.easyReset (easyCtx w s0) w.rng seed date = .ok (a', obs))
    {t : ℕ} (hc : Clock a'.env t) (ht : (20 ≤ t ∧ t ≤ 44) ∨ (60 ≤ t ∧ t ≤ 84)) :
    ¬ SafeRun (easyCtx w s0) a' (untilEnd t) a2 := by
  intro hr
  have hw : w.sim = ⟨w.sim.qp, realPF o, w.sim.pi⟩ := by rw [← hpf]
  have hnum : NumericPF w.sim := by rw [hw]; exact C85_solver _ _ _
  obtain ⟨t', q2, q4, soc, l1, l3, l5, m2, m4, v, r, r', y, p, q, g, ht', hi, hI, -, -, -, -, hsoc, hy, hf, hv, -⟩ := C108_vector ha hg G hnum h
  have h96 : t < 96 := by omega
  have he : Energy a' soc := ⟨y, hy, by rw [hv]; rfl⟩
  obtain ⟨e', -, h1, h2⟩ := C107_energy hg G hpf hr (ha.reset h) hc h96 he hy hf
  have h3 := needed_all t h96 ht
  rw [needed_cast] at h2
  have h3 : ((1 : ℚ) : ℝ) < ((neededQ t (untilEnd t) : ℚ) : ℝ) := by exact_mod_cast h3
  push_cast at h3
  linarith

end

end Anm
