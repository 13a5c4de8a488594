import Verif.Props.RenderView
import Verif.Props.Returns
import Verif.Props.Calendar

/-! # C98: the rewards of ANM6Easy; and the parameters, dates and times of C59, C77, C83 -/

set_option linter.unusedSectionVars false

namespace Anm

open Spec

section
variable {K ρ : Type} [Field K] [LinearOrder K] [IsStrictOrderedRing K] [FloorRing K]
  {w : EasyWorld K ρ} {s0 : Sim K} {a a1 a' : Anm6 K ρ} {u : List (X K)} {o : Env.StepOut K}

/-! ### C83: the parameters -/

/-- **C83, parameters.** The discount factor, the limits of the costs, the weight of the penalty and the time
step of an ANM6Easy environment, after any history, are the documented ones. -/
theorem C83_parameters (ha : EasyOf w s0 a) :
    a.env.gamma = .fin (995/1000) ∧ a.env.c1 = .fin 1 ∧ a.env.c2 = .fin 100 ∧
      a.env.sim.lamb = .fin 100 ∧ a.env.sim.deltaT = .fin (1/4) ∧ a.env.sim.baseMVA = .fin 100 ∧
      a.tick = 15 * 60 * 1000000 := by
  obtain ⟨e0, I, hs, -, -⟩ := envOf_inv (easy_env ha)
  have hc := easy_sameConfig ha
  refine ⟨by rw [hs.gamma, I.gamma]; rfl, by rw [hs.c1, I.c1]; rfl, by rw [hs.c2, I.c2]; rfl, hc.lamb, hc.dt, hc.base, ?_⟩
  rw [easy_tick ha, mul_assoc]

/-! ### C59: the last date -/

/-- **C59, range.** If the environment can make its step, then `step` of an ANM6 object raises no exception
exactly if the new date is between the first day of year 1 and the last day of year 9999; otherwise it raises
`OverflowError`. -/
theorem C59_years {c : EnvCtx K ρ} {e : Env K ρ} {d d0 : ℤ} (h : a.env.step c u = .ok (e, o)) (hd : a.date = some d)
    (hd0 : a.dateInit = some d0) :
    (0 ≤ d + a.tick ∧ d + a.tick < daysBefore 10000 * (24 * 3600 * 1000000) →
      ∃ a', a.step c u = .ok (a', o) ∧ a'.date = some (d + a.tick)) ∧
    (¬ (0 ≤ d + a.tick ∧ d + a.tick < daysBefore 10000 * (24 * 3600 * 1000000)) →
      a.step c u = .error .overflowError) := by
  have hf := daysBefore_formula 9999
  have he : ((daysBefore 10000 : ℕ) : ℤ) * (24 * 3600 * 1000000) = 3652059 * dayMicros := by
    rw [hf]; rfl
  rw [he]
  constructor <;> intro hr <;>
    simp [Anm6.step, h, hd, hd0, dateAdd, guardE, hr, Bind.bind, Except.bind, pure, Except.pure]

/-! ### C77: rounding of durations -/

/-- **C77, rounding.** A multiple of a duration is rounded to the nearest microsecond, and to an even number
of microseconds if two are nearest. -/
theorem C77_rounding {x : K} {t n : ℤ} (h : timesDelta (.fin x) t = .ok n) :
    |x * t - n| ≤ 1/2 ∧ (|x * t - n| = 1/2 → Even n) := by
  simp only [timesDelta, Except.ok.injEq] at h
  rw [← h]
  generalize x * (t : K) = y
  have h1 := Int.floor_le y
  have h2 := Int.lt_floor_add_one y
  unfold roundEven
  split_ifs with c1 c2 c3
  · rw [abs_of_nonneg (by linarith)]
    exact ⟨c1.le, fun h => absurd h c1.ne⟩
  · push_cast
    rw [abs_of_nonpos (by linarith)]
    exact ⟨by linarith, fun h => by exfalso; linarith⟩
  · rw [abs_of_nonneg (by linarith)]
    exact ⟨by linarith, fun _ => Int.even_iff.2 c3⟩
  · push_cast
    rw [abs_of_nonpos (by linarith)]
    exact ⟨by linarith, fun _ => Int.even_add_one.2 (by rwa [Int.even_iff])⟩

/-! ### C98: the rewards -/

/-- **C98, step.** Every reward of ANM6Easy is a number.  It is between -101 and 1 if the network stays in
operation, -20000 if it collapses, and 0 afterwards. -/
theorem C98_step (ha : EasyOf w s0 a) (hg : Fair w.rng) (G : GoodSolvers w.sim (easySim : Sim K)) (hp : NumericPF w.sim)
    {y : EnvDyn K} (hy : a.env.dyn = some y) (h : a.step (easyCtx w s0) u = .ok (a', o)) :
    ∃ r : K, o.reward = .fin r ∧ (y.terminated = true → r = 0) ∧
      (y.terminated = false → o.terminated = true → r = -20000) ∧
      (y.terminated = false → o.terminated = false → -101 ≤ r ∧ r ≤ 1) := by
  have ha' := ha.step h
  obtain ⟨e, d, d0, h2, -, -, rfl⟩ := anm6_step_ok h
  cases hyt : y.terminated with
  | true =>
    obtain ⟨hu, -⟩ := step_ok h2
    rw [(C46_terminal_step hy hyt u).1 hu] at h2
    cases h2
    exact ⟨0, rfl, fun _ => rfl, nofun, nofun⟩
  | false =>
    cases ho : o.terminated with
    | true =>
      refine ⟨_, C47_terminating_made (c1 := some (.fin 1)) (c2 := 100) (g := 995/1000) (easy_env ha) rfl rfl (by norm_num) hy hyt h2 ho,
        nofun, fun _ _ => by norm_num, nofun⟩
    | false =>
      obtain ⟨y', hy', hf⟩ := C46_flag h2
      rw [ho] at hf
      obtain ⟨p, q, g, fl, v, en, loss, pen, V⟩ := easy_values ha' hg G hp hy' hf 0
      obtain ⟨_, y1, hy1, ⟨ht, _⟩ | ⟨-, h3⟩⟩ := step_ok h2
      · rw [hy] at hy1; cases hy1; rw [hyt] at ht; cases ht
      obtain ⟨vars, args, out, y2, I⟩ := advance_ok h3
      have hd : e.dyn = some y2 := by rw [I.result]
      rw [show e.dyn = some y' from hy'] at hd
      cases hd
      have hc : out.converged = true := by have := I.flag; rw [ho] at this; simpa using this.symm
      have hr := I.reward
      rw [hc] at hr
      simp only [Env.rewardOf, if_true, Except.ok.injEq, Prod.mk.injEq] at hr
      obtain ⟨r1, r2, r3⟩ := hr
      rw [r2, r3, show y'.eLoss = .fin loss from V.costs.1, show y'.penalty = .fin pen from V.costs.2] at r1
      have b1 := V.loss
      have b2 := V.pen
      refine ⟨-(loss + pen), r1.symm, nofun, nofun, fun _ _ => ⟨by linarith, by linarith⟩⟩

/-- **C98, return.** The discounted sum of the rewards of any sequence of steps of ANM6Easy is a number between
-20200 and 200. -/
theorem C98_return (hg : Fair w.rng) (G : GoodSolvers w.sim (easySim : Sim K)) (hp : NumericPF w.sim)
    {us : List (List (X K))} {os : List (Env.StepOut K)} (h : Anm6Episode (easyCtx w s0) a us os a')
    (ha : EasyOf w s0 a) {y : EnvDyn K} (hy : a.env.dyn = some y) :
    ∃ rs : List K, os.map (·.reward) = rs.map X.fin ∧
      -20200 ≤ discounted (995/1000) rs ∧ discounted (995/1000) rs ≤ 200 := by
  suffices H : ∃ rs : List K, os.map (·.reward) = rs.map X.fin ∧ (y.terminated = true → discounted (995/1000) rs = 0) ∧
      -20200 ≤ discounted (995/1000) rs ∧ discounted (995/1000) rs ≤ 200 by
    obtain ⟨rs, h1, -, h2⟩ := H
    exact ⟨rs, h1, h2⟩
  induction h generalizing y with
  | nil a => exact ⟨[], rfl, fun _ => rfl, by simp [discounted], by simp [discounted]⟩
  | @cons a a1 a' u us o os h1 h2 ih =>
    obtain ⟨r, hr, k1, k2, k3⟩ := C98_step ha hg G hp hy h1
    obtain ⟨e, d, d0, h3, -, -, e1⟩ := anm6_step_ok h1
    obtain ⟨y1, hy1, hf⟩ := C46_flag h3
    have hy1' : a1.env.dyn = some y1 := by rw [e1]; exact hy1
    obtain ⟨rs, hrs, i1, i2, i3⟩ := ih (ha.step h1) hy1'
    refine ⟨r :: rs, by simp [hr, hrs], ?_⟩
    simp only [discounted]
    cases hyt : y.terminated with
    | true =>
      have : y1.terminated = true := by
        obtain ⟨hu, -⟩ := step_ok h3
        rw [(C46_terminal_step hy hyt u).1 hu] at h3
        cases h3
        rw [hy] at hy1; cases hy1; exact hyt
      rw [k1 hyt, i1 this]
      norm_num
    | false =>
      refine ⟨nofun, ?_⟩
      cases ho : o.terminated with
      | true =>
        rw [k2 hyt ho, i1 (hf.trans ho)]
        norm_num
      | false =>
        obtain ⟨b1, b2⟩ := k3 hyt ho
        constructor <;> linarith

end

/-! ### Cases that meet the hypotheses -/

/-- An environment made and reset, and any action of its space. -/
example : ∃ a1 y, EasyOf calmWorld easySim a1 ∧ a1.env.dyn = some y ∧ y.terminated = false ∧
    ∀ u : List (X ℝ), easyActions.contains u true → ∃ a' o, a1.step (easyCtx calmWorld easySim) u = .ok (a', o) ∧
      ∃ r : ℝ, o.reward = .fin r ∧ (o.terminated = false → -101 ≤ r ∧ r ≤ 1) := by
  obtain ⟨a1, y, ha, hy, ht, H⟩ := calm_live
  refine ⟨a1, y, ha, hy, ht, fun u hu => ?_⟩
  obtain ⟨os, a', h⟩ := H [u] (by simp) (by simpa using hu)
  cases h with
  | cons h1 h2 =>
    obtain ⟨r, h3, -, -, h4⟩ := C98_step ha fair_real calm_good calm_numeric hy h1
    exact ⟨_, _, h1, r, h3, h4 ht⟩

/-- 2.5 microseconds are rounded to 2. -/
example : timesDelta (.fin (5/2 : ℚ)) 1 = .ok 2 ∧ timesDelta (.fin (7/2 : ℚ)) 1 = .ok 4 := by decide +kernel

end Anm
