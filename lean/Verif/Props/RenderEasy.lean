import Verif.Props.Render
import Verif.Props.Anm6Real

/-! # C84: the frames of ANM6 and ANM6Easy -/

set_option linter.unusedSectionVars false

namespace Anm

open Spec

section
variable {K ρ : Type} [Field K] [LinearOrder K] [IsStrictOrderedRing K] [FloorRing K]
  {w : EasyWorld K ρ} {s0 : Sim K} {a a1 a' : Anm6 K ρ} {f : Frame K}

/-- A frame can only be sent after `reset`; its costs are the attributes of the environment. -/
theorem frame_inv (h : a.frame = .ok f) : ∃ y d, a.env.dyn = some y ∧ a.date = some d ∧ f.energyLoss = y.eLoss ∧
    f.penalty = y.penalty ∧ f.yearCount = a.yearCount ∧
    (f.month, f.day, f.hour, f.minute) = timeArray d := by
  unfold Anm6.frame at h
  split at h
  · cases h
  · cases h
  · cases h
  · rename_i st y d h1 h2 h3
    simp only [bind_ok, pure_ok] at h
    obtain ⟨p, -, q, -, s, -, soc, -, pot, -, v, -, rfl⟩ := h
    exact ⟨y, d, h2, h3, rfl, rfl, rfl, rfl⟩

/-- **C84, costs.** The frame after a step shows the two parts of the reward; if the network collapsed in
this step, it shows the bounds of both. -/
theorem C84_costs_step {c : EnvCtx K ρ} {u : List (X K)} {o : Env.StepOut K} (h : a.step c u = .ok (a', o))
    (hf : a'.frame = .ok f) :
    (o.terminated = false → o.reward = -(f.energyLoss + f.penalty)) ∧
      ((∃ y, a.env.dyn = some y ∧ y.terminated = false) → o.terminated = true →
        f.energyLoss = a.env.c1 ∧ f.penalty = a.env.c2) := by
  obtain ⟨e, d, d0, h1, -, -, rfl⟩ := anm6_step_ok h
  obtain ⟨y', d', hy', -, f1, f2, -⟩ := frame_inv hf
  rw [f1, f2]
  have hy' : e.dyn = some y' := hy'
  obtain ⟨_, y, hy, ⟨hterm, rfl, rfl⟩ | ⟨hlive, h2⟩⟩ := step_ok h1
  · refine ⟨fun h => (by cases h), ?_⟩
    rintro ⟨y2, hy2, h3⟩
    rw [hy] at hy2
    cases hy2
    rw [hterm] at h3
    cases h3
  · obtain ⟨vars, args, o', y2, I⟩ := advance_ok h2
    have hd : e.dyn = some y2 := by rw [I.result]
    rw [hy'] at hd
    cases hd
    have hr := I.reward
    constructor
    · intro ht
      have ho : o'.converged = true := by have := I.flag; rw [ht] at this; simpa using this.symm
      rw [ho] at hr
      simp only [Env.rewardOf, if_true, Except.ok.injEq, Prod.mk.injEq] at hr
      obtain ⟨r1, r2, r3⟩ := hr
      rw [r2, r3] at r1
      exact r1.symm
    · intro _ ht
      have ho : o'.converged = false := by have := I.flag; rw [ht] at this; simpa using this.symm
      rw [ho] at hr
      simp only [Env.rewardOf, Bool.false_eq_true, if_false, bind_ok, pure_ok, Prod.mk.injEq] at hr
      obtain ⟨r, -, -, r2, r3⟩ := hr
      exact ⟨r2.symm, r3.symm⟩

/-- **C84, costs after `reset`.** Both costs shown are 0. -/
theorem C84_costs_reset {c : EnvCtx K ρ} {g : Rng K ρ} {seed date : Option ℤ} {obs : List (X K)}
    (h : a.reset c g seed date = .ok (a', obs)) (hf : a'.frame = .ok f) :
    f.energyLoss = 0 ∧ f.penalty = 0 ∧ f.yearCount = 0 := by
  obtain ⟨e, d, r, h1, -, rfl⟩ := anm6_reset_ok h
  obtain ⟨y', d', hy', -, f1, f2, f3, -⟩ := frame_inv hf
  obtain ⟨v, st, nw, I⟩ := env_reset_ok h1
  have hd : e.dyn = some { terminated := false, timestep := 0, eLoss := 0, penalty := 0, state := st } := by
    rw [I.result]
  have hy' : e.dyn = some y' := hy'
  rw [hd] at hy'
  cases hy'
  exact ⟨f1, f2, f3⟩

theorem frame_clock {d : ℤ} (h : a.frame = .ok f) (hd : a.date = some d) :
    ((f.hour * 60 + f.minute : ℕ) : ℤ) = d % dayMicros / (60 * 1000000) := by
  obtain ⟨y, d', -, hd', -, -, -, ht⟩ := frame_inv h
  rw [hd] at hd'
  cases hd'
  have h1 : f.hour = (d % dayMicros / (60 * 1000000)).toNat / 60 := congrArg (fun x => x.2.2.1) ht
  have h2 : f.minute = (d % dayMicros / (60 * 1000000)).toNat % 60 := congrArg (fun x => x.2.2.2) ht
  have h3 : 0 ≤ d % dayMicros := Int.emod_nonneg _ (by decide)
  rw [h1, h2]
  omega

/-- **C84, clock.** In an ANM6Easy episode that started on a day, the time shown is the time variable of the
state times a quarter of an hour. -/
theorem C84_clock {seed date : Option ℤ} {obs : List (X K)} {us : List (List (X K))} {os : List (Env.StepOut K)}
    (hg : Fair w.rng) (ha : EasyOf w s0 a) (h : a.easyReset (easyCtx w s0) w.rng seed date = .ok (a1, obs))
    (hday : ∀ x, date = some x → x % (24 * 3600 * 1000000) = 0)
    (he : Anm6Episode (easyCtx w s0) a1 us os a') (ho : ∀ o ∈ os, o.terminated = false) (hf : a'.frame = .ok f) :
    ∃ t : ℕ, t < 96 ∧ Clock a'.env t ∧ f.hour * 60 + f.minute = 15 * t := by
  obtain ⟨t, d, ht, hc, hd, hm⟩ := C77_time_of_day hg ha h hday he ho
  refine ⟨t, ht, hc, ?_⟩
  have h1 := frame_clock hf hd
  have h2 : d % dayMicros = t * (15 * 60 * 1000000) := hm
  rw [h2] at h1
  omega

/-- **C84 for ANM6Easy.** After `reset` and any steps, `render` can send a frame. -/
theorem C84_frame_easy (ha : EasyOf w s0 a) (hg : Fair w.rng) (G : GoodSolvers w.sim (easySim : Sim K))
    {y : EnvDyn K} (hy : a.env.dyn = some y) :
    ∃ d f, a.date = some d ∧ a.frame = .ok f ∧ ShowsState a.env.sim f ∧
      (∃ year, CalendarTime d year f.month f.day f.hour f.minute) ∧ f.yearCount = a.yearCount ∧
      f.energyLoss = y.eLoss ∧ f.penalty = y.penalty ∧ f.networkCollapsed = y.terminated := by
  obtain ⟨-, -, d, d0, h1, -, h2, h3⟩ := (easy_live ha hg G).2 y hy
  obtain ⟨f, h4⟩ := C84_frame (easy_env ha) hy h1 h2 h3
  exact ⟨d, f, h1, h4⟩

end

/-! ### Cases that meet the hypotheses -/

/-- 29 February 2020, 12:34:56. -/
example : timeArray ((daysBefore 2020 + 59) * dayMicros + ((12 * 60 + 34) * 60 + 56) * 1000000) = (2, 29, 12, 34) := by
  decide +kernel

/-- The frame after the first `reset` of ANM6Easy. -/
example : ∃ a a1 obs y f, EasyOf calmWorld easySim a ∧
    a.easyReset (easyCtx calmWorld easySim) calmWorld.rng (some 7) none = .ok (a1, obs) ∧ a1.env.dyn = some y ∧
    a1.frame = .ok f ∧ ShowsState a1.env.sim f ∧ ∃ t : ℕ, f.hour * 60 + f.minute = 15 * t := by
  obtain ⟨a, a1, obs, y, d, ha, h, hy, hd, -⟩ := calm_case
  obtain ⟨d, f, -, hf, hs, -⟩ := C84_frame_easy (ha.reset h) fair_real calm_good hy
  obtain ⟨t, -, -, ht⟩ := C84_clock fair_real ha h (by simp) (.nil _) (by simp) hf
  exact ⟨a, a1, obs, y, f, ha, h, hy, hf, hs, t, ht⟩

end Anm
