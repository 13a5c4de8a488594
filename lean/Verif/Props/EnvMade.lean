import Verif.Props.EnvDemo

/-! # C47, C54 in terms of the arguments of the constructor -/

set_option linter.unusedSectionVars false

namespace Anm

open Spec

section
variable {K ρ : Type} [Field K] [LinearOrder K] [IsStrictOrderedRing K] [FloorRing K]
  {c : EnvCtx K ρ} {a : EnvArgs K} {e e' : Env K ρ} {act : List (X K)} {out : Env.StepOut K}

/-- **C47, arguments.** In an environment made with `costs_clipping = (c1, c2)`, after any history, the reward of
a step that does not terminate lies between `-(c1 + c2)` and `c1`; it is minus the sum of the costs of the
simulator if these are within `[-c1, c1]` and `[0, c2]`. -/
theorem C47_made (he : EnvOf c a e) {c1 c2 : K} (hc : a.clipping = some (some (.fin c1), some (.fin c2)))
    (h10 : 0 ≤ c1) (h20 : 0 ≤ c2) (h : e.step c act = .ok (e', out)) (ht : out.terminated = false) :
    ∃ args o, e.sim.transition c.sim args = .ok (e'.sim, o) ∧
      (X.NotNan o.eLoss → X.NotNan o.penalty → .fin (-(c1 + c2)) ≤ out.reward ∧ out.reward ≤ .fin c1) ∧
      (.fin (-c1) ≤ o.eLoss → o.eLoss ≤ .fin c1 → 0 ≤ o.penalty → o.penalty ≤ .fin c2 →
        out.reward = -(o.eLoss + o.penalty)) := by
  obtain ⟨e0, I, hs, -, -⟩ := envOf_inv he
  have h1 : e.c1 = .fin c1 := by rw [hs.c1, I.c1, hc]; rfl
  have h2 : e.c2 = .fin c2 := by rw [hs.c2, I.c2, hc]; rfl
  obtain ⟨args, o, y', k1, -, k2, k3, k4, k5⟩ := C47_reward h1 h2 h10 h20 h ht
  refine ⟨args, o, k1, k5, fun b1 b2 b3 b4 => ?_⟩
  rw [k2, (k3 (X.le_notNan b1).2).2 b1 b2, (k4 (X.le_notNan b3).2).2 b3 b4]

theorem X.clip_none {x : X K} (h : 0 ≤ x) : X.clip x 0 .pinf = x := by
  cases x with
  | nan => exact absurd h (by simp)
  | ninf => exact absurd h (by simp [X.zero_def])
  | pinf => simp [X.clip, X.maximum, X.minimum, X.zero_def]
  | fin a =>
    have h : 0 ≤ a := h
    simp [X.clip, X.maximum, X.minimum, X.zero_def, h]

/-- **C47, no clipping.** In an environment made without `costs_clipping` the reward of a step that does not
terminate is minus the sum of the costs of the simulator. -/
theorem C47_unclipped (he : EnvOf c a e) (hc : a.clipping = none) (h : e.step c act = .ok (e', out))
    (ht : out.terminated = false) :
    ∃ args o, e.sim.transition c.sim args = .ok (e'.sim, o) ∧
      (X.IsFin o.eLoss → 0 ≤ o.penalty → out.reward = -(o.eLoss + o.penalty)) := by
  obtain ⟨e0, J, hs, -, -⟩ := envOf_inv he
  have h1 : e.c1 = .pinf := by rw [hs.c1, J.c1, hc]; rfl
  have h2 : e.c2 = .pinf := by rw [hs.c2, J.c2, hc]; rfl
  obtain ⟨_, y, hy, ⟨_, rfl, rfl⟩ | ⟨hf, h⟩⟩ := step_ok h
  · cases ht
  obtain ⟨vars, args, o, y', I⟩ := advance_ok h
  have ho : o.converged = true := by have := I.flag; rw [ht] at this; simpa using this.symm
  have hr := I.reward
  rw [ho] at hr
  simp only [Env.rewardOf, if_true, Except.ok.injEq, Prod.mk.injEq, h1, h2] at hr
  refine ⟨args, o, I.trans, fun k1 k2 => ?_⟩
  obtain ⟨z, hz⟩ := X.isFin_iff.1 k1
  rw [← hr.1, X.clip_none k2, hz, X.clip_none (x := X.abs (.fin z)) (by simp [X.abs, X.zero_def])]
  have : X.sign (.fin z : X K) * X.abs (.fin z) = .fin z := by
    rcases lt_trichotomy 0 z with h | h | h
    · simp [X.sign, X.abs, h, abs_of_pos h]
    · simp [X.sign, X.abs, ← h]
    · simp [X.sign, X.abs, h, not_lt.2 h.le, abs_of_neg h]
  rw [this]

/-- **C47, the terminating step.** It returns `-c2 / (1 - gamma)`, in terms of the arguments. -/
theorem C47_terminating_made (he : EnvOf c a e) {c1 : Option (X K)} {c2 g : K}
    (hc : a.clipping = some (c1, some (.fin c2))) (hg : a.gamma = .fin g) (hg1 : g ≠ 1) {y : EnvDyn K}
    (hy : e.dyn = some y) (hl : y.terminated = false) (h : e.step c act = .ok (e', out)) (ht : out.terminated = true) :
    out.reward = .fin (-c2 / (1 - g)) := by
  obtain ⟨e0, I, hs, -, -⟩ := envOf_inv he
  exact C47_terminating (by rw [hs.c2, I.c2, hc]; rfl) (by rw [hs.gamma, I.gamma, hg]) hg1 hy hl h ht

/-- **C54, seed of the constructor.** An environment made with a seed starts as if `reset` were given this seed. -/
theorem C54_made (h : mkEnv c a = .ok e) {n : ℤ} (hn : a.seed = some n) : e.reset c none = e.reset c (some n) := by
  have : e.rng = c.seeded n := by
    simp only [mkEnv, bind_ok, pure_ok] at h
    obtain ⟨s, h1, ⟨⟩, h2, sv, h3, act, h4, ov, h5, os, h6, rfl⟩ := h
    simp [hn]
  simp [Env.reset, this]

end

/-- What `step` gives to the simulator. -/
theorem step_inputs {K ρ : Type} [Field K] [LinearOrder K] [FloorRing K] {c : EnvCtx K ρ} {a : EnvArgs K} {e e' : Env K ρ}
    (he : EnvOf c a e) {act : List (X K)} {out : Env.StepOut K} {y : EnvDyn K} (h : e.step c act = .ok (e', out))
    (hy : e.dyn = some y) (hlive : y.terminated = false) :
    ∃ vars args o, c.nextVars y.state e.rng = .ok (vars, e'.rng) ∧ e.sim.transition c.sim args = .ok (e'.sim, o) ∧
      Distributed e.sim vars args.pLoad args.pPot ∧ Applied e.sim act args.pSet args.qSet := by
  obtain ⟨hcon, y1, hy1, ⟨ht1, _⟩ | ⟨hf, h⟩⟩ := step_ok h
  · rw [hy] at hy1; cases hy1; rw [hlive] at ht1; cases ht1
  rw [hy] at hy1; cases hy1
  obtain ⟨vars, args, o, y', I⟩ := advance_ok h
  obtain ⟨r, h1, h2⟩ := distributed_of (simOf_sorted (envOf_simOf he)) I.size
  rw [I.dicts] at h1
  cases h1
  refine ⟨vars, args, o, I.next, I.trans, h2, ?_⟩
  have hb := (C45_actions he).1.1
  have hl : act.length = (slots e.sim).length := by
    have := hcon.2.1
    rw [hb] at this
    simpa using this
  have := decode_applied (simOf_sorted (envOf_simOf he)) hl
  rw [I.decode] at this
  exact this

/-! ### Cases that meet the hypotheses -/

/-- A step, and a step that collapses the network. -/
example : ∃ (e e' : Env ℚ ℕ) (out : Env.StepOut ℚ), EnvOf (envCtx load1) (envArgs .state (99/100)) e ∧
    e.step (envCtx load1) mildAct = .ok (e', out) ∧ out.terminated = false ∧
    ∃ args o, e.sim.transition (envCtx load1).sim args = .ok (e'.sim, o) ∧
      (X.NotNan o.eLoss → X.NotNan o.penalty → .fin (-(1 + 100)) ≤ out.reward ∧ out.reward ≤ .fin 1) := by
  obtain ⟨d⟩ := demo_state
  obtain ⟨args, o, h1, h2, -⟩ := C47_made d.of1 rfl (by norm_num) (by norm_num) d.stp d.live
  exact ⟨_, _, _, d.of1, d.stp, d.live, args, o, h1, h2⟩

/-- The same environment without clipping. -/
example : ∃ (e e' : Env ℚ ℕ) (out : Env.StepOut ℚ),
    EnvOf (envCtx load1) { envArgs .state (99/100) with clipping := none, seed := some 0 } e ∧
    e.step (envCtx load1) mildAct = .ok (e', out) ∧ out.terminated = false := by
  have h : ∃ r, (do
      let e0 ← mkEnv (envCtx load1) { envArgs .state (99/100) with clipping := none, seed := some 0 }
      let r ← e0.reset (envCtx load1) none
      let s ← r.1.step (envCtx load1) mildAct
      pure (r.1, s)) = .ok r ∧ r.2.2.terminated = false := exOk (by decide +kernel)
  obtain ⟨⟨e, s⟩, h, ht⟩ := h
  simp only [bind_ok, pure_ok, Prod.mk.injEq] at h
  obtain ⟨e0, h1, ⟨e1, obs⟩, h2, s', h3, rfl, rfl⟩ := h
  exact ⟨_, _, _, ⟨e0, h1, .single (.inl ⟨_, _, h2⟩)⟩, h3, ht⟩

end Anm
