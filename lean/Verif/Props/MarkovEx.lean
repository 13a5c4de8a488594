import Verif.Props.Markov
import Verif.Props.EnvDemo
import Verif.Props.Anm6Demo

/-! # C104, C105: cases that meet the hypotheses -/

namespace Anm
open Spec

/-- The storage unit is idle. -/
def idleAct : List (X ℚ) := [.fin 0, .fin 1, .fin 0, .fin 0]

/-- Reset with seed 0, idle, charge, idle; and reset with seed 1, charge, idle. -/
def twoPasts : Except PyErr (Env ℚ ℕ × Env ℚ ℕ × Env ℚ ℕ) := do
  let c := envCtx fun _ => -5
  let e0 ← mkEnv c (envArgs .state (99/100))
  let (e1, _) ← e0.reset c (some 0)
  let (e1, _) ← e1.step c idleAct
  let (e1, _) ← e1.step c mildAct
  let (e1, _) ← e1.step c idleAct
  let (e2, _) ← e0.reset c (some 1)
  let (e2, _) ← e2.step c mildAct
  let (e2, _) ← e2.step c idleAct
  pure (e0, e1, e2)

theorem twoPasts_ok : ∃ r, twoPasts = .ok r ∧ r.2.1.dyn.map EnvDyn.state = r.2.2.dyn.map EnvDyn.state ∧
    r.2.1.dyn.map EnvDyn.terminated = some false ∧ r.2.2.dyn.map EnvDyn.terminated = some false ∧ r.2.1.rng = r.2.2.rng ∧
    r.2.1.dyn.map EnvDyn.timestep = some 3 ∧ r.2.2.dyn.map EnvDyn.timestep = some 2 :=
  exOk (by decide +kernel)

/-- The hypotheses of `C104_step` and `C104_episode` hold for two environments that were reset with different
seeds, received different actions and made different numbers of steps. -/
example : ∃ e1 e2 : Env ℚ ℕ, EnvOf (envCtx fun _ => -5) (envArgs .state (99/100)) e1 ∧
    EnvOf (envCtx fun _ => -5) (envArgs .state (99/100)) e2 ∧ CleanFile demoNet 100 ∧
    FixedLength (envArgs .state (99/100)).observation.fn ∧ SameSituation e1 e2 ∧
    e1.dyn.map EnvDyn.timestep ≠ e2.dyn.map EnvDyn.timestep := by
  obtain ⟨⟨e0, e1, e2⟩, h, hst, t1, t2, hr, n1, n2⟩ := twoPasts_ok
  simp only [twoPasts, bind_ok, pure_ok] at h
  obtain ⟨f0, k0, ⟨f1, _⟩, k1, ⟨f2, _⟩, k2, ⟨f3, _⟩, k3, ⟨f4, _⟩, k4, ⟨f5, _⟩, k5, ⟨f6, _⟩, k6, ⟨f7, _⟩, k7, h⟩ := h
  simp only [Prod.mk.injEq] at h
  obtain ⟨rfl, rfl, rfl⟩ := h
  have o0 : EnvOf (envCtx fun _ => -5) (envArgs .state (99/100)) f0 := ⟨_, k0, .refl⟩
  have hs : ∀ {e e' : Env ℚ ℕ} {o a}, EnvOf (envCtx fun _ => -5) (envArgs .state (99/100)) e →
      e.step (envCtx fun _ => -5) a = .ok (e', o) → EnvOf (envCtx fun _ => -5) (envArgs .state (99/100)) e' :=
    fun h k => envOf_call h (.inr (.inl ⟨_, _, k⟩))
  refine ⟨f4, f7, hs (hs (hs (envOf_call o0 (.inl ⟨_, _, k1⟩)) k2) k3) k4,
    hs (hs (envOf_call o0 (.inl ⟨_, _, k5⟩)) k6) k7, demo_clean, (fun _ h => by cases h), ?_, by rw [n1, n2]; decide⟩
  cases h1 : f4.dyn with
  | none => rw [h1] at t1; cases t1
  | some y1 =>
    cases h2 : f7.dyn with
    | none => rw [h2] at t2; cases t2
    | some y2 =>
      simp only [h1, h2, Option.map_some, Option.some.injEq] at hst t1 t2
      exact ⟨y1, y2, h1, h2, hst, t1.trans t2.symm, hr⟩

/-- Two ANM6Easy objects with different dates and generators and the same state vector, and two steps of each. -/
def twoEasy : Except PyErr (Sim ℚ × Anm6 ℚ ℕ × Anm6 ℚ ℕ × Anm6 ℚ ℕ × Anm6 ℚ ℕ) := do
  let s0 ← mkSim anm6Net (.fin (1/4)) (.fin 100)
  let c := easyCtx easyWorld s0
  let a ← mkAnm6 c easyArgs
  let (a1, _) ← a.easyReset c countRng (some 94) none
  let (a1', _) ← a1.step c ([0, 30, 0, 0, -5, 0].map .fin)
  let (a2, _) ← a1'.easyReset c countRng (some 94) (some 63722071800000000)
  let (a2', _) ← a2.step c ([0, 30, 0, 0, -5, 0].map .fin)
  pure (s0, a1, a1', a2, a2')

theorem twoEasy_ok : ∃ r, twoEasy = .ok r ∧ r.2.1.env.dyn.map EnvDyn.state = r.2.2.2.1.env.dyn.map EnvDyn.state ∧
    r.2.1.env.dyn.map EnvDyn.terminated = some false ∧ r.2.2.2.1.env.dyn.map EnvDyn.terminated = some false ∧
    r.2.1.date ≠ r.2.2.2.1.date :=
  exOk (by decide +kernel)

/-- The hypotheses of `C105_easy`. -/
example : ∃ (s0 : Sim ℚ) (a1 a2 a1' a2' : Anm6 ℚ ℕ) (os1 os2 : List (Env.StepOut ℚ)), EasyOf easyWorld s0 a1 ∧
    EasyOf easyWorld s0 a2 ∧ SameState a1.env a2.env ∧ a1.date ≠ a2.date ∧
    Anm6Episode (easyCtx easyWorld s0) a1 [[0, 30, 0, 0, -5, 0].map .fin] os1 a1' ∧
    Anm6Episode (easyCtx easyWorld s0) a2 [[0, 30, 0, 0, -5, 0].map .fin] os2 a2' := by
  obtain ⟨⟨s0, a1, a1', a2, a2'⟩, h, hst, t1, t2, hd⟩ := twoEasy_ok
  simp only [twoEasy, bind_ok, pure_ok] at h
  obtain ⟨s0', k0, b, k1, ⟨b1, _⟩, k2, ⟨b1', _⟩, k3, ⟨b2, _⟩, k4, ⟨b2', _⟩, k5, h⟩ := h
  simp only [Prod.mk.injEq] at h
  obtain ⟨rfl, rfl, rfl, rfl, rfl⟩ := h
  have E1 : EasyOf easyWorld s0' b1 := .reset (.make k0 k1) k2
  refine ⟨s0', b1, b2, b1', b2', _, _, E1, .reset (.step E1 k3) k4, ?_, hd, .cons k3 (.nil _), .cons k5 (.nil _)⟩
  cases h1 : b1.env.dyn with
  | none => rw [h1] at t1; cases t1
  | some y1 =>
    cases h2 : b2.env.dyn with
    | none => rw [h2] at t2; cases t2
    | some y2 =>
      simp only [h1, h2, Option.map_some, Option.some.injEq] at hst t1 t2
      exact ⟨y1, y2, h1, h2, hst, t1.trans t2.symm⟩

end Anm
