import Verif.Model.Examples

/-! # Model of the two generators of a process

An environment has a generator of its own, `self.np_random`, which `reset(seed=...)` seeds; numpy has a global
one, `np.random`, which all code of the process shares and which `reset` leaves alone. -/

namespace Anm

section
variable {K ρ γ : Type} [Field K] [LinearOrder K]

/-- Seeding when the global generator is in the state `g` (`gym.Env.reset(seed=...)`, called at `anm_env.py:116`
and `:257`): the environment gets a new generator, the global one stays. -/
def EnvCtx.whenGlobal (own : ℤ → ρ) (g : γ) (c : EnvCtx K (ρ × γ)) : EnvCtx K (ρ × γ) :=
  { c with seeded := fun n => (own n, g), fresh := (c.fresh.1, g) }

/-- `reset` (`anm_env.py:235-311`), with both generators. -/
def Env.resetBoth (own : ℤ → ρ) (c : EnvCtx K (ρ × γ)) (e : Env K (ρ × γ)) (seed : Option ℤ) :
    Except PyErr (Env K (ρ × γ) × List (X K)) :=
  e.reset (c.whenGlobal own e.rng.2) seed

/-- `ANMEnv.__init__` (`anm_env.py:79-156`) when the global generator is in the state `g`. -/
def mkEnvBoth [FloorRing K] (own : ℤ → ρ) (g : γ) (c : EnvCtx K (ρ × γ)) (a : EnvArgs K) : Except PyErr (Env K (ρ × γ)) :=
  mkEnv (c.whenGlobal own g) a

/-- The functions of `np.random` draw from the global generator and leave the other one alone. -/
def NumpyRandom.global (np : NumpyRandom K γ) : NumpyRandom K (ρ × γ) where
  rand := fun r => ((np.rand r.2).1, (r.1, (np.rand r.2).2))
  randint := fun r lo hi => ((np.randint r.2 lo hi).1, (r.1, (np.randint r.2 lo hi).2))

/-- A hook that draws from `self.np_random` only. -/
def fromOwn {α : Type} (f : ρ → Except PyErr (α × ρ)) (r : ρ × γ) : Except PyErr (α × (ρ × γ)) := do
  let (x, r') ← f r.1
  pure (x, (r', r.2))

end

end Anm
