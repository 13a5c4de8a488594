import Verif.Props.Failures
import Verif.Props.EnvDemo

/-! # C96, C97: concrete exceptions -/

namespace Anm

open Spec Py

/-- The call raised `x`. -/
def raised {α : Type} (r : Except PyErr α) (x : PyErr) : Bool :=
  match r with
  | .ok _ => false
  | .error y => decide (y = x)

theorem raised_iff {α : Type} {r : Except PyErr α} {x : PyErr} : raised r x = true ↔ r = .error x := by
  cases r <;> simp [raised]

def returned {α : Type} (r : Except PyErr α) : Bool :=
  match r with
  | .ok _ => true
  | .error _ => false

theorem returned_iff {α : Type} {r : Except PyErr α} : returned r = true ↔ ∃ a, r = .ok a := by
  cases r <;> simp [returned]

/-- The states of charge of the storage units. -/
def Obj.energy {ρ : Type} (o : Obj ℚ ρ) : List (Option (X ℚ)) :=
  (o.env.sim.devices.filter Device.isStorage).map Device.soc

def Obj.clock {ρ : Type} (o : Obj ℚ ρ) : Option ℕ := o.flags.map Flags.timestep
def Obj.over {ρ : Type} (o : Obj ℚ ρ) : Option Bool := o.flags.map Flags.terminated

/-- `next_vars` forgets the auxiliary variable: it returns NaN. -/
def nanCtx : EnvCtx ℚ ℕ := { envCtx load1 with nextVars := fun _ r => .ok ([.fin (-5), .fin 20, .nan], r + 1) }

/-- The load is 5 MW, and 10 MW in the second step; the initial vector is right at the first reset only. -/
def onceCtx : EnvCtx ℚ ℕ :=
  { envCtx (fun r => if r = 2 then -10 else -5) with
    initState := fun r => if r = 0 then .ok (demoInit ++ [.fin (r : ℚ)], r + 1) else .ok ([.fin 0], r + 1) }

def afterReset (c : EnvCtx ℚ ℕ) (e : Env ℚ ℕ) : Obj ℚ ℕ := (Obj.resetPy c id (some 0) (Obj.ofEnv e)).2
def afterStep (c : EnvCtx ℚ ℕ) (o : Obj ℚ ℕ) : Obj ℚ ℕ := (Obj.stepPy c id mildAct o).2

/-- **C97 fails.** The observation of a step is rejected because an auxiliary variable is NaN.  The exception comes
after the simulator was advanced: the storage unit has been charged, while the clock of the environment stands
still. -/
theorem C97_half_step : ∃ (c : EnvCtx ℚ ℕ) (a : EnvArgs ℚ) (e : Env ℚ ℕ), mkEnv c a = .ok e ∧
    returned (Obj.resetPy c id (some 0) (Obj.ofEnv e)).1 = true ∧
    (Obj.stepPy c id mildAct (afterReset c e)).1 = .error .assertionError ∧
    (afterStep c (afterReset c e)).clock = (afterReset c e).clock ∧
    (afterStep c (afterReset c e)).energy ≠ (afterReset c e).energy := by
  obtain ⟨e, h, h1, h2, h3, h4⟩ := exOk (r := mkEnv nanCtx (envArgs .state (99/100)))
    (P := fun e => returned (Obj.resetPy nanCtx id (some 0) (Obj.ofEnv e)).1 = true ∧
      raised (Obj.stepPy nanCtx id mildAct (afterReset nanCtx e)).1 .assertionError = true ∧
      (afterStep nanCtx (afterReset nanCtx e)).clock = (afterReset nanCtx e).clock ∧
      (afterStep nanCtx (afterReset nanCtx e)).energy ≠ (afterReset nanCtx e).energy) (by decide +kernel)
  exact ⟨nanCtx, _, e, h, h1, raised_iff.1 h2, h3, h4⟩

/-- **C97 fails.** With `gamma = 1` a collapse raises `ZeroDivisionError`.  By then the episode is marked as over, but
the clock was not advanced; the next step returns zeros and no exception. -/
theorem C97_zero_division : ∃ (c : EnvCtx ℚ ℕ) (a : EnvArgs ℚ) (e : Env ℚ ℕ), mkEnv c a = .ok e ∧
    (Obj.stepPy c id mildAct (afterStep c (afterReset c e))).1 = .error .zeroDivision ∧
    (afterStep c (afterReset c e)).over = some false ∧
    (afterStep c (afterStep c (afterReset c e))).over = some true ∧
    (afterStep c (afterStep c (afterReset c e))).clock = (afterStep c (afterReset c e)).clock ∧
    returned (Obj.stepPy c id mildAct (afterStep c (afterStep c (afterReset c e)))).1 = true := by
  obtain ⟨e, h, h1, h2, h3, h4, h5⟩ := exOk (r := mkEnv (envCtx load1) (envArgs .state 1))
    (P := fun e => raised (Obj.stepPy (envCtx load1) id mildAct (afterStep (envCtx load1) (afterReset (envCtx load1) e))).1 .zeroDivision = true ∧
      (afterStep (envCtx load1) (afterReset (envCtx load1) e)).over = some false ∧
      (afterStep (envCtx load1) (afterStep (envCtx load1) (afterReset (envCtx load1) e))).over = some true ∧
      (afterStep (envCtx load1) (afterStep (envCtx load1) (afterReset (envCtx load1) e))).clock =
        (afterStep (envCtx load1) (afterReset (envCtx load1) e)).clock ∧
      returned (Obj.stepPy (envCtx load1) id mildAct (afterStep (envCtx load1) (afterStep (envCtx load1) (afterReset (envCtx load1) e)))).1 = true)
    (by decide +kernel)
  exact ⟨envCtx load1, _, e, h, raised_iff.1 h1, h2, h3, h4, h5⟩

/-- The environment after a reset and two steps, the second of which collapses the network. -/
def collapsed (e : Env ℚ ℕ) : Obj ℚ ℕ := afterStep onceCtx (afterStep onceCtx (afterReset onceCtx e))

/-- What a second reset leaves. -/
def revived (e : Env ℚ ℕ) : Obj ℚ ℕ := (Obj.resetPy onceCtx id none (collapsed e)).2

/-- **C97 fails.** A reset that raises (`init_state` returns a vector of a wrong size) brings an environment in a
terminal state back to life: the next step is carried out. -/
theorem C97_revived : ∃ (a : EnvArgs ℚ) (e : Env ℚ ℕ), mkEnv onceCtx a = .ok e ∧ (collapsed e).over = some true ∧
    (Obj.resetPy onceCtx id none (collapsed e)).1 = .error .envInit ∧ (revived e).over = some false ∧
    ∃ out, (Obj.stepPy onceCtx id mildAct (revived e)).1 = .ok out ∧ out.terminated = false ∧ out.reward ≠ 0 := by
  obtain ⟨e, h, h1, h2, h3, h4⟩ := exOk (r := mkEnv onceCtx (envArgs .state (99/100)))
    (P := fun e => (collapsed e).over = some true ∧
      raised (Obj.resetPy onceCtx id none (collapsed e)).1 .envInit = true ∧ (revived e).over = some false ∧
      OkAnd (Obj.stepPy onceCtx id mildAct (revived e)).1 fun out => out.terminated = false ∧ out.reward ≠ 0)
    (by decide +kernel)
  obtain ⟨out, h5, h6⟩ := exOk h4
  exact ⟨_, e, h, h1, raised_iff.1 h2, h3, out, h5, h6⟩

/-! ### The hypotheses of the theorems are met -/

/-- C96: after the step that raised, a reset with a seed returns, and so does the step after it. -/
example : ∃ (c : EnvCtx ℚ ℕ) (a : EnvArgs ℚ) (e0 : Env ℚ ℕ) (o : Obj ℚ ℕ), mkEnv c a = .ok e0 ∧
    ObjHistory c (Obj.ofEnv e0) o ∧ FixedLength a.observation.fn ∧ o.energy ≠ (Obj.ofEnv e0).energy ∧
    (∃ r, e0.reset c (some 0) = .ok r) ∧
    (Obj.stepPy c id mildAct (afterReset c e0)).1 = .error .assertionError ∧ o = afterStep c (afterReset c e0) := by
  obtain ⟨e, h, h1, h2, h3⟩ := exOk (r := mkEnv nanCtx (envArgs .state (99/100)))
    (P := fun e => returned (e.reset nanCtx (some 0)) = true ∧
      raised (Obj.stepPy nanCtx id mildAct (afterReset nanCtx e)).1 .assertionError = true ∧
      (afterStep nanCtx (afterReset nanCtx e)).energy ≠ (Obj.ofEnv e).energy) (by decide +kernel)
  refine ⟨nanCtx, _, e, _, h, ?_, nofun, h3, returned_iff.1 h1, raised_iff.1 h2, rfl⟩
  exact .tail (.tail .refl (.inr (.inl ⟨id, some 0, rfl⟩))) (.inl ⟨id, mildAct, rfl⟩)

/-- C96: an episode after the reset. -/
example : ∃ (a : EnvArgs ℚ) (e0 e1 e2 : Env ℚ ℕ) (obs : List (X ℚ)) (outs : List (Env.StepOut ℚ)),
    mkEnv (envCtx load1) a = .ok e0 ∧ ObjHistory (envCtx load1) (Obj.ofEnv e0) (Obj.stepPy (envCtx load1) id [] (Obj.ofEnv e0)).2 ∧
    e0.reset (envCtx load1) (some 0) = .ok (e1, obs) ∧ Episode (envCtx load1) e1 [mildAct] outs e2 := by
  obtain ⟨d⟩ := demo_state
  exact ⟨_, d.e0, d.e1, d.e2, _, _, d.made, .tail .refl (.inl ⟨id, [], rfl⟩), d.rst, .cons d.stp (.nil _)⟩

/-- C97: a rejected action. -/
example : ∃ (o : Obj ℚ ℕ), ¬ o.env.actionSpace.contains ([] : List (X ℚ)) true ∧ o.flags.isSome := by
  obtain ⟨e, h, h1, h2⟩ := exOk (r := mkEnv nanCtx (envArgs .state (99/100)))
    (P := fun e => ¬ (afterReset nanCtx e).env.actionSpace.contains ([] : List (X ℚ)) true ∧ (afterReset nanCtx e).flags.isSome)
    (by decide +kernel)
  exact ⟨_, h1, h2⟩

/-- C97: `next_vars` returns nothing. -/
example : ∃ (c : EnvCtx ℚ ℕ) (o : Obj ℚ ℕ) (f : Flags ℚ) (st : List (X ℚ)), o.env.actionSpace.contains mildAct true ∧
    o.flags = some f ∧ f.terminated = false ∧ o.state = some st ∧ c.nextVars st o.env.rng = .ok ([], o.env.rng) ∧
    ([] : List (X ℚ)).length ≠ o.env.sim.nLoad + o.env.sim.nNonSlackGen + o.env.nAux := by
  obtain ⟨e, h, h1, h2, h3, h4⟩ := exOk (r := mkEnv nanCtx (envArgs .state (99/100)))
    (P := fun e => (afterReset nanCtx e).env.actionSpace.contains mildAct true ∧ (afterReset nanCtx e).over = some false ∧
      (afterReset nanCtx e).state.isSome ∧ (afterReset nanCtx e).env.sim.nLoad = 1)
    (by decide +kernel)
  obtain ⟨f, hf, ht⟩ := Option.map_eq_some_iff.1 h2
  obtain ⟨st, hs⟩ := Option.isSome_iff_exists.1 h3
  refine ⟨{ nanCtx with nextVars := fun _ r => .ok ([], r) }, _, f, st, h1, hf, ht, hs, rfl, ?_⟩
  rw [h4]
  simp
  omega

end Anm
