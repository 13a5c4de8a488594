import Verif.Props.Arrays
import Verif.Props.FailuresEx

/-! # C123, C124: concrete arrays -/

set_option linter.unusedSectionVars false

namespace Anm

open Spec Py

section
variable {K : Type} [Field K] [LinearOrder K] {ρ : Type}

/-- Hooks that make new arrays. -/
def newHooks (c : EnvCtx K ρ) (fn : Option (List (X K) → List (X K) × Bool)) : Hooks K ρ where
  init := fun _ r => (c.initState r).map fun x => (.new x.1, x.2)
  next := fun h a r => (c.nextVars (Heap.read h a) r).map fun x => (.new x.1, x.2)
  obs := fn.map fun f h a => (.new (f (Heap.read h a)).1, (f (Heap.read h a)).2)

theorem newHooks_follows (c : EnvCtx K ρ) (fn : Option (List (X K) → List (X K) × Bool)) : Follows c fn (newHooks c fn) where
  init := fun h r => by
    simp only [newHooks]
    cases c.initState r <;> rfl
  next := fun h a r => by
    simp only [newHooks]
    cases c.nextVars (Heap.read h a) r <;> rfl
  obs := by
    cases fn with
    | none => trivial
    | some f => exact fun _ _ => rfl

theorem newHooks_init (c : EnvCtx K ρ) (fn : Option (List (X K) → List (X K) × Bool)) : (newHooks c fn).NewInit := by
  intro h r x r' hx
  simp only [newHooks] at hx
  cases hc : c.initState r with
  | error y => rw [hc] at hx; cases hx
  | ok y => rw [hc] at hx; cases hx; exact ⟨_, rfl⟩

theorem newHooks_obs (c : EnvCtx K ρ) (fn : Option (List (X K) → List (X K) × Bool)) : (newHooks c fn).NewObs := by
  intro f hf h a
  simp only [newHooks, Option.map_eq_some_iff] at hf
  obtain ⟨g, _, rfl⟩ := hf
  exact ⟨_, rfl⟩

/-- A subclass whose method `observation` returns the state vector it gets. -/
def shareHooks (c : EnvCtx K ρ) : Hooks K ρ := { newHooks c none with obs := some fun _ a => (.old a, false) }

/-- The same for an environment. -/
def shared (e : Env K ρ) : Env K ρ := { e with obsFn := some fun v => (v, false) }

theorem shareHooks_follows (c : EnvCtx K ρ) : Follows c (some fun v => (v, false)) (shareHooks c) where
  init := (newHooks_follows c none).init
  next := (newHooks_follows c none).next
  obs := fun _ _ => rfl

theorem shareHooks_init (c : EnvCtx K ρ) : (shareHooks c).NewInit := newHooks_init c none

end

/-- `next_vars` increments the auxiliary variable found in the state vector. -/
def clockCtx : EnvCtx ℚ ℕ := { envCtx load1 with nextVars := fun v r => .ok ([.fin (-5), .fin 20, v.getLastD 0 + .fin 1], r) }

/-- What an event returned, if it returned. -/
def answer (x : Option (Except PyErr (ℕ × X ℚ × Bool))) : Option (ℕ × X ℚ × Bool) :=
  match x with
  | some (.ok y) => some y
  | _ => none

theorem answer_some {x : Option (Except PyErr (ℕ × X ℚ × Bool))} {y : ℕ × X ℚ × Bool} (h : answer x = some y) : x = some (.ok y) := by
  rcases x with _ | (_ | z)
  · cases h
  · cases h
  · cases h; rfl

/-- The observations of a list of answers. -/
def seen (l : List (Except PyErr (List (X ℚ) × X ℚ × Bool))) : List (Option (X ℚ)) :=
  l.map fun r =>
    match r with
    | .ok x => x.1.getLast?
    | .error _ => none

/-- C123: an observation of an environment of the library is returned, and steps follow. -/
example : ∃ (c : EnvCtx ℚ ℕ) (a : EnvArgs ℚ) (e : Env ℚ ℕ) (k : Hooks ℚ ℕ) (w1 : ArrWorld ℚ ℕ) (x : ℕ × X ℚ × Bool), mkEnv c a = .ok e ∧
    Follows c e.obsFn k ∧ k.NewInit ∧ k.NewObs ∧ (start e).WF ∧ happen c.sim k c.seeded id (.reset (some 0)) (start e) = (some (.ok x), w1) ∧
    seen (playArr c.sim k c.seeded id [.step mildAct, .step mildAct] w1).1 = [some (.fin 1), some (.fin 2)] := by
  obtain ⟨e, h, h1, h2, h3⟩ := exOk (r := mkEnv clockCtx (envArgs .state (99/100)))
    (P := fun e => e.obsFn.isNone = true ∧
      (answer (happen clockCtx.sim (newHooks clockCtx none) clockCtx.seeded id (.reset (some 0)) (start e)).1).isSome = true ∧
      seen (playArr clockCtx.sim (newHooks clockCtx none) clockCtx.seeded id [.step mildAct, .step mildAct]
        (happen clockCtx.sim (newHooks clockCtx none) clockCtx.seeded id (.reset (some 0)) (start e)).2).1 = [some (.fin 1), some (.fin 2)])
    (by decide +kernel)
  obtain ⟨x, hx⟩ := Option.isSome_iff_exists.1 h2
  rw [Option.isNone_iff_eq_none] at h1
  refine ⟨clockCtx, _, e, newHooks clockCtx none, _, x, h, by rw [h1]; exact newHooks_follows _ _, newHooks_init _ _, newHooks_obs _ _,
    fun a ha => (by cases ha), Prod.ext (answer_some hx) rfl, h3⟩

/-- **C123** is false for a subclass whose method `observation` returns the state vector: a step changes the
observation returned before. -/
theorem C123_counterexample : ∃ (c : EnvCtx ℚ ℕ) (a : EnvArgs ℚ) (e : Env ℚ ℕ) (k : Hooks ℚ ℕ) (w1 : ArrWorld ℚ ℕ) (x : ℕ × X ℚ × Bool),
    mkEnv c a = .ok e ∧ Follows c (shared e).obsFn k ∧ k.NewInit ∧
    happen c.sim k c.seeded id (.reset (some 0)) (start (shared e)) = (some (.ok x), w1) ∧
    (w1.heap.read x.1).getLast? = some (.fin 0) ∧
    ((playArr c.sim k c.seeded id [.step mildAct] w1).2.heap.read x.1).getLast? = some (.fin 1) := by
  obtain ⟨e, h, h1, h2⟩ := exOk (r := mkEnv clockCtx (envArgs .state (99/100)))
    (P := fun e =>
      (answer (happen clockCtx.sim (shareHooks clockCtx) clockCtx.seeded id (.reset (some 0)) (start (shared e))).1).isSome = true ∧
      ∀ x ∈ (answer (happen clockCtx.sim (shareHooks clockCtx) clockCtx.seeded id (.reset (some 0)) (start (shared e))).1).toList,
        ((happen clockCtx.sim (shareHooks clockCtx) clockCtx.seeded id (.reset (some 0)) (start (shared e))).2.heap.read x.1).getLast? = some (.fin 0) ∧
        ((playArr clockCtx.sim (shareHooks clockCtx) clockCtx.seeded id [.step mildAct]
          (happen clockCtx.sim (shareHooks clockCtx) clockCtx.seeded id (.reset (some 0)) (start (shared e))).2).2.heap.read x.1).getLast? = some (.fin 1))
    (by decide +kernel)
  obtain ⟨x, hx⟩ := Option.isSome_iff_exists.1 h1
  obtain ⟨h3, h4⟩ := h2 x (by simp [hx])
  exact ⟨clockCtx, _, e, shareHooks clockCtx, _, x, h, shareHooks_follows _, shareHooks_init _, Prod.ext (answer_some hx) rfl, h3, h4⟩

/-- C124: an agent that writes into its observations and its actions. -/
example : ∃ (c : EnvCtx ℚ ℕ) (a : EnvArgs ℚ) (e : Env ℚ ℕ) (k : Hooks ℚ ℕ), mkEnv c a = .ok e ∧
    Follows c e.obsFn k ∧ k.NewInit ∧ k.NewObs ∧
    OwnWrites c.sim k c.seeded id [] [.reset (some 0), .write 2 [], .step mildAct, .write 3 []] (start e) ∧
    seen (playArr c.sim k c.seeded id [.reset (some 0), .write 2 [], .step mildAct, .write 3 []] (start e)).1 = [some (.fin 0), some (.fin 1)] := by
  obtain ⟨e, h, h1, h2, h4, h3⟩ := exOk (r := mkEnv clockCtx (envArgs .state (99/100)))
    (P := fun e => e.obsFn.isNone = true ∧
      (answer (happen clockCtx.sim (newHooks clockCtx none) clockCtx.seeded id (.reset (some 0)) (start e)).1).map Prod.fst = some 2 ∧
      (happen clockCtx.sim (newHooks clockCtx none) clockCtx.seeded id (.write 2 [])
        (happen clockCtx.sim (newHooks clockCtx none) clockCtx.seeded id (.reset (some 0)) (start e)).2).2.heap.length = 3 ∧
      seen (playArr clockCtx.sim (newHooks clockCtx none) clockCtx.seeded id [.reset (some 0), .write 2 [], .step mildAct, .write 3 []] (start e)).1 =
        [some (.fin 0), some (.fin 1)])
    (by decide +kernel)
  obtain ⟨x, hx, hx2⟩ := Option.map_eq_some_iff.1 h2
  rw [Option.isNone_iff_eq_none] at h1
  refine ⟨clockCtx, _, e, newHooks clockCtx none, h, by rw [h1]; exact newHooks_follows _ _, newHooks_init _ _, newHooks_obs _ _, ?_, h3⟩
  refine ⟨by simp, ?_, by simp, ?_, trivial⟩
  · intro a v hav
    cases hav
    rw [answer_some hx]
    simp [known, hx2]
  · intro a v hav
    cases hav
    simp [known, h4]

/-- **C124** is false for a subclass whose method `observation` returns the state vector: an agent that writes into
the observation it has got changes what the environment does. -/
theorem C124_counterexample : ∃ (c : EnvCtx ℚ ℕ) (a : EnvArgs ℚ) (e : Env ℚ ℕ) (k : Hooks ℚ ℕ) (v : List (X ℚ)),
    mkEnv c a = .ok e ∧ Follows c (shared e).obsFn k ∧ k.NewInit ∧
    OwnWrites c.sim k c.seeded id [] [.reset (some 0), .write 1 v, .step mildAct] (start (shared e)) ∧
    seen (playArr c.sim k c.seeded id [.reset (some 0), .write 1 v, .step mildAct] (start (shared e))).1 = [some (.fin 0), some (.fin 8)] ∧
    seen (playArr c.sim k c.seeded id [.reset (some 0), .step mildAct] (start (shared e))).1 = [some (.fin 0), some (.fin 1)] := by
  obtain ⟨e, h, h2, h3, h4⟩ := exOk (r := mkEnv clockCtx (envArgs .state (99/100)))
    (P := fun e =>
      (answer (happen clockCtx.sim (shareHooks clockCtx) clockCtx.seeded id (.reset (some 0)) (start (shared e))).1).map Prod.fst = some 1 ∧
      seen (playArr clockCtx.sim (shareHooks clockCtx) clockCtx.seeded id [.reset (some 0), .write 1 (List.replicate 11 (.fin 7)), .step mildAct]
        (start (shared e))).1 = [some (.fin 0), some (.fin 8)] ∧
      seen (playArr clockCtx.sim (shareHooks clockCtx) clockCtx.seeded id [.reset (some 0), .step mildAct] (start (shared e))).1 =
        [some (.fin 0), some (.fin 1)])
    (by decide +kernel)
  obtain ⟨x, hx, hx2⟩ := Option.map_eq_some_iff.1 h2
  refine ⟨clockCtx, _, e, shareHooks clockCtx, _, h, shareHooks_follows _, shareHooks_init _, ⟨by simp, ?_, by simp, trivial⟩, h3, h4⟩
  intro a v hav
  cases hav
  rw [answer_some hx]
  simp [known, hx2]

end Anm
