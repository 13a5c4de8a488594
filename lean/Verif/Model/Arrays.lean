import Verif.Model.Failures

/-!
# The arrays of an environment

`Model/Env.lean` describes vectors by their values.  In python they are numpy arrays, which can be shared: `step`
writes into the array `self.state` (`anm_env.py:436-437`), which the hooks of the user have received before.  This
module describes `reset` and `step` again, on arrays that have an identity; `Props/Arrays.lean` proves that
they compute the values of `Model/Failures.lean`.
-/

namespace Anm

section
variable {K : Type} [Field K] [LinearOrder K]

/-- All arrays made so far; an array is denoted by its position. -/
abbrev Heap (K : Type) := List (List (X K))

/-- The contents of an array. -/
def Heap.read (h : Heap K) (a : ℕ) : List (X K) := h.getD a []

/-- What a function of the user returns: a new array, or one that exists already. -/
inductive Ret (K : Type) where
  | new (v : List (X K))
  | old (a : ℕ)

/-- The contents of what a function returns. -/
def Ret.val (h : Heap K) : Ret K → List (X K)
  | .new v => v
  | .old a => h.read a

/-- The functions of the user.  They see all arrays and do not write into them. -/
structure Hooks (K ρ : Type) where
  /-- `init_state` (`anm_env.py:158-170`). -/
  init : Heap K → ρ → Except PyErr (Ret K × ρ)
  /-- `next_vars` (`anm_env.py:172-191`), called with `self.state`. -/
  next : Heap K → ℕ → ρ → Except PyErr (Ret K × ρ)
  /-- The `observation` function, called with `self.state`, if it is not the one of `ANMEnv`: a callable passed
  to the constructor (`anm_env.py:513-515`) or a method of a subclass (`anm_env.py:317`). -/
  obs : Option (Heap K → ℕ → Ret K × Bool)

/-- An `ANMEnv` object and the arrays.  `env` holds the attributes made by the constructor (its `dyn` is not
used), `loc` is the array `self.state`. -/
structure ArrWorld (K ρ : Type) where
  heap : Heap K
  env : Env K ρ
  flags : Option (Flags K)
  loc : Option ℕ

namespace ArrWorld
variable {ρ : Type}

/-- `np.array(v)`: a new array. -/
def alloc (v : List (X K)) : Py (ArrWorld K ρ) ℕ := fun w =>
  (.ok w.heap.length, { w with heap := w.heap ++ [v] })

/-- The array returned by a function of the user. -/
def place : Ret K → Py (ArrWorld K ρ) ℕ
  | .new v => alloc v
  | .old a => fun w => if a < w.heap.length then (.ok a, w) else alloc [] w

/-- The contents of an array. -/
def read (a : ℕ) : Py (ArrWorld K ρ) (List (X K)) := fun w => (.ok (w.heap.read a), w)

/-- `self.state = a`. -/
def setLoc (a : ℕ) : Py (ArrWorld K ρ) Unit := Py.modify fun w => { w with loc := some a }

/-- A method of the simulator of the environment. -/
def onSim {α : Type} (m : Py (Sim K) α) : Py (ArrWorld K ρ) α := fun w =>
  ((m w.env.sim).1, { w with env := { w.env with sim := (m w.env.sim).2 } })

/-- A hook of the user; `spoil` is what it leaves of the random number generator if it raises. -/
def hook (spoil : ρ → ρ) (f : Heap K → ρ → Except PyErr (Ret K × ρ)) : Py (ArrWorld K ρ) ℕ := fun w =>
  match f w.heap w.env.rng with
  | .ok (x, r) => place x { w with env := { w.env with rng := r } }
  | .error x => (.error x, { w with env := { w.env with rng := spoil w.env.rng } })

/-- The search for an initial state (`anm_env.py:266-289`): the array `self.state`. -/
def search (c : Ctx K) (k : Hooks K ρ) (spoil : ρ → ρ) (size : ℕ) : ℕ → Py (ArrWorld K ρ) ℕ
  | 0 => Py.lift (.error .attributeError)
  | left + 1 => do
    let a ← hook spoil k.init                                               -- :271
    setLoc a
    let v ← read a
    Py.lift (guardE (v.length = size) .envInit)                             -- :274-277
    let ok ← onSim (Sim.resetPy c v)                                        -- :282
    if left = 0 then Py.lift (.error .attributeError)                       -- :284-289
    else if ok then pure a else search c k spoil size left

/-- `self.state = self._construct_state()` (`anm_env.py:292`, `:438`): the new array. -/
def construct (a : ℕ) : Py (ArrWorld K ρ) ℕ := do
  let v ← read a
  let w ← Py.get
  let st ← Py.lift (w.env.extract v w.env.stateValues)
  let a ← alloc st
  setLoc a
  pure a

/-- `self.observation(self.state)`: the array, and whether its type can be cast safely to `float32`.  The method of
`ANMEnv` makes a new array (`anm_env.py:329-331`: `np.array`, `np.clip`). -/
def observation (k : Hooks K ρ) (a : ℕ) : Py (ArrWorld K ρ) (ℕ × Bool) := do
  let w ← Py.get
  match k.obs with
  | some f => do
    let o ← place (f w.heap a).1
    pure (o, (f w.heap a).2)
  | none => do
    let v ← read a
    let x ← Py.lift (w.env.observe v)
    let o ← alloc x.1
    pure (o, x.2)

/-- `reset` (`anm_env.py:235-311`): the array of the observation. -/
def reset (c : Ctx K) (k : Hooks K ρ) (seeded : ℤ → ρ) (spoil : ρ → ρ) (seed : Option ℤ) : Py (ArrWorld K ρ) ℕ := do
  Py.modify fun w => { w with env := { w.env with rng := (seed.map seeded).getD w.env.rng } } -- :257
  Py.modify fun w => { w with flags := some { terminated := false, timestep := 0, eLoss := 0, penalty := 0 } }
  let w ← Py.get
  let a ← search c k spoil w.env.initSize 100                               -- :266-289
  let a ← construct a                                                       -- :292
  let o ← observation k a                                                   -- :295
  let x ← read o.1
  let w ← Py.get
  let b := Env.fixSpace w.env.obsSpace x.length
  Py.modify fun w => { w with env := { w.env with obsSpace := some b } }    -- :298-300
  Py.lift (guardE (b.contains x o.2) .assertionError)                       -- :302-303
  pure o.1

/-- `for k in range(K): self.state[k - K] = aux[k]` (`anm_env.py:436-437`), in place. -/
def setAux (a : ℕ) (aux : List (X K)) (k : ℕ) : ℕ → Py (ArrWorld K ρ) Unit
  | 0 => pure ()
  | n + 1 => do
    setAux a aux k n
    let x ← Py.lift (Sim.idx aux n)
    let v ← read a
    let st ← Py.lift (pyPut v ((n : ℤ) - k) x)
    Py.modify fun w => { w with heap := w.heap.set a st }

/-- Assign to the flags. -/
def setFlags (f : Flags K → Flags K) : Py (ArrWorld K ρ) Unit := Py.modify fun w => { w with flags := w.flags.map f }

/-- State and observation after a transition that converged (`anm_env.py:435-442`). -/
def observeStep (k : Hooks K ρ) (a : ℕ) (aux : List (X K)) : Py (ArrWorld K ρ) ℕ := do
  let w ← Py.get
  setAux a aux w.env.nAux w.env.nAux
  let a ← construct a
  let o ← observation k a
  let x ← read o.1
  let w ← Py.get
  match w.env.obsSpace with
  | none => Py.lift (.error .attributeError)
  | some b => do
    Py.lift (guardE (b.contains x o.2) .assertionError)
    pure o.1

/-- What `step` returns; the observation is an array. -/
structure Out (K : Type) where
  obs : ℕ
  reward : X K
  terminated : Bool

/-- `step` from a non-terminal state (`anm_env.py:369-453`); `a` is `self.state`. -/
def advance (c : Ctx K) (k : Hooks K ρ) (spoil : ρ → ρ) (a : ℕ) (action : List (X K)) : Py (ArrWorld K ρ) (Out K) := do
  let n ← hook spoil fun h => k.next h a                                    -- :370
  let vars ← read n
  let w ← Py.get
  let nl := w.env.sim.nLoad
  let ng := w.env.sim.nNonSlackGen
  Py.lift (guardE (vars.length = nl + ng + w.env.nAux) .envNextVars)        -- :371-374
  let d ← Py.lift (Env.varDicts (vars.take nl) (Sim.slice vars nl (nl + ng)) w.env.sim.devices 0 0 ([], []))
  let t ← onSim (Sim.transitionPy c { pLoad := d.1, pPot := d.2, pSet := (Env.decode w.env.sim action).1, qSet := (Env.decode w.env.sim action).2 })
  setFlags fun f => { f with terminated := !t.converged }                   -- :421
  let r ← Py.lift (w.env.rewardOf t.converged t.eLoss t.penalty)            -- :424-432
  setFlags fun f => { f with eLoss := r.2.1, penalty := r.2.2 }
  let obs ← if t.converged then do                                          -- :435-442
      let vars ← read n
      observeStep k a (vars.drop (nl + ng))
    else do
      let w ← Py.get
      let z ← alloc (Env.zeros w.env.stateN)                                -- :446-448
      setLoc z
      alloc (Env.zeros w.env.obsN)
  setFlags fun f => { f with timestep := f.timestep + 1 }                   -- :451
  pure { obs, reward := r.1, terminated := !t.converged }

/-- `step` (`anm_env.py:333-453`), called with an array. -/
def step (c : Ctx K) (k : Hooks K ρ) (spoil : ρ → ρ) (act : ℕ) : Py (ArrWorld K ρ) (Out K) := do
  let action ← read act
  let w ← Py.get
  Py.lift (guardE (w.env.actionSpace.contains action true) .assertionError) -- :356-357
  match w.flags with
  | none => Py.lift (.error .attributeError)
  | some f =>
    if f.terminated then do                                                 -- :365-367
      let z ← alloc (Env.zeros w.env.obsN)
      pure { obs := z, reward := 0, terminated := true }
    else
      match w.loc with
      | none => Py.lift (.error .attributeError)
      | some a => advance c k spoil a action

end ArrWorld
end

end Anm
