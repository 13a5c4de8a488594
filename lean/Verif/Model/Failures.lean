import Verif.Model.Env

/-!
# What an exception leaves behind

The functions of `Model/Simulator.lean` and `Model/Env.lean` return the updated object, or an exception.
Python objects are changed in place, and the changes made before an exception stay.  This module describes
`transition`, `reset` and `step` again, as sequences of changes of an object; `Props/Failures.lean` proves that
calls that return do what the functions say.
-/

namespace Anm

/-- A method: it returns or raises, and leaves the object it was called on in some state. -/
def Py (σ α : Type) := σ → Except PyErr α × σ

namespace Py
variable {σ α β : Type}

instance : Monad (Py σ) where
  pure a := fun s => (.ok a, s)
  bind m k := fun s =>
    match m s with
    | (.ok a, s') => k a s'
    | (.error x, s') => (.error x, s')

/-- Read the object. -/
def get : Py σ σ := fun s => (.ok s, s)

/-- Change the object. -/
def modify (f : σ → σ) : Py σ Unit := fun s => (.ok (), f s)

/-- A computation that does not change the object. -/
def lift (x : Except PyErr α) : Py σ α := fun s => (x, s)

end Py

/-- A loop that changes the elements of a list in turn; an exception leaves the remaining ones alone. -/
def eachPy {α : Type} (f : Py α Unit) : List α → Except PyErr Unit × List α
  | [] => (.ok (), [])
  | d :: ds =>
    match f d with
    | (.ok _, d') => ((eachPy f ds).1, d' :: (eachPy f ds).2)
    | (.error x, d') => (.error x, d' :: ds)

section
variable {K : Type} [Field K] [LinearOrder K]

/-- A method of a device whose result is assigned at the end: an exception leaves the device alone
(`map_pq` assigns `p` and `q` after solving, `devices.py:299-304`, `:517-522`). -/
def atEnd {α : Type} (f : α → Except PyErr α) : Py α Unit := fun d =>
  match f d with
  | .ok d' => (.ok (), d')
  | .error x => (.error x, d)

namespace Sim

/-- One pass of the device loop of `transition` (`simulator.py:503-523`). -/
def devicePy (qp : QP K) (baseMVA dt : X K) (a : Args K) : Py (Device K) Unit := do
  let d ← Py.get
  if d.isLoad then do                                                       -- :506-507
    let x ← Py.lift (a.pLoad.getE d.id)
    Py.modify fun d => d.mapLoad (x / baseMVA)
  else if d.isNonSlackGen then do                                           -- :510-512
    let pot ← Py.lift (a.pPot.getE d.id)
    Py.modify fun d => d.setPPot (X.clip (pot / baseMVA) d.pMin d.pMax)
    let p ← Py.lift (a.pSet.getE d.id)
    let q ← Py.lift (a.qSet.getE d.id)
    atEnd fun d => d.mapGen qp (p / baseMVA) (q / baseMVA)
  else if d.isStorage then do                                               -- :516-518
    let p ← Py.lift (a.pSet.getE d.id)
    let q ← Py.lift (a.qSet.getE d.id)
    atEnd fun d => d.mapStorage qp (p / baseMVA) (q / baseMVA) dt
    atEnd fun d => d.updateSoc dt
  else if d.isSlack then Py.modify fun d => { d with p := 0, q := 0 }       -- :521-523
  else pure ()

/-- A loop over `self.devices`. -/
def eachDevice (f : Py (Device K) Unit) : Py (Sim K) Unit := fun s =>
  ((eachPy f s.devices).1, { s with devices := (eachPy f s.devices).2 })

/-- The updates of `solve_pfe_newton_raphson` (`solve_load_flow.py:57-79`). -/
def applyPy (o : PFOut K) : Py (Sim K) Unit := do
  Py.modify fun s => { s with buses := s.buses.mapIdx fun k b =>            -- :58-66
    { b with
      v := o.v k, i := o.i k
      p := if b.isSlack then nanToInf o.slackP else b.p
      q := if b.isSlack then nanToInf o.slackQ else b.q } }
  let s ← Py.get
  eachDevice (atEnd fun d : Device K =>                                     -- :69-72
    if d.isSlack then
      match s.buses.find? (fun b => b.id = d.busId) with
      | some b => .ok { d with p := b.p, q := b.q }
      | none => .error .keyError
    else .ok d)
  Py.modify fun s => { s with branches := s.branches.mapIdx fun k b => { b with flow := o.flow k } }  -- :75-79

/-- `transition` (`simulator.py:464-537`).  The power flow changes nothing before its result is known
(`solve_load_flow.py:30-55`). -/
def transitionPy (c : Ctx K) (a : Args K) : Py (Sim K) (TransOut K) := do
  let s ← Py.get
  eachDevice (devicePy c.qp s.baseMVA s.deltaT a)                           -- :503-523
  Py.modify fun s => { s with buses := s.buses.map (busInjections s.devices) } -- :526
  let s ← Py.get
  let o ← Py.lift (c.pf s.pfIn)                                             -- :529
  applyPy o
  Py.modify fun s => { s with pfeConverged := some o.stable }
  let s ← Py.get
  let st ← Py.lift (s.gatherState c.pi)                                     -- :532
  Py.modify fun s => { s with state := some st }
  let s ← Py.get
  let r ← Py.lift s.computeReward                                           -- :535
  pure { reward := r.1, eLoss := r.2.1, penalty := r.2.2, converged := o.stable }

/-- Step 4 of `reset` (`simulator.py:284-288`). -/
def assignPy (baseMVA : X K) (soc : List (X K)) : List (Device K) → ℕ → Except PyErr Unit × List (Device K)
  | [], _ => (.ok (), [])
  | d :: ds, k =>
    if d.isStorage then
      match idx soc k with
      | .ok x =>
        ((assignPy baseMVA soc ds (k + 1)).1, { d with soc := some (x / baseMVA) } :: (assignPy baseMVA soc ds (k + 1)).2)
      | .error x => (.error x, d :: ds)
    else ((assignPy baseMVA soc ds k).1, d :: (assignPy baseMVA soc ds k).2)

/-- Step 4 of `reset`, on the simulator. -/
def assignAll (soc : List (X K)) : Py (Sim K) Unit := fun s =>
  ((assignPy s.baseMVA soc s.devices 0).1, { s with devices := (assignPy s.baseMVA soc s.devices 0).2 })

/-- `reset` (`simulator.py:225-293`). -/
def resetPy (c : Ctx K) (init : List (X K)) : Py (Sim K) Bool := do
  Py.modify fun s => { s with state := none }                               -- :245
  let s ← Py.get
  let n := s.nDevice
  let pDev := slice init 0 n
  let qDev := slice init n (2 * n)
  let soc := slice init (2 * n) (2 * n + s.nDes)
  let pMax := slice init (2 * n + s.nDes) (2 * n + s.nDes + s.nNonSlackGen)
  let a ← Py.lift (resetArgs pDev qDev pMax s.devices 0 0 { pLoad := [], pPot := [], pSet := [], qSet := [] })
  eachDevice (atEnd (resetSoc a.pSet))                                      -- :273-278
  let o ← transitionPy c a                                                  -- :281
  assignAll soc                                                             -- :284-288
  let s ← Py.get
  let st ← Py.lift (s.gatherState c.pi)                                     -- :291
  Py.modify fun s => { s with state := some st }
  pure o.converged

end Sim

/-- The attributes that `ANMEnv.reset` creates first (`anm_env.py:259-263`). -/
structure Flags (K : Type) where
  terminated : Bool
  timestep : ℕ
  eLoss : X K
  penalty : X K

/-- An `ANMEnv` object.  `env` holds the attributes made by the constructor (its `dyn` is not used), `flags`
and `state` those that do not exist before the first call of `reset`. -/
structure Obj (K ρ : Type) where
  env : Env K ρ
  flags : Option (Flags K)
  state : Option (List (X K))

namespace Obj
variable {ρ : Type}

/-- A method of the simulator of the environment. -/
def onSim {α : Type} (m : Py (Sim K) α) : Py (Obj K ρ) α := fun o =>
  ((m o.env.sim).1, { o with env := { o.env with sim := (m o.env.sim).2 } })

/-- A hook of the user; `spoil` is what it leaves of the random number generator if it raises. -/
def hook {α : Type} (spoil : ρ → ρ) (f : ρ → Except PyErr (α × ρ)) : Py (Obj K ρ) α := fun o =>
  match f o.env.rng with
  | .ok (a, r) => (.ok a, { o with env := { o.env with rng := r } })
  | .error x => (.error x, { o with env := { o.env with rng := spoil o.env.rng } })

/-- The search for an initial state (`anm_env.py:266-289`); see `Env.search`. -/
def searchPy (c : EnvCtx K ρ) (spoil : ρ → ρ) (size : ℕ) : ℕ → Py (Obj K ρ) (List (X K))
  | 0 => Py.lift (.error .attributeError)
  | left + 1 => do
    let v ← hook spoil c.initState                                          -- :271
    Py.modify fun o => { o with state := some v }
    Py.lift (guardE (v.length = size) .envInit)                             -- :274-277
    let ok ← onSim (Sim.resetPy c.sim v)                                    -- :282
    if left = 0 then Py.lift (.error .attributeError)                       -- :284-289
    else if ok then pure v else searchPy c spoil size left

/-- `reset` (`anm_env.py:235-311`). -/
def resetPy (c : EnvCtx K ρ) (spoil : ρ → ρ) (seed : Option ℤ) : Py (Obj K ρ) (List (X K)) := do
  Py.modify fun o => { o with env := { o.env with rng := (seed.map c.seeded).getD o.env.rng } } -- :257
  Py.modify fun o => { o with flags := some { terminated := false, timestep := 0, eLoss := 0, penalty := 0 } }
  let o ← Py.get
  let v ← searchPy c spoil o.env.initSize 100                               -- :266-289
  let o ← Py.get
  let st ← Py.lift (o.env.extract v o.env.stateValues)                      -- :292
  Py.modify fun o => { o with state := some st }
  let obs ← Py.lift (o.env.observe st)                                      -- :295
  let b := Env.fixSpace o.env.obsSpace obs.1.length
  Py.modify fun o => { o with env := { o.env with obsSpace := some b } }    -- :298-300
  Py.lift (guardE (b.contains obs.1 obs.2) .assertionError)                 -- :302-303
  pure obs.1

/-- `for k in range(K): self.state[k - K] = aux[k]` (`anm_env.py:436-437`), in place. -/
def setAuxPy (aux : List (X K)) (k : ℕ) : ℕ → Py (Obj K ρ) Unit
  | 0 => pure ()
  | n + 1 => do
    setAuxPy aux k n
    let x ← Py.lift (Sim.idx aux n)
    let o ← Py.get
    let st ← Py.lift (pyPut (o.state.getD []) ((n : ℤ) - k) x)
    Py.modify fun o => { o with state := some st }

/-- Assign to the flags. -/
def setFlags (f : Flags K → Flags K) : Py (Obj K ρ) Unit := Py.modify fun o => { o with flags := o.flags.map f }

/-- State and observation after a transition that converged (`anm_env.py:435-442`). -/
def observePy (aux : List (X K)) : Py (Obj K ρ) (List (X K)) := do
  let o ← Py.get
  setAuxPy aux o.env.nAux o.env.nAux
  let o ← Py.get
  let st ← Py.lift (o.env.extract (o.state.getD []) o.env.stateValues)
  Py.modify fun o => { o with state := some st }
  let obs ← Py.lift (o.env.observe st)
  match o.env.obsSpace with
  | none => Py.lift (.error .attributeError)
  | some b => do
    Py.lift (guardE (b.contains obs.1 obs.2) .assertionError)
    pure obs.1

/-- `step` from a non-terminal state (`anm_env.py:369-453`). -/
def advancePy (c : EnvCtx K ρ) (spoil : ρ → ρ) (state action : List (X K)) : Py (Obj K ρ) (Env.StepOut K) := do
  let vars ← hook spoil (c.nextVars state)                                  -- :370
  let o ← Py.get
  let nl := o.env.sim.nLoad
  let ng := o.env.sim.nNonSlackGen
  Py.lift (guardE (vars.length = nl + ng + o.env.nAux) .envNextVars)        -- :371-374
  let aux := vars.drop (nl + ng)
  let d ← Py.lift (Env.varDicts (vars.take nl) (Sim.slice vars nl (nl + ng)) o.env.sim.devices 0 0 ([], []))
  let t ← onSim (Sim.transitionPy c.sim { pLoad := d.1, pPot := d.2, pSet := (Env.decode o.env.sim action).1, qSet := (Env.decode o.env.sim action).2 })
  setFlags fun f => { f with terminated := !t.converged }                   -- :421
  let r ← Py.lift (o.env.rewardOf t.converged t.eLoss t.penalty)            -- :424-432
  setFlags fun f => { f with eLoss := r.2.1, penalty := r.2.2 }
  let obs ← if t.converged then observePy aux                               -- :435-442
    else do
      Py.modify fun o => { o with state := some (Env.zeros o.env.stateN) }  -- :446-448
      pure (Env.zeros o.env.obsN)
  setFlags fun f => { f with timestep := f.timestep + 1 }                   -- :451
  pure { obs, reward := r.1, terminated := !t.converged }

/-- `step` (`anm_env.py:333-453`). -/
def stepPy (c : EnvCtx K ρ) (spoil : ρ → ρ) (action : List (X K)) : Py (Obj K ρ) (Env.StepOut K) := do
  let o ← Py.get
  Py.lift (guardE (o.env.actionSpace.contains action true) .assertionError) -- :356-357
  match o.flags with
  | none => Py.lift (.error .attributeError)
  | some f =>
    if f.terminated then pure { obs := Env.zeros o.env.obsN, reward := 0, terminated := true } -- :365-367
    else
      match o.state with
      | none => Py.lift (.error .attributeError)
      | some st => advancePy c spoil st action

/-- The object of an environment of `Model/Env.lean`. -/
def ofEnv (e : Env K ρ) : Obj K ρ where
  env := { e with dyn := none }
  flags := e.dyn.map fun y => { terminated := y.terminated, timestep := y.timestep, eLoss := y.eLoss, penalty := y.penalty }
  state := e.dyn.map EnvDyn.state

end Obj
end

end Anm
