import Verif.Model.Simulator

/-! # Model of `gym_anm/envs/anm_env.py` and `gym_anm/envs/utils.py` -/

namespace Anm

/-! ## Observation specifications -/

/-- `STATE_VARIABLES[key]` (`constants.py:31-48`).  The value for `branch_i_magn` is the string `"pu"`
(not a tuple); it is treated separately in `unitOk` and `defaultUnit`. -/
def stateUnits : Key → List QUnit
  | .busP => [.mw, .pu]
  | .busQ => [.mvar, .pu]
  | .busVMagn => [.pu, .kv]
  | .busVAng => [.degree, .rad]
  | .busIMagn => [.pu, .ka]
  | .busIAng => [.degree, .rad]
  | .devP => [.mw, .pu]
  | .devQ => [.mvar, .pu]
  | .desSoc => [.mwh, .pu]
  | .genPMax => [.mw, .pu]
  | .branchP => [.mw, .pu]
  | .branchQ => [.mvar, .pu]
  | .branchS => [.mva, .pu]
  | .branchIMagn => [.pu]
  | .branchIAng => [.degree, .rad]
  | .aux => [.none]
  | .other _ => []

/-- `key in STATE_VARIABLES.keys()`. -/
def knownKey : Key → Bool
  | .other _ => false
  | _ => true

/-- `units in STATE_VARIABLES[key]` (`utils.py:116`).  For `branch_i_magn` it is a substring test on
`"pu"`, which raises `TypeError` for `None`. -/
def unitOk (k : Key) (u : QUnit) : Except PyErr Bool :=
  match k with
  | .branchIMagn =>
    match u with
    | .pu => .ok true
    | .other s => .ok (s = "" || s = "p" || s = "u")
    | .none => .error .typeError
    | _ => .ok false
  | k => .ok ((stateUnits k).contains u)

/-- `STATE_VARIABLES[key][0]` (`anm_env.py:510`): the first unit, or the first character of `"pu"`. -/
def defaultUnit (k : Key) : QUnit :=
  match k with
  | .branchIMagn => .other "p"
  | k => (stateUnits k).headD .none

/-- The second element of an observation tuple: the string `"all"`, a list of IDs, another iterable of
IDs, or something else that cannot be iterated over or whose elements are not IDs. -/
inductive Nodes where
  | all
  | list (l : List Ident)
  | iter (l : List Ident)
  | other

/-- An observation tuple `(key, nodes)` or `(key, nodes, unit)`. -/
structure ObsItem where
  key : Key
  nodes : Nodes
  unit : Option QUnit

/-- An element of an observation list. -/
inductive ObsEntry where
  | item (o : ObsItem)
  /-- a sequence that does not have 2 or 3 elements -/
  | badLength

/-- The `observation` argument of an environment (`anm_env.py:79-93`).  A callable returns a vector, and
whether its type can be cast safely to `float32` (`False` for a `float64` array). -/
inductive ObsArg (K : Type) where
  | state
  | list (l : List ObsEntry)
  | callable (f : List (X K) → List (X K) × Bool)
  | other

/-- `for a in l: f(a)`. -/
def forE {α : Type} (f : α → Except PyErr Unit) : List α → Except PyErr Unit
  | [] => .ok ()
  | a :: l => do
    f a
    forE f l

section
variable {K : Type} [Field K] [LinearOrder K]

/-- The check of an auxiliary variable index (`utils.py:100-103`). -/
def checkAux (k : ℤ) : Ident → Except PyErr Unit
  | .node i => guardE (i < k) .obsSpaceError
  | .br _ _ => .error .typeError

/-- The check of the nodes of an item (`utils.py:96-111`). -/
def checkNodes (sb : StateBounds K) (k : ℤ) (o : ObsItem) : Except PyErr Unit :=
  match o.nodes with
  | .all => .ok ()                                                          -- :98-99
  | .list l =>
    if o.key = .aux then forE (checkAux k) l                                -- :100-103
    else do
      let d ← sb.getE o.key
      forE (fun i => guardE (i ∈ d.keys) .obsSpaceError) l                  -- :104-109
  | .iter l =>
    if o.key = .aux then forE (checkAux k) l else .error .obsSpaceError     -- :110-111
  | .other => if o.key = .aux then .error .typeError else .error .obsSpaceError

/-- The check of the unit of an item (`utils.py:113-117`). -/
def checkUnit (o : ObsItem) : Except PyErr Unit :=
  match o.unit with
  | none => .ok ()
  | some u => do
    let b ← unitOk o.key u
    guardE (b = true) .unitsNotSupported

/-- The body of the loop of `_check_observation_vars` (`utils.py:87-117`). -/
def checkEntry (sb : StateBounds K) (k : ℤ) : ObsEntry → Except PyErr Unit
  | .badLength => .error .obsSpaceError                                     -- :88-89
  | .item o => do
    guardE (knownKey o.key = true) .obsNotSupported                         -- :92-94
    checkNodes sb k o
    checkUnit o

/-- The check of the observation argument (`utils.py:49-60`). -/
def checkObs (sb : StateBounds K) (k : ℤ) : ObsArg K → Except PyErr Unit
  | .state => .ok ()
  | .list l => forE (checkEntry sb k) l
  | .callable _ => .ok ()
  | .other => .error .argsError

/-- The check of `aux_bounds` (`utils.py:62-68`). -/
def checkAuxBounds (k : ℤ) (aux : Option (List (X K × X K))) : Except PyErr Unit :=
  match aux with
  | none => .ok ()
  | some l => guardE ((l.length : ℤ) = k) .argsError

/-- `check_env_args` (`utils.py:7-68`). -/
def checkEnvArgs (k : ℤ) (dt lamb gamma : X K) (obs : ObsArg K) (aux : Option (List (X K × X K)))
    (sb : StateBounds K) : Except PyErr Unit := do
  guardE (¬ k < 0) .argsError                                               -- :40-41
  guardE (¬ dt ≤ 0) .argsError                                              -- :42-43
  guardE (¬ lamb < 0) .argsError                                            -- :44-45
  guardE (¬ (gamma < 0 ∨ .fin 1 < gamma)) .argsError                        -- :46-47
  checkObs sb k obs
  checkAuxBounds k aux

/-! ## Spaces -/

/-- A `gymnasium.spaces.Box`: bounds, and whether its type is `float32` (otherwise `float64`). -/
structure Box (K : Type) where
  low : List (X K)
  high : List (X K)
  f32 : Bool := false

/-- `Box.contains` for a vector of floats; `narrow` says whether the type of the vector can be cast
safely to `float32`. -/
def Box.contains (b : Box K) (x : List (X K)) (narrow : Bool := false) : Prop :=
  (b.f32 = true → narrow = true) ∧ x.length = b.low.length ∧
    List.Forall₂ (fun l x => l ≤ x) b.low x ∧ List.Forall₂ (fun h x => x ≤ h) b.high x

instance decForall₂ {α β : Type} (R : α → β → Prop) [h : ∀ a b, Decidable (R a b)] :
    ∀ l m, Decidable (List.Forall₂ R l m)
  | [], [] => isTrue .nil
  | [], _ :: _ => isFalse (by intro h; cases h)
  | _ :: _, [] => isFalse (by intro h; cases h)
  | a :: l, b :: m =>
    match h a b, decForall₂ R l m with
    | isTrue p, isTrue q => isTrue (.cons p q)
    | isFalse p, _ => isFalse (by intro h; cases h; exact p ‹_›)
    | _, isFalse q => isFalse (by intro h; cases h; exact q ‹_›)

instance (b : Box K) (x : List (X K)) (n : Bool) : Decidable (b.contains x n) := by
  unfold Box.contains; infer_instance

/-! ## Environments -/

/-- A resolved observation item: variable, IDs, unit. -/
abbrev Reading := Key × List Ident × QUnit

/-- External code and user hooks used by an environment.  `ρ` is the state of the random number
generator. -/
structure EnvCtx (K ρ : Type) where
  sim : Ctx K
  /-- The checks made by the constructor of `spaces.Box`. -/
  box : List (X K) → List (X K) → Except PyErr Unit
  /-- A generator seeded with a number (`gym.Env.reset(seed=...)`). -/
  seeded : ℤ → ρ
  /-- An unseeded generator. -/
  fresh : ρ
  /-- The `init_state` hook (`anm_env.py:158-170`). -/
  initState : ρ → Except PyErr (List (X K) × ρ)
  /-- The `next_vars` hook (`anm_env.py:172-191`). -/
  nextVars : List (X K) → ρ → Except PyErr (List (X K) × ρ)

/-- The attributes that exist only after `reset`. -/
structure EnvDyn (K : Type) where
  terminated : Bool
  timestep : ℕ
  eLoss : X K
  penalty : X K
  state : List (X K)

/-- An `ANMEnv` object.  `obsFn` is the callable that replaces `observation`, if any. -/
structure Env (K ρ : Type) where
  sim : Sim K
  /-- `self.K`. -/
  nAux : ℕ
  gamma : X K
  c1 : X K
  c2 : X K
  auxBounds : Option (List (X K × X K))
  stateValues : List Reading
  stateN : ℕ
  actionSpace : Box K
  obsValues : Option (List Reading)
  obsFn : Option (List (X K) → List (X K) × Bool)
  obsSpace : Option (Box K)
  rng : ρ
  dyn : Option (EnvDyn K) := none

/-- `seq[i]` with a python index: negative indices count from the end. -/
def pyGet {α : Type} (v : List α) (i : ℤ) : Except PyErr α :=
  if 0 ≤ i then
    match v[i.toNat]? with
    | some x => .ok x
    | none => .error .indexError
  else if 0 ≤ i + v.length then
    match v[(i + v.length).toNat]? with
    | some x => .ok x
    | none => .error .indexError
  else .error .indexError

/-- `seq[i] = x` with a python index. -/
def pyPut {α : Type} (v : List α) (i : ℤ) (x : α) : Except PyErr (List α) :=
  let j := if 0 ≤ i then i else i + v.length
  if 0 ≤ j ∧ j < v.length then .ok (v.set j.toNat x) else .error .indexError

/-- The IDs meant by `"all"` (`anm_env.py:527-545`). -/
def idsOf (s : Sim K) (k : ℕ) : Key → Except PyErr (List Ident)
  | .busP | .busQ | .busVMagn | .busVAng | .busIMagn | .busIAng =>
    .ok (s.buses.map fun b => .node b.id)
  | .devP | .devQ => .ok (s.devices.map fun d => .node d.id)
  | .desSoc => .ok ((s.devices.filter Device.isStorage).map fun d => .node d.id)
  | .genPMax => .ok ((s.devices.filter Device.isNonSlackGen).map fun d => .node d.id)
  | .branchP | .branchQ | .branchS | .branchIMagn | .branchIAng =>
    .ok (s.branches.map fun b => .br b.line.fBus b.line.tBus)
  | .aux => .ok ((List.range k).map fun i : ℕ => .node i)
  | .other _ => .error .obsNotSupported

/-- Default unit and expansion of `"all"` for one item (`anm_env.py:506-510`, `:523-549`). -/
def expandItem (s : Sim K) (k : ℕ) (o : ObsItem) : Except PyErr Reading :=
  let u := o.unit.getD (defaultUnit o.key)
  match o.nodes with
  | .all => do
    let ids ← idsOf s k o.key
    pure (o.key, ids, u)
  | .list l => .ok (o.key, l, u)
  | .iter l => .ok (o.key, l, u)
  | .other => .error .typeError

/-- `expandItem` on the elements of an observation list. -/
def expandEntry (s : Sim K) (k : ℕ) : ObsEntry → Except PyErr Reading
  | .item o => expandItem s k o
  | .badLength => .error .indexError

/-- The state variables (`anm_env.py:139-146`). -/
def stateItems : List ObsItem :=
  [⟨.devP, .all, some .mw⟩, ⟨.devQ, .all, some .mvar⟩, ⟨.desSoc, .all, some .mwh⟩,
   ⟨.genPMax, .all, some .mw⟩, ⟨.aux, .all, some .none⟩]

/-- `_build_observation_space` (`anm_env.py:497-521`): the resolved items, or `None` for a callable. -/
def obsValues (s : Sim K) (k : ℕ) (sv : List Reading) : ObsArg K → Except PyErr (Option (List Reading))
  | .state => .ok (some sv)
  | .list l => do
    let r ← mapE (expandEntry s k) l
    pure (some r)
  | .callable _ => .ok none
  | .other => .error .obsSpaceError

/-- The bounds of one observed variable (`anm_env.py:217-229`). -/
def varBounds (sb : StateBounds K) (aux : Option (List (X K × X K))) (key : Key) (u : QUnit)
    (i : Ident) : Except PyErr (X K × X K) :=
  if key = .aux then
    match aux with
    | none => .ok (.ninf, .pinf)
    | some l =>
      match i with
      | .node i => pyGet l i
      | .br _ _ => .error .typeError
  else do
    let d ← sb.getE key
    let e ← d.getE i
    e.getE u

/-- All variables of a list of readings, in order. -/
def flatten (vs : List Reading) : List (Key × QUnit × Ident) :=
  vs.flatMap fun v => v.2.1.map fun i => (v.1, v.2.2, i)

/-- The constructor of `spaces.Box`. -/
def mkBox (box : List (X K) → List (X K) → Except PyErr Unit) (bs : List (X K × X K)) :
    Except PyErr (Box K) := do
  box (bs.map (·.1)) (bs.map (·.2))
  pure { low := bs.map (·.1), high := bs.map (·.2) }

/-- `observation_bounds` (`anm_env.py:193-233`). -/
def observationBounds (box : List (X K) → List (X K) → Except PyErr Unit) (sb : StateBounds K)
    (aux : Option (List (X K × X K))) : Option (List Reading) → Except PyErr (Option (Box K))
  | none => .ok none
  | some vs => do
    let bs ← mapE (fun v => varBounds sb aux v.1 v.2.1 v.2.2) (flatten vs)
    let b ← mkBox box bs
    pure (some b)

/-- `_build_action_space` (`anm_env.py:475-495`): the bounds in the order of the action vector. -/
def actionBounds (s : Sim K) : List (X K × X K) :=
  let (pg, qg, pd, qd) := s.actionSpace
  ((sortDict pg).map (·.2)) ++ ((sortDict qg).map (·.2)) ++ ((sortDict pd).map (·.2)) ++
    ((sortDict qd).map (·.2))

/-- The constructor arguments (`anm_env.py:79`). -/
structure EnvArgs (K : Type) where
  network : Network K
  observation : ObsArg K
  nAux : ℤ
  deltaT : X K
  gamma : X K
  lamb : X K
  auxBounds : Option (List (X K × X K)) := none
  clipping : Option (Option (X K) × Option (X K)) := none
  seed : Option ℤ := none

/-- The callable of an observation argument. -/
def ObsArg.fn : ObsArg K → Option (List (X K) → List (X K) × Bool)
  | .callable f => some f
  | _ => none

/-- `c1` and `c2` (`anm_env.py:123-130`): `None` means infinity. -/
def clipValue (c : Option (X K)) : X K := c.getD .pinf

/-- `ANMEnv.__init__` (`anm_env.py:79-156`). -/
def mkEnv {ρ : Type} [FloorRing K] (c : EnvCtx K ρ) (a : EnvArgs K) : Except PyErr (Env K ρ) := do
  let s ← mkSim a.network a.deltaT a.lamb                                   -- :133
  checkEnvArgs a.nAux a.deltaT a.lamb a.gamma a.observation a.auxBounds (s.stateSpace c.sim.pi) -- :136
  let k := a.nAux.toNat
  let sv ← mapE (expandItem s k) stateItems                                 -- :139-147
  let act ← mkBox c.box (actionBounds s)                                    -- :150
  let ov ← obsValues s k sv a.observation                                   -- :153
  let os ← observationBounds c.box (s.stateSpace c.sim.pi) a.auxBounds ov   -- :154
  pure { sim := s, nAux := k, gamma := a.gamma
         c1 := clipValue (a.clipping.bind (·.1)), c2 := clipValue (a.clipping.bind (·.2))
         auxBounds := a.auxBounds, stateValues := sv, stateN := (sv.map (·.2.1.length)).sum
         actionSpace := act, obsValues := ov, obsFn := a.observation.fn, obsSpace := os
         rng := (a.seed.map c.seeded).getD c.fresh }

namespace Env
variable {ρ : Type}

/-- One variable of `_extract_state_variables` (`anm_env.py:582-590`); `state` is `self.state`. -/
def readVar (full : Option (SimState K)) (state : List (X K)) (k : ℕ) (key : Key) (u : QUnit)
    (i : Ident) : Except PyErr (X K) :=
  match full with
  | none => .error .attributeError
  | some full =>
    match full.get? key with
    | some d => do
      let e ← d.getE u
      e.getE i
    | none =>
      if key = .aux then
        match i with
        | .node i => pyGet state (i - k)
        | .br _ _ => .error .typeError
      else .error .obsNotSupported

/-- `_extract_state_variables` (`anm_env.py:562-592`). -/
def extract (e : Env K ρ) (state : List (X K)) (vs : List Reading) : Except PyErr (List (X K)) :=
  mapE (fun v => readVar e.sim.state state e.nAux v.1 v.2.1 v.2.2) (flatten vs)

/-- `np.clip(obs, low, high)` (`anm_env.py:330`). -/
def clipVec (x low high : List (X K)) : List (X K) :=
  List.zipWith (fun x b => X.clip x b.1 b.2) x (List.zip low high)

/-- `self.observation(self.state)` (`anm_env.py:313-331`, `:515`): the vector, and whether its type can
be cast safely to `float32`. -/
def observe (e : Env K ρ) (state : List (X K)) : Except PyErr (List (X K) × Bool) :=
  match e.obsFn with
  | some f => .ok (f state)
  | none =>
    match e.obsValues, e.obsSpace with
    | some vs, some b => do
      let x ← e.extract state vs
      pure (clipVec x b.low b.high, false)
    | _, _ => .error .attributeError

/-- The size of the initial state vector (`anm_env.py:274`). -/
def initSize (e : Env K ρ) : ℕ := 2 * e.sim.nDevice + e.sim.nDes + e.sim.nNonSlackGen + e.nAux

/-- The search for an initial state (`anm_env.py:266-289`).  `n` is the number of attempts made so far;
at the hundredth attempt the message of the exception is formatted with `self.__name__`, which does not
exist (`AttributeError`), whether or not the power flow converged. -/
def search (c : EnvCtx K ρ) (size : ℕ) : ℕ → Sim K → ρ → Except PyErr (Sim K × List (X K) × ρ)
  | 0, _, _ => .error .attributeError
  | left + 1, s, r => do
    let (v, r) ← c.initState r                                              -- :271
    guardE (v.length = size) .envInit                                       -- :274-277
    let (s, ok) ← s.reset c.sim v                                           -- :282
    if left = 0 then .error .attributeError                                 -- :284-289
    else if ok then pure (s, v, r) else search c size left s r

/-- The observation space after the first observation (`anm_env.py:298-300`): for a callable it is set
to an unbounded `float32` box of the size of the observation. -/
def fixSpace (b : Option (Box K)) (n : ℕ) : Box K :=
  match b with
  | some b => b
  | none => { low := List.replicate n .ninf, high := List.replicate n .pinf, f32 := true }

/-- `reset` (`anm_env.py:235-311`): the environment and the observation. -/
def reset (c : EnvCtx K ρ) (e : Env K ρ) (seed : Option ℤ) : Except PyErr (Env K ρ × List (X K)) := do
  let r := (seed.map c.seeded).getD e.rng                                   -- :257
  let (s, v, r) ← search c e.initSize 100 e.sim r                           -- :266-289
  let e := { e with sim := s, rng := r }
  let st ← e.extract v e.stateValues                                        -- :292
  let (obs, narrow) ← e.observe st                                          -- :295
  let b := fixSpace e.obsSpace obs.length                                   -- :298-300
  guardE (b.contains obs narrow) .assertionError                            -- :302-303
  pure ({ e with obsSpace := some b
                 dyn := some { terminated := false, timestep := 0, eLoss := 0, penalty := 0, state := st } },
        obs)

/-- What `step` returns (`truncated` is always `False`, `info` is empty). -/
structure StepOut (K : Type) where
  obs : List (X K)
  reward : X K
  terminated : Bool

/-- The dictionaries of loads and potentials (`anm_env.py:382-391`), by recursion over the devices. -/
def varDicts (pLoad pPot : List (X K)) : List (Device K) → ℕ → ℕ → Dict ℤ (X K) × Dict ℤ (X K) →
    Except PyErr (Dict ℤ (X K) × Dict ℤ (X K))
  | [], _, _, a => .ok a
  | d :: ds, l, g, a =>
    if d.isLoad then do
      let x ← Sim.idx pLoad l
      varDicts pLoad pPot ds (l + 1) g (a.1.set d.id x, a.2)
    else if d.isNonSlackGen then do
      let x ← Sim.idx pPot g
      varDicts pLoad pPot ds l (g + 1) (a.1, a.2.set d.id x)
    else varDicts pLoad pPot ds l g a

/-- `for a, dev_id in zip(values, ids): d[dev_id] = a`. -/
def assign (d : Dict ℤ (X K)) (values : List (X K)) (ids : List ℤ) : Dict ℤ (X K) :=
  (List.zip values ids).foldl (fun d p => d.set p.2 p.1) d

/-- The set-points encoded in an action (`anm_env.py:394-410`). -/
def decode (s : Sim K) (a : List (X K)) : Dict ℤ (X K) × Dict ℤ (X K) :=
  let gen := (s.devices.filter Device.isNonSlackGen).map Device.id
  let des := (s.devices.filter Device.isStorage).map Device.id
  let g := gen.length
  let n := des.length
  (assign (assign [] (Sim.slice a 0 g) gen) (Sim.slice a (2 * g) (2 * g + n)) des,
   assign (assign [] (Sim.slice a g (2 * g)) gen) (a.drop (2 * g + n)) des)

/-- The clipped costs and the reward (`anm_env.py:424-432`): `(reward, e_loss, penalty)`. -/
def rewardOf (e : Env K ρ) (converged : Bool) (eLoss penalty : X K) : Except PyErr (X K × X K × X K) :=
  if converged then
    let el := X.sign eLoss * X.clip (X.abs eLoss) 0 e.c1                    -- :425
    let p := X.clip penalty 0 e.c2                                          -- :426
    .ok (-(el + p), el, p)                                                  -- :427
  else do
    let r ← X.pyDiv (-e.c2) (.fin 1 - e.gamma)                              -- :430
    pure (r, e.c1, e.c2)                                                    -- :431-432

/-- `for k in range(K): state[k - K] = aux[k]` (`anm_env.py:436-437`). -/
def setAux (aux : List (X K)) (k : ℕ) : ℕ → List (X K) → Except PyErr (List (X K))
  | 0, st => .ok st
  | n + 1, st => do
    let st ← setAux aux k n st
    let x ← Sim.idx aux n
    pyPut st ((n : ℤ) - k) x

/-- The state and observation after a non-terminal transition (`anm_env.py:435-442`). -/
def observeStep (e : Env K ρ) (state aux : List (X K)) : Except PyErr (List (X K) × List (X K)) := do
  let st ← setAux aux e.nAux e.nAux state
  let st ← e.extract st e.stateValues
  let (obs, narrow) ← e.observe st
  match e.obsSpace with
  | none => .error .attributeError
  | some b => do
    guardE (b.contains obs narrow) .assertionError
    pure (st, obs)

/-- `_terminal_state` (`anm_env.py:594-608`). -/
def zeros (n : ℕ) : List (X K) := List.replicate n 0

/-- `observation_N`. -/
def obsN (e : Env K ρ) : ℕ := (e.obsSpace.map fun b => b.low.length).getD 0

/-- The vectors after a transition (`anm_env.py:434-448`). -/
def vectors (e : Env K ρ) (converged : Bool) (state aux : List (X K)) :
    Except PyErr (List (X K) × List (X K)) :=
  if converged then e.observeStep state aux else .ok (zeros e.stateN, zeros e.obsN)

/-- A step from a non-terminal state (`anm_env.py:369-453`). -/
def advance (c : EnvCtx K ρ) (e : Env K ρ) (y : EnvDyn K) (action : List (X K)) :
    Except PyErr (Env K ρ × StepOut K) := do
  let (vars, r) ← c.nextVars y.state e.rng                                  -- :370
  let nl := e.sim.nLoad
  let ng := e.sim.nNonSlackGen
  guardE (vars.length = nl + ng + e.nAux) .envNextVars                      -- :371-374
  let aux := vars.drop (nl + ng)                                            -- :378
  let (pl, pp) ← varDicts (vars.take nl) (Sim.slice vars nl (nl + ng)) e.sim.devices 0 0 ([], [])
  let (ps, qs) := decode e.sim action
  let (s, o) ← e.sim.transition c.sim { pLoad := pl, pPot := pp, pSet := ps, qSet := qs } -- :415
  let e := { e with sim := s, rng := r }
  let (rw, el, p) ← e.rewardOf o.converged o.eLoss o.penalty
  let (st, obs) ← e.vectors o.converged y.state aux
  pure ({ e with dyn := some { terminated := !o.converged, timestep := y.timestep + 1, eLoss := el,
                               penalty := p, state := st } },
        { obs, reward := rw, terminated := !o.converged })

/-- `step` (`anm_env.py:333-453`). -/
def step (c : EnvCtx K ρ) (e : Env K ρ) (action : List (X K)) : Except PyErr (Env K ρ × StepOut K) := do
  guardE (e.actionSpace.contains action true) .assertionError               -- :356-357
  match e.dyn with
  | none => .error .attributeError
  | some y =>
    if y.terminated then .ok (e, { obs := zeros e.obsN, reward := 0, terminated := true }) -- :365-367
    else e.advance c y action

end Env
end

end Anm
