import Mathlib.Data.List.Sort
import Verif.Model.CheckNetwork

/-! # Model of `gym_anm/simulator/simulator.py` -/

namespace Anm

/-- Names of the state variables (keys of `STATE_VARIABLES`, `constants.py:31-48`). -/
inductive Key where
  | busP | busQ | busVMagn | busVAng | busIMagn | busIAng
  | devP | devQ | desSoc | genPMax
  | branchP | branchQ | branchS | branchIMagn | branchIAng
  | aux
  | other (s : String)
deriving DecidableEq

/-- Units (`constants.py:31-48`); `other` stands for any other python string, `none` for `None`. -/
inductive QUnit where
  | mw | mvar | mva | mwh | pu | kv | ka | degree | rad | none
  | other (s : String)
deriving DecidableEq

/-- Identifier of a bus/device/auxiliary variable (`int`) or of a branch (pair of `int`). -/
inductive Ident where
  | node (i : ℤ)
  | br (f t : ℤ)
deriving DecidableEq

/-- The state dictionary `{variable: {unit: {id: value}}}` (`simulator.py:618-634`). -/
abbrev SimState (K : Type) := Dict Key (Dict QUnit (Dict Ident (X K)))

/-- The bounds dictionary `{variable: {id: {unit: (low, high)}}}` (`simulator.py:444-460`). -/
abbrev StateBounds (K : Type) := Dict Key (Dict Ident (Dict QUnit (X K × X K)))

/-- What the power-flow solver is given: bus IDs, slack flags and injections in the order of the bus
dictionary, and the lines in the order of the branch dictionary. -/
structure PFIn (K : Type) where
  buses : List (ℤ × Bool × X K × X K)
  lines : List (Line K)

/-- What the power-flow solver computes: voltages and currents by position, the slack injection, the
branch quantities by position, and the `stable` flag (`solve_load_flow.py:45-81`). -/
structure PFOut (K : Type) where
  v : ℕ → Phasor K
  i : ℕ → Phasor K
  slackP : X K
  slackQ : X K
  flow : ℕ → Flow K
  stable : Bool

/-- A power-flow solver.  The real one is `realPF` (`Verif/Model/LoadFlow.lean`); theorems that do not
depend on it hold for every solver. -/
abbrev PF (K : Type) := PFIn K → Except PyErr (PFOut K)

/-- External code and constants used by the simulator. -/
structure Ctx (K : Type) where
  qp : QP K
  pf : PF K
  /-- `np.pi`. -/
  pi : K

/-- A `Simulator` object (`simulator.py:70-111`).  The dictionaries `buses`, `devices` (sorted by ID)
and `branches` (file order) are the lists of their values; the key of a value is its ID. -/
structure Sim (K : Type) where
  baseMVA : X K
  deltaT : X K
  lamb : X K
  buses : List (Bus K)
  branches : List (Branch K)
  devices : List (Device K)
  state : Option (SimState K) := none
  pfeConverged : Option Bool := none

namespace Sim
variable {K : Type}

/-- `N_bus`, `N_device`, ... (`simulator.py:94-99`). -/
def nBus (s : Sim K) : ℕ := s.buses.length
def nDevice (s : Sim K) : ℕ := s.devices.length
def nLoad (s : Sim K) : ℕ := (s.devices.filter Device.isLoad).length
def nNonSlackGen (s : Sim K) : ℕ := (s.devices.filter Device.isNonSlackGen).length
def nDes (s : Sim K) : ℕ := (s.devices.filter Device.isStorage).length
def nGenRer (s : Sim K) : ℕ := (s.devices.filter Device.isRenewable).length

/-- `self.buses[i]`. -/
def bus? (s : Sim K) (i : ℤ) : Option (Bus K) := s.buses.find? (fun b => b.id = i)

end Sim

section
variable {K : Type} [Field K] [LinearOrder K]

/-- `OrderedDict(sorted(d.items(), key=lambda t: t[0]))` (`simulator.py:148`, `:179`). -/
def sortDict {β : Type} (d : Dict ℤ β) : Dict ℤ β := d.insertionSort (fun a b => a.1 ≤ b.1)

/-- `d = {}; for x in l: d[key(x)] = x`. -/
def dictOf {α β : Type} [DecidableEq α] (key : β → α) (l : List β) : Dict α β :=
  l.foldl (fun d x => d.set (key x) x) []

/-- `Simulator._load_case` (`simulator.py:113-181`). -/
def loadCase [FloorRing K] (n : Network K) :
    Except PyErr (List (Bus K) × List (Branch K) × List (Device K)) := do
  let bl ← mapE mkBus n.bus                                                 -- :142-145
  let buses := (sortDict (dictOf Bus.id bl)).map (·.2)                      -- :148
  let busIds := buses.map Bus.id                                            -- :150
  let brl ← mapE (fun r => mkLine r n.baseMVA busIds) n.branch              -- :152-155
  let branches := (dictOf (fun l : Line K => (l.fBus, l.tBus)) brl).map (·.2)
  let dl ← mapE (fun r => mkDevice r busIds n.baseMVA) n.device             -- :157-176
  let devices := (sortDict (dictOf Device.id dl)).map (·.2)                 -- :179
  pure (buses, branches.map (fun l => { line := l }), devices)

/-- `_compute_bus_bounds` (`simulator.py:201-223`). -/
def busBounds (devices : List (Device K)) (b : Bus K) : Bus K :=
  let here := devices.filter (fun d => d.busId = b.id)
  { b with
    pMin := here.foldl (fun a d => a + d.pMin) 0
    pMax := here.foldl (fun a d => a + d.pMax) 0
    qMin := here.foldl (fun a d => a + d.qMin) 0
    qMax := here.foldl (fun a d => a + d.qMax) 0 }

/-- The exceptions of `_build_admittance_matrix` (`simulator.py:183-199`): the matrix has
`max(bus_ids) + 1` rows and is indexed with bus IDs; negative indices count from the end. -/
def ybusCheck (ids : List ℤ) (ends : List (ℤ × ℤ)) : Except PyErr Unit := do
  let n := ids.foldl max (ids.headD 0) + 1                                  -- :187
  guardE (0 ≤ n) .valueError                                                -- :188
  guardE (∀ e ∈ ends, (-n ≤ e.1 ∧ e.1 < n) ∧ (-n ≤ e.2 ∧ e.2 < n)) .indexError  -- :192-197

/-- `Simulator.__init__` (`simulator.py:70-111`).  The entries of the admittance matrix (line 102) are
computed by the power-flow model from the lines; `state_bounds` (line 108) is the function
`stateSpace`. -/
def mkSim [FloorRing K] (n : Network K) (deltaT lamb : X K) : Except PyErr (Sim K) := do
  checkNetwork n
  let (buses, branches, devices) ← loadCase n
  ybusCheck (buses.map Bus.id) (branches.map fun b => (b.line.fBus, b.line.tBus))
  pure { baseMVA := n.baseMVA, deltaT, lamb, buses := buses.map (busBounds devices), branches,
         devices }

namespace Sim

/-- `get_action_space` (`simulator.py:341-380`): the four dictionaries of (low, high) bounds. -/
def actionSpace (s : Sim K) : Dict ℤ (X K × X K) × Dict ℤ (X K × X K) × Dict ℤ (X K × X K) ×
    Dict ℤ (X K × X K) :=
  let g := s.devices.filter Device.isNonSlackGen
  let d := s.devices.filter (fun d => !d.isNonSlackGen && d.isStorage)
  (g.map fun x => (x.id, (x.pMin * s.baseMVA, x.pMax * s.baseMVA)),
   g.map fun x => (x.id, (x.qMin * s.baseMVA, x.qMax * s.baseMVA)),
   d.map fun x => (x.id, (x.pMin * s.baseMVA, x.pMax * s.baseMVA)),
   d.map fun x => (x.id, (x.qMin * s.baseMVA, x.qMax * s.baseMVA)))

/-- `get_state_space` (`simulator.py:382-462`); `pi` is `np.pi`. -/
def stateSpace (pi : K) (s : Sim K) : StateBounds K :=
  let m := s.baseMVA
  let inf2 : X K × X K := (.ninf, .pinf)
  let deg : X K × X K := (.fin (-180), .fin 180)
  let rad : X K × X K := (.fin (-pi), .fin pi)
  let bus (f : Bus K → Dict QUnit (X K × X K)) := s.buses.map fun b => (Ident.node b.id, f b)
  let dev (l : List (Device K)) (f : Device K → Dict QUnit (X K × X K)) :=
    l.map fun d => (Ident.node d.id, f d)
  let br (f : Dict QUnit (X K × X K)) := s.branches.map fun b => (Ident.br b.line.fBus b.line.tBus, f)
  [(.busP, bus fun b => [(.mw, (b.pMin * m, b.pMax * m)), (.pu, (b.pMin, b.pMax))]),       -- :403
   (.busQ, bus fun b => [(.mvar, (b.qMin * m, b.qMax * m)), (.pu, (b.qMin, b.qMax))]),     -- :404
   (.busVMagn, bus fun b =>
      if b.isSlack then [(.pu, (b.vMax, b.vMax)), (.kv, (b.vMax * b.baseKV, b.vMax * b.baseKV))]
      else [(.pu, inf2), (.kv, inf2)]),                                                    -- :405-412
   (.busVAng, bus fun b =>
      if b.isSlack then [(.degree, (0, 0)), (.rad, (0, 0))]
      else [(.degree, deg), (.rad, rad)]),                                                 -- :410-413
   (.busIMagn, bus fun _ => [(.pu, inf2), (.ka, inf2)]),                                   -- :414
   (.busIAng, bus fun _ => [(.degree, deg), (.rad, rad)]),                                 -- :415
   (.devP, dev s.devices fun d => [(.mw, (d.pMin * m, d.pMax * m)), (.pu, (d.pMin, d.pMax))]),
   (.devQ, dev s.devices fun d => [(.mvar, (d.qMin * m, d.qMax * m)), (.pu, (d.qMin, d.qMax))]),
   (.desSoc, dev (s.devices.filter Device.isStorage) fun d =>
      [(.mwh, (d.socMin * m, d.socMax * m)), (.pu, (d.socMin, d.socMax))]),                -- :423-427
   (.genPMax, dev (s.devices.filter Device.isNonSlackGen) fun d =>
      [(.mw, (d.pMin * m, d.qMax * m)), (.pu, (d.pMin, d.pMax))]),                         -- :428-432
   (.branchP, br [(.mw, inf2), (.pu, inf2)]),
   (.branchQ, br [(.mvar, inf2), (.pu, inf2)]),
   (.branchS, br [(.mva, inf2), (.pu, inf2)]),
   (.branchIMagn, br [(.pu, inf2), (.ka, inf2)]),
   (.branchIAng, br [(.rad, rad), (.degree, deg)])]                                        -- :435-442

/-- The arguments of `transition` (`simulator.py:464-486`). -/
structure Args (K : Type) where
  pLoad : Dict ℤ (X K)
  pPot : Dict ℤ (X K)
  pSet : Dict ℤ (X K)
  qSet : Dict ℤ (X K)

/-- The device loop of `transition` (`simulator.py:503-523`) for one device. -/
def stepDevice (qp : QP K) (baseMVA dt : X K) (a : Args K) (d : Device K) :
    Except PyErr (Device K) :=
  if d.isLoad then do                                                       -- :506-507
    let x ← a.pLoad.getE d.id
    pure (d.mapLoad (x / baseMVA))
  else if d.isNonSlackGen then do                                           -- :510-512
    let pot ← a.pPot.getE d.id
    let d := d.setPPot (X.clip (pot / baseMVA) d.pMin d.pMax)
    let p ← a.pSet.getE d.id
    let q ← a.qSet.getE d.id
    d.mapGen qp (p / baseMVA) (q / baseMVA)
  else if d.isStorage then do                                               -- :516-518
    let p ← a.pSet.getE d.id
    let q ← a.qSet.getE d.id
    let d ← d.mapStorage qp (p / baseMVA) (q / baseMVA) dt
    d.updateSoc dt
  else if d.isSlack then pure { d with p := 0, q := 0 }                     -- :521-523
  else pure d

/-- `_get_bus_total_injections` (`simulator.py:539-549`). -/
def busInjections (devices : List (Device K)) (b : Bus K) : Bus K :=
  let here := devices.filter (fun d => d.busId = b.id)
  { b with p := here.foldl (fun a d => a + d.p) 0, q := here.foldl (fun a d => a + d.q) 0 }

/-- The input handed to the power-flow solver (`solve_load_flow.py:30-46`). -/
def pfIn (s : Sim K) : PFIn K :=
  { buses := s.buses.map fun b => (b.id, b.isSlack, b.p, b.q)
    lines := s.branches.map (·.line) }

/-- NaN becomes `np.inf` (`solve_load_flow.py:65-66`). -/
def nanToInf (x : X K) : X K := if x = .nan then .pinf else x

/-- The updates of `solve_pfe_newton_raphson` (`solve_load_flow.py:57-79`) given the solver's output. -/
def applyPF (s : Sim K) (o : PFOut K) : Except PyErr (Sim K) := do
  let buses := s.buses.mapIdx fun k b =>                                    -- :58-66
    { b with
      v := o.v k, i := o.i k
      p := if b.isSlack then nanToInf o.slackP else b.p
      q := if b.isSlack then nanToInf o.slackQ else b.q }
  let devices ← mapE (fun d : Device K =>                                   -- :69-72
    if d.isSlack then
      match buses.find? (fun b => b.id = d.busId) with
      | some b => .ok { d with p := b.p, q := b.q }
      | none => .error .keyError
    else .ok d) s.devices
  let branches := s.branches.mapIdx fun k b => { b with flow := o.flow k }  -- :75-79
  pure { s with buses, devices, branches }

/-- `np.sign(z).real` of a complex number (numpy >= 2: `z / |z|`, 0 at 0). -/
def signRe (z : Phasor K) : X K := if z.abs = .fin 0 then .fin 0 else z.re / z.abs

/-- `_gather_state` (`simulator.py:551-636`).  `None * float` raises `TypeError`: a storage unit whose
state of charge is still `None`. -/
def gatherState (pi : K) (s : Sim K) : Except PyErr (SimState K) := do
  let m := s.baseMVA
  let bus (f : Bus K → X K) : Dict Ident (X K) := s.buses.map fun b => (Ident.node b.id, f b)
  let dev (l : List (Device K)) (f : Device K → X K) : Dict Ident (X K) :=
    l.map fun d => (Ident.node d.id, f d)
  let br (f : Flow K → X K) : Dict Ident (X K) :=
    s.branches.map fun b => (Ident.br b.line.fBus b.line.tBus, f b.flow)
  let des := s.devices.filter Device.isStorage
  let soc ← mapE (fun d : Device K =>
    match d.soc with
    | none => .error .typeError
    | some x => .ok (Ident.node d.id, x)) des
  let gen := s.devices.filter Device.isNonSlackGen
  let deg (x : X K) : X K := x * .fin 180 / .fin pi
  pure [
    (.busP, [(.pu, bus fun b => b.p), (.mw, bus fun b => b.p * m)]),                       -- :563-564
    (.busQ, [(.pu, bus fun b => b.q), (.mvar, bus fun b => b.q * m)]),                     -- :566-567
    (.busVMagn, [(.pu, bus fun b => b.v.abs), (.kv, bus fun b => b.v.abs * b.baseKV)]),    -- :569-570
    (.busVAng, [(.rad, bus fun b => b.v.ang), (.degree, bus fun b => deg b.v.ang)]),       -- :572-573
    (.busIMagn, [(.pu, bus fun b => b.i.abs), (.ka, bus fun b => b.i.abs * m / b.baseKV)]),-- :575-576
    (.busIAng, [(.rad, bus fun b => b.i.ang), (.degree, bus fun b => deg b.i.ang)]),       -- :578-579
    (.devP, [(.pu, dev s.devices fun d => d.p), (.mw, dev s.devices fun d => d.p * m)]),   -- :585-586
    (.devQ, [(.pu, dev s.devices fun d => d.q), (.mvar, dev s.devices fun d => d.q * m)]), -- :588-589
    (.desSoc, [(.pu, soc), (.mwh, soc.map fun e => (e.1, e.2 * m))]),                      -- :591-593
    (.genPMax, [(.pu, dev gen fun d => d.pPot), (.mw, dev gen fun d => d.pPot * m)]),      -- :595-597
    (.branchP, [(.pu, br fun f => f.pFrom), (.mw, br fun f => f.pFrom * m)]),              -- :604-605
    (.branchQ, [(.pu, br fun f => f.qFrom), (.mvar, br fun f => f.qFrom * m)]),            -- :607-608
    (.branchS, [(.pu, br fun f => f.sApparentMax), (.mva, br fun f => f.sApparentMax * m)]),
    (.branchIMagn, [(.pu, br fun f => signRe f.iFrom * f.iFrom.abs)]),                     -- :613
    (.branchIAng, [(.rad, br fun f => f.iFrom.ang), (.degree, br fun f => deg f.iFrom.ang)])]

/-- Contribution of a device to `e_loss` (`simulator.py:660-665`), in the order of the code. -/
def eLossStep (e : X K) (d : Device K) : X K :=
  let e := if d.isGen || d.isLoad then e + d.p else e                       -- :661-662
  if d.isRenewable then e + X.maximum 0 (d.pPot - d.p) else e               -- :664-665

/-- Contribution of a bus to the penalty (`simulator.py:672-673`); `None - float` is a `TypeError`. -/
def busPenalty (b : Bus K) : Except PyErr (X K) :=
  match b.vMin with
  | none => .error .typeError
  | some vMin => .ok (X.maximum 0 (b.v.abs - b.vMax) + X.maximum 0 (vMin - b.v.abs))

/-- Contribution of a branch to the penalty (`simulator.py:676`). -/
def branchPenalty (b : Branch K) : X K := X.maximum 0 (X.abs b.flow.sApparentMax - b.line.rate)

/-- `_compute_reward` (`simulator.py:638-683`): `(reward, e_loss, penalty)`. -/
def computeReward (s : Sim K) : Except PyErr (X K × X K × X K) := do
  let eLoss := s.devices.foldl eLossStep 0 * s.deltaT                       -- :659-667
  let bp ← mapE busPenalty s.buses                                          -- :670-673
  let pen := bp.foldl (· + ·) 0
  let pen := s.branches.foldl (fun a b => a + branchPenalty b) pen          -- :675-676
  let pen := pen * (s.deltaT * s.lamb)                                      -- :678
  pure (-(eLoss + pen), eLoss, pen)                                         -- :681-683

/-- Result of `transition`. -/
structure TransOut (K : Type) where
  reward : X K
  eLoss : X K
  penalty : X K
  converged : Bool

/-- Steps 1-5 of `transition` (`simulator.py:503-529`): device loop, bus injections, power flow. -/
def solveStep (c : Ctx K) (s : Sim K) (a : Args K) : Except PyErr (Sim K) := do
  let devices ← mapE (stepDevice c.qp s.baseMVA s.deltaT a) s.devices
  let s := { s with devices, buses := s.buses.map (busInjections devices) }
  let o ← c.pf s.pfIn
  let s ← s.applyPF o
  pure { s with pfeConverged := some o.stable }

/-- `transition` (`simulator.py:464-537`): the updated simulator (whose `state` field is the returned
state) and the other results. -/
def transition (c : Ctx K) (s : Sim K) (a : Args K) : Except PyErr (Sim K × TransOut K) := do
  let s ← solveStep c s a
  let st ← s.gatherState c.pi                                               -- :532
  let s := { s with state := some st }
  let (r, e, pen) ← s.computeReward                                         -- :535
  pure (s, { reward := r, eLoss := e, penalty := pen, converged := s.pfeConverged.getD false })

/-- `init_state[k]` (`IndexError` out of range). -/
def idx (v : List (X K)) (k : ℕ) : Except PyErr (X K) :=
  match v[k]? with
  | some x => .ok x
  | none => .error .indexError

/-- The dictionaries built by `reset` (`simulator.py:247-268`), by recursion over
`enumerate(self.devices.items())`; `i` is the position in the device list and `g` is `gen_idx`. -/
def resetArgs (pDev qDev pMax : List (X K)) : List (Device K) → ℕ → ℕ → Args K →
    Except PyErr (Args K)
  | [], _, _, a => .ok a
  | d :: ds, i, g, a =>
    if d.isLoad then do                                                     -- :259-260
      let x ← idx pDev i
      resetArgs pDev qDev pMax ds (i + 1) g { a with pLoad := a.pLoad.set d.id x }
    else if (d.isGen || d.isStorage) && !d.isSlack then do                  -- :262-268
      let x ← idx pDev i
      let y ← idx qDev i
      let a := { a with pSet := a.pSet.set d.id x, qSet := a.qSet.set d.id y }
      if d.isNonSlackGen then do
        let z ← idx pMax g
        resetArgs pDev qDev pMax ds (i + 1) (g + 1) { a with pPot := a.pPot.set d.id z }
      else resetArgs pDev qDev pMax ds (i + 1) g a
    else resetArgs pDev qDev pMax ds (i + 1) g a

/-- Step 2 of `reset` for one device (`simulator.py:273-278`). -/
def resetSoc (pSet : Dict ℤ (X K)) (d : Device K) : Except PyErr (Device K) :=
  if d.isStorage then do
    let p ← pSet.getE d.id
    pure { d with soc := some (if p ≤ 0 then d.socMin else d.socMax) }
  else pure d

/-- Step 4 of `reset` (`simulator.py:284-288`): assign the requested state of charge. -/
def assignSoc (baseMVA : X K) (soc : List (X K)) : List (Device K) → ℕ →
    Except PyErr (List (Device K))
  | [], _ => .ok []
  | d :: ds, k =>
    if d.isStorage then do
      let x ← idx soc k
      let ds' ← assignSoc baseMVA soc ds (k + 1)
      pure ({ d with soc := some (x / baseMVA) } :: ds')
    else do
      let ds' ← assignSoc baseMVA soc ds k
      pure (d :: ds')

/-- Python slice `v[a:b]` for `0 <= a <= b`. -/
def slice {α : Type} (v : List α) (a b : ℕ) : List α := (v.drop a).take (b - a)

/-- `reset` (`simulator.py:225-293`): the updated simulator and `pfe_converged`. -/
def reset (c : Ctx K) (s : Sim K) (init : List (X K)) : Except PyErr (Sim K × Bool) := do
  let s := { s with state := none }                                         -- :245
  let n := s.nDevice
  let pDev := slice init 0 n                                                -- :248
  let qDev := slice init n (2 * n)                                          -- :249
  let soc := slice init (2 * n) (2 * n + s.nDes)                            -- :250
  let pMax := slice init (2 * n + s.nDes) (2 * n + s.nDes + s.nNonSlackGen) -- :251
  let a ← resetArgs pDev qDev pMax s.devices 0 0 { pLoad := [], pPot := [], pSet := [], qSet := [] }
  let devices ← mapE (resetSoc a.pSet) s.devices
  let (s, o) ← transition c { s with devices } a                            -- :281
  let devices ← assignSoc s.baseMVA soc s.devices 0                         -- :284-288
  let s := { s with devices }
  let st ← s.gatherState c.pi                                               -- :291
  pure ({ s with state := some st }, o.converged)

end Sim
end

end Anm
