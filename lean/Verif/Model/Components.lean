import Verif.Num

/-!
# Model of `gym_anm/simulator/components` (bus.py, branch.py, devices.py, constants.py)
-/

namespace Anm

/-- `[f(a) for a in l]` where `f` may raise. -/
def mapE {α β : Type} (f : α → Except PyErr β) : List α → Except PyErr (List β)
  | [] => .ok []
  | a :: l => do
    let b ← f a
    let bs ← mapE f l
    pure (b :: bs)

/-- The idiom `x = spec[col]; if x is None: dflt; elif bad(x): raise e; else: x = conv(x)`
used throughout the constructors. -/
def readCell {K α : Type} (c : Cell K) (dflt : Except PyErr α) (bad : X K → Prop)
    [DecidablePred bad] (e : PyErr) (conv : X K → α) : Except PyErr α :=
  match c with
  | none => dflt
  | some x => do
    guardE (¬ bad x) e
    pure (conv x)

/-! ## Column headers (`constants.py:1-28`) -/

/-- Names of the columns of the bus array (`constants.py:1`). -/
inductive BusCol where
  | busId | busType | baseKV | vmax | vmin
deriving DecidableEq

/-- `headers_bus` (`constants.py:1`); `BUS_H[c]` (`constants.py:21`) is the index of `c`. -/
def headersBus : List BusCol := [.busId, .busType, .baseKV, .vmax, .vmin]

/-- Names of the columns of the device array (`constants.py:2-18`). -/
inductive DevCol where
  | devId | busId | devType | qp | pmax | pmin | qmax | qmin | pPlus | pMinus | qPlus | qMinus
  | socMax | socMin | eff
deriving DecidableEq

/-- `headers_dev` (`constants.py:2-18`); `DEV_H[c]` (`constants.py:24`) is the index of `c`. -/
def headersDev : List DevCol :=
  [.devId, .busId, .devType, .qp, .pmax, .pmin, .qmax, .qmin, .pPlus, .pMinus, .qPlus, .qMinus,
   .socMax, .socMin, .eff]

/-- Names of the columns of the branch array (`constants.py:19`). -/
inductive BranchCol where
  | fBus | tBus | r | x | b | rate | tap | shift
deriving DecidableEq

/-- `headers_branch` (`constants.py:19`); `BRANCH_H[c]` (`constants.py:27`) is the index of `c`. -/
def headersBranch : List BranchCol := [.fBus, .tBus, .r, .x, .b, .rate, .tap, .shift]

/-- A row of the bus array, addressed by column name (`bus_spec[BUS_H[c]]`). -/
abbrev BusRow (K : Type) := BusCol → Cell K
/-- A row of the device array, addressed by column name (`dev_spec[DEV_H[c]]`). -/
abbrev DevRow (K : Type) := DevCol → Cell K
/-- A row of the branch array, addressed by column name (`br_spec[BRANCH_H[c]]`). -/
abbrev BranchRow (K : Type) := BranchCol → Cell K

/-- Index a raw row of a network array by column name through the header list.
Simplification: a row that is too short reads `None` instead of raising `IndexError`. -/
def rowOf {K C : Type} [DecidableEq C] (headers : List C) (l : List (Cell K)) : C → Cell K :=
  fun c => (l[headers.idxOf c]?).getD none

/-- A network dictionary (`{"baseMVA", "bus", "branch", "device"}`). -/
structure Network (K : Type) where
  baseMVA : X K
  bus : List (BusRow K)
  branch : List (BranchRow K)
  device : List (DevRow K)

/-- Build a network dictionary from raw arrays, as a network file does. -/
def Network.ofLists {K : Type} (baseMVA : X K) (bus branch device : List (List (Cell K))) :
    Network K :=
  { baseMVA, bus := bus.map (rowOf headersBus), branch := branch.map (rowOf headersBranch),
    device := device.map (rowOf headersDev) }

/-- A complex number together with the values numpy computes from it (`np.abs`, `np.angle`). -/
structure Phasor (K : Type) where
  re : X K
  im : X K
  abs : X K
  ang : X K
deriving DecidableEq

/-- The value of attributes that are still `None`. -/
def Phasor.undef {K : Type} : Phasor K := ⟨.nan, .nan, .nan, .nan⟩

/-! ## Bus (`bus.py`) -/

/-- A `Bus` object (`bus.py:6-64`).  `vMin = none` is python `None` (possible for the slack bus
only).  `p, q, v, i` are `None` before the first transition, modelled by NaN. -/
structure Bus (K : Type) where
  id : ℤ
  isSlack : Bool
  baseKV : X K
  vMax : X K
  vMin : Option (X K)
  pMin : X K := .nan
  pMax : X K := .nan
  qMin : X K := .nan
  qMax : X K := .nan
  p : X K := .nan
  q : X K := .nan
  v : Phasor K := .undef
  i : Phasor K := .undef
deriving DecidableEq

section
variable {K : Type} [Field K] [LinearOrder K] [FloorRing K]

/-- `Bus.__init__` and `Bus._check_input_specs` (`bus.py:35-64`, `bus.py:83-99`).
The tests `raise if cond` are kept as written, so that NaN cells slip through as in python. -/
def mkBus (row : BusRow K) : Except PyErr (Bus K) := do
  let id ← cellInt (row .busId)                                             -- bus.py:43
  let ty ← cellInt (row .busType)                                           -- bus.py:44
  let slack : Bool := decide (ty = 0)                                       -- bus.py:49-53
  guardE (ty = 0 ∨ ty = 1) .busSpecError  -- bus.py:85-86
  let baseKV ← readCell (row .baseKV) (throw .busSpecError)
    (fun x => x ≤ 0) .busSpecError _root_.id  -- bus.py:88-89
  let vMax ← readCell (row .vmax) (throw .busSpecError)
    (fun x => x < 0) .busSpecError _root_.id  -- bus.py:91-92
  let vMin ← readCell (row .vmin)                                           -- bus.py:94-96
    (if slack = true then pure none else throw .busSpecError)
    (fun x => x < 0 ∧ slack = false) .busSpecError some
  guardE (slack = true ∨ ∀ m ∈ vMin, ¬ vMax < m) .busSpecError  -- bus.py:98-99
  pure { id, isSlack := slack, baseKV, vMax, vMin }

end

/-! ## Branch (`branch.py`) -/

/-- The parameters of a `TransmissionLine` (`branch.py:8-43`).  The shift is kept in degrees (the
conversion to radians, `branch.py:137`, is done where the tap is computed). -/
structure Line (K : Type) where
  fBus : ℤ
  tBus : ℤ
  r : X K
  x : X K
  b : X K
  rate : X K
  tapMagn : X K
  shiftDeg : X K
deriving DecidableEq

/-- The electrical quantities of a `TransmissionLine` (`branch.py:62-68`). -/
structure Flow (K : Type) where
  iFrom : Phasor K := .undef
  iTo : Phasor K := .undef
  pFrom : X K := .nan
  qFrom : X K := .nan
  pTo : X K := .nan
  qTo : X K := .nan
  sApparentMax : X K := .nan
deriving DecidableEq

/-- A `TransmissionLine` object. -/
structure Branch (K : Type) where
  line : Line K
  flow : Flow K := {}
deriving DecidableEq

section
variable {K : Type} [Field K] [LinearOrder K] [FloorRing K]

/-- `x in bus_ids` for a number `x` and a list of integer IDs. -/
def inIds (x : X K) (ids : List ℤ) : Prop := ∃ i ∈ ids, X.feq x (.fin (i : K))

instance (x : X K) (ids : List ℤ) : Decidable (inIds x ids) := by unfold inIds; infer_instance

/-- `x is None or x not in bus_ids -> raise e; else int(x)`
(`branch.py:72-86`, `devices.py:77-83`). -/
def endpoint (c : Cell K) (ids : List ℤ) (e : PyErr) : Except PyErr ℤ :=
  match c with
  | none => throw e
  | some x => do
    guardE (inIds x ids) e
    x.toInt

/-- `TransmissionLine._check_input_specs` (`branch.py:70-137`). -/
def mkLine (row : BranchRow K) (baseMVA : X K) (busIds : List ℤ) : Except PyErr (Line K) := do
  let f ← endpoint (row .fBus) busIds .branchSpecError  -- branch.py:72-78
  let t ← endpoint (row .tBus) busIds .branchSpecError  -- branch.py:80-86
  let r ← readCell (row .r) (pure 0) (fun x => x < 0) .branchSpecError _root_.id  -- branch.py:88-92
  let x ← readCell (row .x) (pure 0) (fun x => x < 0) .branchSpecError _root_.id  -- branch.py:94-98
  guardE (¬ (X.feq r 0 ∧ X.feq x 0)) .branchSpecError  -- branch.py:100-104
  let b ← readCell (row .b) (pure 0)
    (fun x => x < 0) .branchSpecError _root_.id  -- branch.py:106-110
  let rate ← readCell (row .rate) (pure .pinf)
    (fun x => x < 0) .branchSpecError (· / baseMVA)  -- branch.py:112-118
  let tap ← readCell (row .tap) (pure 1)
    (fun x => x ≤ 0) .branchSpecError _root_.id  -- branch.py:120-127
  let shift ← readCell (row .shift) (pure 0)
    (fun x => (x < 0 ∨ .fin 360 < x)) .branchSpecError _root_.id  -- branch.py:129-137
  pure { fBus := f, tBus := t, r, x, b, rate, tapMagn := tap, shiftDeg := shift }

end

/-! ## Devices (`devices.py`) -/

/-- The class of a device object: `Load`, `ClassicalGen`, `RenewableGen` or `StorageUnit`. -/
inductive DevKind where
  | load | classical | renewable | storage
deriving DecidableEq

/-- A device object (`devices.py:11-110`).  Attributes that do not exist for the class of the device
(python `None`) hold NaN; `soc = none` is python `None` (a storage unit before `reset`). -/
structure Device (K : Type) where
  id : ℤ
  busId : ℤ
  kind : DevKind
  isSlack : Bool
  qpRatio : X K := .nan
  pMin : X K
  pMax : X K
  qMin : X K
  qMax : X K
  pPlus : X K := .nan
  pMinus : X K := .nan
  qPlus : X K := .nan
  qMinus : X K := .nan
  tau1 : X K := .nan
  tau2 : X K := .nan
  tau3 : X K := .nan
  tau4 : X K := .nan
  rho1 : X K := .nan
  rho2 : X K := .nan
  rho3 : X K := .nan
  rho4 : X K := .nan
  socMin : X K := .nan
  socMax : X K := .nan
  eff : X K := .nan
  p : X K := .nan
  q : X K := .nan
  pPot : X K := .nan
  soc : Option (X K) := none
deriving DecidableEq

namespace Device
variable {K : Type}

/-- `isinstance(dev, Load)`. -/
def isLoad (d : Device K) : Bool := d.kind = .load
/-- `isinstance(dev, Generator)` (`ClassicalGen` and `RenewableGen`, `devices.py:307`, `:318`). -/
def isGen (d : Device K) : Bool := d.kind = .classical ∨ d.kind = .renewable
/-- `isinstance(dev, RenewableGen)`. -/
def isRenewable (d : Device K) : Bool := d.kind = .renewable
/-- `isinstance(dev, StorageUnit)`. -/
def isStorage (d : Device K) : Bool := d.kind = .storage
/-- `isinstance(dev, Generator) and not dev.is_slack`. -/
def isNonSlackGen (d : Device K) : Bool := d.isGen && !d.isSlack

end Device

section
variable {K : Type} [Field K] [LinearOrder K] [FloorRing K]

/-- The part of `Device.__init__` common to all classes (`devices.py:70-93`): returns the ID, the bus
ID and `is_slack`.  The `raise` for a bad type fails while formatting its message
(`" in %s." % allowed` with two placeholders, `devices.py:88`), hence `TypeError`. -/
def deviceCommon (row : DevRow K) (busIds : List ℤ) : Except PyErr (ℤ × ℤ × Bool) := do
  let idc ← readCell (row .devId) (throw .deviceSpecError) (fun _ => False) .deviceSpecError _root_.id
  let id ← idc.toInt                                                        -- devices.py:71-75
  let bus ← endpoint (row .busId) busIds .deviceSpecError  -- devices.py:77-83
  let slack ← readCell (row .devType) (throw .typeError)                    -- devices.py:85-93
    (fun t => ¬ inIds t [-1, 0, 1, 2, 3]) .typeError (fun t => decide (X.feq t 0))
  pure (id, bus, slack)

/-- A cell converted to per-unit, with a default for `None`. -/
def toPu (c : Cell K) (baseMVA dflt : X K) : X K :=
  match c with
  | none => dflt
  | some x => x / baseMVA

/-- `Load.__init__` and `Load._check_type_specific_specs` (`devices.py:121-154`).
Line 135-141 does not divide PMAX by `baseMVA`; line 148 divides PMIN. -/
def mkLoad (row : DevRow K) (busIds : List ℤ) (baseMVA : X K) : Except PyErr (Device K) := do
  let (id, bus, slack) ← deviceCommon row busIds
  guardE (cellEq (row .devType) (some (.fin (-1)))) .loadSpecError  -- devices.py:128-129
  let qp ← readCell (row .qp) (throw .loadSpecError) (fun _ => False) .loadSpecError _root_.id  -- devices.py:131-133
  let pMax ← readCell (row .pmax) (pure 0)
    (fun x => .fin 0 < x) .loadSpecError _root_.id  -- devices.py:135-141
  let pMin := toPu (row .pmin) baseMVA .ninf                                -- devices.py:143-148
  guardE (¬ pMax < pMin) .loadSpecError  -- devices.py:150-151
  pure { id, busId := bus, kind := .load, isSlack := slack, qpRatio := qp, pMin, pMax,
         qMax := pMax * qp, qMin := pMin * qp }                             -- devices.py:153-154

/-- `Generator.__init__` and `Generator._check_type_specific_specs` (`devices.py:175-187`,
`devices.py:189-278`); `kind` is `classical` or `renewable`. -/
def mkGen (kind : DevKind) (row : DevRow K) (busIds : List ℤ) (baseMVA : X K) :
    Except PyErr (Device K) := do
  let (id, bus, slack) ← deviceCommon row busIds
  let pMax ← readCell (row .pmax) (pure .pinf)
    (fun x => (x < 0 ∧ slack = false)) .genSpecError (· / baseMVA)  -- devices.py:191-198
  let pMin ← readCell (row .pmin) (pure (if slack = true then .ninf else 0))
    (fun x => (x < 0 ∧ slack = false)) .genSpecError (· / baseMVA)  -- devices.py:200-209
  guardE (¬ pMax < pMin) .genSpecError  -- devices.py:211-212
  let qMax := toPu (row .qmax) baseMVA .pinf                                -- devices.py:214-220
  let qMin := toPu (row .qmin) baseMVA .ninf                                -- devices.py:222-228
  guardE (¬ qMax < qMin) .genSpecError  -- devices.py:230-231
  let pPlus := toPu (row .pPlus) baseMVA pMax                               -- devices.py:233-237
  guardE (¬ pPlus < pMin) .genSpecError  -- devices.py:239-240
  guardE (¬ pMax < pPlus) .genSpecError  -- devices.py:241-242
  let qPlus := toPu (row .qPlus) baseMVA qMax                               -- devices.py:249-253
  guardE (¬ qMax < qPlus) .genSpecError  -- devices.py:255-256
  let qMinus := toPu (row .qMinus) baseMVA qMin                             -- devices.py:258-262
  guardE (¬ qMinus < qMin) .genSpecError  -- devices.py:264-265
  guardE (¬ qPlus < qMinus) .genSpecError  -- devices.py:267-268
  let (tau1, tau2) :=                                                       -- devices.py:270-275
    if X.feq pMax pPlus then (0, 0)
    else ((qPlus - qMax) / (pMax - pPlus), (qMinus - qMin) / (pMax - pPlus))
  let rho1 := qMax - tau1 * pPlus                                           -- devices.py:277
  let rho2 := qMin - tau2 * pPlus                                           -- devices.py:278
  pure { id, busId := bus, kind, isSlack := slack, pMin, pMax, qMin, qMax, pPlus, qPlus, qMinus,
         tau1, tau2, rho1, rho2,
         pPot := X.clip pMax pMin pMax }                                    -- devices.py:179-187

/-- `StorageUnit.__init__` and `StorageUnit._check_type_specific_specs` (`devices.py:334-470`). -/
def mkStorage (row : DevRow K) (busIds : List ℤ) (baseMVA : X K) : Except PyErr (Device K) := do
  let (id, bus, slack) ← deviceCommon row busIds
  let pMax ← readCell (row .pmax) (pure .pinf)
    (fun x => x < 0) .storageSpecError (· / baseMVA)  -- devices.py:340-347
  let pMin ← readCell (row .pmin) (pure .ninf)
    (fun x => .fin 0 < x) .storageSpecError (· / baseMVA)  -- devices.py:349-356
  guardE (¬ pMax < pMin) .storageSpecError  -- devices.py:358-359
  let qMax := toPu (row .qmax) baseMVA .pinf                                -- devices.py:361-366
  let qMin := toPu (row .qmin) baseMVA .ninf                                -- devices.py:368-373
  guardE (¬ qMax < qMin) .storageSpecError  -- devices.py:375-376
  let pPlus := toPu (row .pPlus) baseMVA pMax                               -- devices.py:378-382
  guardE (¬ pPlus < pMin) .storageSpecError  -- devices.py:384-385
  guardE (¬ pMax < pPlus) .storageSpecError  -- devices.py:386-387
  let pMinus := toPu (row .pMinus) baseMVA pMin                             -- devices.py:389-393
  guardE (¬ pMinus < pMin) .storageSpecError  -- devices.py:395-396
  guardE (¬ pMax < pMinus) .storageSpecError  -- devices.py:397-398
  guardE (¬ pPlus < pMinus) .storageSpecError  -- devices.py:400-401
  let qPlus := toPu (row .qPlus) baseMVA qMax                               -- devices.py:403-407
  guardE (¬ qMax < qPlus) .storageSpecError  -- devices.py:409-410
  let qMinus := toPu (row .qMinus) baseMVA qMin                             -- devices.py:412-416
  guardE (¬ qMinus < qMin) .storageSpecError  -- devices.py:418-419
  guardE (¬ qPlus < qMinus) .storageSpecError  -- devices.py:421-422
  let (tau1, tau2) :=                                                       -- devices.py:424-429
    if X.feq pMax pPlus then (0, 0)
    else ((qPlus - qMax) / (pMax - pPlus), (qMinus - qMin) / (pMax - pPlus))
  let rho1 := qMax - tau1 * pPlus                                           -- devices.py:431
  let rho2 := qMin - tau2 * pPlus                                           -- devices.py:432
  let (tau3, tau4) :=                                                       -- devices.py:434-439
    if X.feq pMin pMinus then (0, 0)
    else ((qMin - qMinus) / (pMinus - pMin), (qMax - qPlus) / (pMinus - pMin))
  let rho3 := qMin - tau3 * pMinus                                          -- devices.py:441
  let rho4 := qMax - tau4 * pMinus                                          -- devices.py:442
  let socMin ← readCell (row .socMin) (pure 0)
    (fun x => x < 0) .storageSpecError (· / baseMVA)  -- devices.py:444-450
  let socMax ← readCell (row .socMax) (throw .storageSpecError)
    (fun x => x < 0) .storageSpecError (· / baseMVA)  -- devices.py:452-458
  guardE (¬ socMax < socMin) .storageSpecError  -- devices.py:460-461
  let eff ← readCell (row .eff) (pure 1)
    (fun x => (x < 0 ∨ .fin 1 < x)) .storageSpecError _root_.id  -- devices.py:463-468
  pure { id, busId := bus, kind := .storage, isSlack := slack, pMin, pMax, qMin, qMax, pPlus,
         pMinus, qPlus, qMinus, tau1, tau2, tau3, tau4, rho1, rho2, rho3, rho4, socMin, socMax,
         eff }

/-- Dispatch on DEV_TYPE in `Simulator._load_case` (`simulator.py:159-174`). -/
def mkDevice (row : DevRow K) (busIds : List ℤ) (baseMVA : X K) : Except PyErr (Device K) := do
  let ty ← cellInt (row .devType)                                           -- simulator.py:159
  if ty = -1 then mkLoad row busIds baseMVA                                 -- simulator.py:161-162
  else if ty = 0 ∨ ty = 1 then mkGen .classical row busIds baseMVA          -- simulator.py:164-165
  else if ty = 2 then mkGen .renewable row busIds baseMVA                   -- simulator.py:167-168
  else if ty = 3 then mkStorage row busIds baseMVA                          -- simulator.py:170-171
  else throw .notImplemented                                                -- simulator.py:173-174

end

/-! ## Mapping set-points to feasible injections -/

/-- One row of the constraint system `G @ x <= h` with `x = (P, Q)`. -/
structure HalfPlane (K : Type) where
  gP : X K
  gQ : X K
  h : X K
deriving DecidableEq

/-- The quadratic program solver (`cp.Problem(...).solve()`, `devices.py:299-301`, `:517-519`) as an
oracle: minimise `(P-p)^2 + (Q-q)^2` subject to the rows; `none` means `x.value is None`. -/
abbrev QP (K : Type) := List (HalfPlane K) → X K × X K → Option (X K × X K)

namespace Device
variable {K : Type} [Field K] [LinearOrder K]

/-- `Load.map_pq` (`devices.py:156-167`). -/
def mapLoad (d : Device K) (p : X K) : Device K :=
  let p' := X.clip p d.pMin d.pMax
  { d with p := p', q := p' * d.qpRatio }

/-- The `p_pot` setter (`devices.py:185-187`). -/
def setPPot (d : Device K) (v : X K) : Device K :=
  { d with pPot := X.clip v d.pMin d.pMax }

/-- `G` and `h` of `Generator.map_pq` (`devices.py:294-296`). -/
def genConstraints (d : Device K) : List (HalfPlane K) :=
  [⟨-1, 0, -d.pMin⟩, ⟨1, 0, d.pMax⟩, ⟨1, 0, d.pPot⟩, ⟨0, -1, -d.qMin⟩, ⟨0, 1, d.qMax⟩,
   ⟨-d.tau1, 1, d.rho1⟩, ⟨d.tau2, -1, -d.rho2⟩]

/-- Solve the projection and store its solution; subscripting `None` raises `TypeError`
(`devices.py:298-304`, `:516-522`). -/
def project (qp : QP K) (rows : List (HalfPlane K)) (d : Device K) (p q : X K) :
    Except PyErr (Device K) :=
  match qp rows (p, q) with
  | none => .error .typeError
  | some (p', q') => .ok { d with p := p', q := q' }

/-- `Generator.map_pq` (`devices.py:280-304`). -/
def mapGen (qp : QP K) (d : Device K) (p q : X K) : Except PyErr (Device K) :=
  project qp d.genConstraints d p q

/-- `G` and `h` of `StorageUnit.map_pq` (`devices.py:486-514`).  A `None` state of charge raises
`TypeError`; the divisions are divisions of python floats (rows of a network file that contains
`None` are object arrays). -/
def storageConstraints (d : Device K) (dt : X K) : Except PyErr (List (HalfPlane K)) :=
  match d.soc with
  | none => .error .typeError
  | some soc => do
    let hCh ← X.pyDiv (-(soc - d.socMax)) (dt * d.eff)                      -- devices.py:511
    let hDis ← X.pyDiv (d.eff * (soc - d.socMin)) dt                        -- devices.py:512
    pure [⟨-1, 0, -d.pMin⟩, ⟨1, 0, d.pMax⟩, ⟨0, -1, -d.qMin⟩, ⟨0, 1, d.qMax⟩,
          ⟨-d.tau1, 1, d.rho1⟩, ⟨d.tau2, -1, -d.rho2⟩, ⟨d.tau3, -1, -d.rho3⟩,
          ⟨-d.tau4, 1, d.rho4⟩, ⟨-1, 0, hCh⟩, ⟨1, 0, hDis⟩]

/-- `StorageUnit.map_pq` (`devices.py:472-522`). -/
def mapStorage (qp : QP K) (d : Device K) (p q dt : X K) : Except PyErr (Device K) := do
  let rows ← d.storageConstraints dt
  project qp rows d p q

/-- `StorageUnit.update_soc` (`devices.py:524-545`). -/
def updateSoc (d : Device K) (dt : X K) : Except PyErr (Device K) :=
  match d.soc with
  | none => .error .typeError
  | some soc =>
    let soc' := if d.p ≤ 0 then soc - dt * d.eff * d.p else soc - dt * d.p / d.eff
    .ok { d with soc := some (X.clip soc' d.socMin d.socMax) }

end Device

end Anm
