import Verif.Spec.Anm6

/-! # Specification vocabulary for the visualisation -/

namespace Anm.Spec

variable {K ρ : Type} [Field K] [LinearOrder K]

/-! ### Dates -/

/-- The number of days of month `m` of year `y`. -/
def monthLength (y m : ℕ) : ℕ :=
  if m = 2 then if Leap y then 29 else 28 else if m = 4 ∨ m = 6 ∨ m = 9 ∨ m = 11 then 30 else 31

/-- The number of days of a year before month `m`. -/
def daysBeforeMonth (y m : ℕ) : ℕ := ((List.range' 1 (m - 1)).map (monthLength y)).sum

/-- The date `d` (microseconds since 1 January of year 1) is in the minute `h:mi` of day `k` of month `m` of
year `y`. -/
structure CalendarTime (d : ℤ) (y m k h mi : ℕ) : Prop where
  year : 1 ≤ y
  month : 1 ≤ m ∧ m ≤ 12
  day : 1 ≤ k ∧ k ≤ monthLength y m
  hour : h < 24
  minute : mi < 60
  date : ∃ rest : ℕ, rest < 60 * 1000000 ∧
    d = (((daysBefore y + daysBeforeMonth y m + (k - 1)) * 86400 + h * 3600 + mi * 60) * 1000000 + rest : ℕ)

/-! ### Frames -/

/-- The values `xs` are those reported in the state `st` for the elements `ids`. -/
def Lists (st : SimState K) (k : Key) (u : QUnit) (ids : List Ident) (xs : List (X K)) : Prop :=
  List.Forall₂ (fun i x => reading st k u i = some x) ids xs

/-- The frame shows the state reported by the simulator: powers of all devices, energies of the storage units
and potentials of the generators by increasing ID, flows of the branches in the order of the network file,
voltages of the buses by increasing ID. -/
def ShowsState (s : Sim K) (f : Frame K) : Prop :=
  ∃ st, s.state = some st ∧
    Lists st .devP .mw (s.devices.map fun d => .node d.id) f.pInjections ∧
    Lists st .devQ .mvar (s.devices.map fun d => .node d.id) f.qInjections ∧
    Lists st .branchS .mva (s.branches.map fun b => .br b.line.fBus b.line.tBus) f.sFlows ∧
    Lists st .desSoc .mwh ((s.devices.filter Device.isStorage).map fun d => .node d.id) f.socStorage ∧
    Lists st .genPMax .mw ((s.devices.filter Device.isNonSlackGen).map fun d => .node d.id) f.pPotential ∧
    Lists st .busVMagn .pu (s.buses.map fun b => .node b.id) f.vMagn

end Anm.Spec
