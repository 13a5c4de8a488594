import Verif.Spec.Network

/-! # Specification of accepted devices and branches (docs: "Using your own network" page) -/

namespace Anm.Spec

variable {K : Type} [Field K] [LinearOrder K]

/-- `v` is the per-unit value of the cell `c` in a system of base power `base`; a missing cell stands
for `dflt`.  Infinite cells stay infinite. -/
def IsPu (c : Cell K) (base : K) (dflt v : X K) : Prop :=
  match c with
  | none => v = dflt
  | some (.fin x) => v = .fin (x / base)
  | some y => v = y

/-- No cell of a row is NaN. -/
def RowOk {C : Type} (row : C → Cell K) : Prop := ∀ col, CellOk (row col)

/-- A load: consumes power, ordered limits, constant ratio between reactive and active limits. -/
structure LoadSpec (row : DevRow K) (base : K) (d : Device K) : Prop where
  ordered : d.pMin ≤ d.pMax
  withdraws : d.pMax ≤ .fin 0
  pMin : IsPu (row .pmin) base .ninf d.pMin
  q : ∃ r, row .qp = some r ∧ d.qMin = d.pMin * r ∧ d.qMax = d.pMax * r

/-- A non-slack generator: ordered capability curve in per-unit. -/
structure GenSpec (row : DevRow K) (base : K) (d : Device K) : Prop where
  nonneg : .fin 0 ≤ d.pMin
  p1 : d.pMin ≤ d.pPlus
  p2 : d.pPlus ≤ d.pMax
  q1 : d.qMin ≤ d.qMinus
  q2 : d.qMinus ≤ d.qPlus
  q3 : d.qPlus ≤ d.qMax
  pMaxPu : IsPu (row .pmax) base .pinf d.pMax
  pMinPu : IsPu (row .pmin) base (.fin 0) d.pMin
  qMaxPu : IsPu (row .qmax) base .pinf d.qMax
  qMinPu : IsPu (row .qmin) base .ninf d.qMin
  pPlusPu : IsPu (row .pPlus) base d.pMax d.pPlus
  qPlusPu : IsPu (row .qPlus) base d.qMax d.qPlus
  qMinusPu : IsPu (row .qMinus) base d.qMin d.qMinus

/-- A storage unit: ordered capability curve around 0, ordered capacity, efficiency in [0,1]. -/
structure StorageSpec (row : DevRow K) (base : K) (d : Device K) : Prop where
  charge : d.pMin ≤ .fin 0
  discharge : .fin 0 ≤ d.pMax
  p1 : d.pMin ≤ d.pMinus
  p2 : d.pMinus ≤ d.pPlus
  p3 : d.pPlus ≤ d.pMax
  q1 : d.qMin ≤ d.qMinus
  q2 : d.qMinus ≤ d.qPlus
  q3 : d.qPlus ≤ d.qMax
  soc0 : .fin 0 ≤ d.socMin
  soc1 : d.socMin ≤ d.socMax
  eff0 : .fin 0 ≤ d.eff
  eff1 : d.eff ≤ .fin 1
  effCell : d.eff = (row .eff).getD (.fin 1)
  pMaxPu : IsPu (row .pmax) base .pinf d.pMax
  pMinPu : IsPu (row .pmin) base .ninf d.pMin
  qMaxPu : IsPu (row .qmax) base .pinf d.qMax
  qMinPu : IsPu (row .qmin) base .ninf d.qMin
  pPlusPu : IsPu (row .pPlus) base d.pMax d.pPlus
  pMinusPu : IsPu (row .pMinus) base d.pMin d.pMinus
  qPlusPu : IsPu (row .qPlus) base d.qMax d.qPlus
  qMinusPu : IsPu (row .qMinus) base d.qMin d.qMinus
  socMinPu : IsPu (row .socMin) base (.fin 0) d.socMin
  socMaxPu : ∃ x, row .socMax = some x ∧ IsPu (some x) base .nan d.socMax

/-- A branch: endpoints are existing buses, non-negative parameters, non-zero impedance, positive tap,
shift between 0 and 360 degrees. -/
structure LineSpec (row : BranchRow K) (base : K) (ids : List ℤ) (l : Line K) : Prop where
  f : row .fBus = some (.fin (l.fBus : K)) ∧ l.fBus ∈ ids
  t : row .tBus = some (.fin (l.tBus : K)) ∧ l.tBus ∈ ids
  r : .fin 0 ≤ l.r
  x : .fin 0 ≤ l.x
  rx : l.r ≠ .fin 0 ∨ l.x ≠ .fin 0
  b : .fin 0 ≤ l.b
  rate : .fin 0 ≤ l.rate
  ratePu : IsPu (row .rate) base .pinf l.rate
  tap : .fin 0 < l.tapMagn
  shift0 : .fin 0 ≤ l.shiftDeg
  shift1 : l.shiftDeg ≤ .fin 360
  rCell : l.r = (row .r).getD (.fin 0)
  xCell : l.x = (row .x).getD (.fin 0)
  bCell : l.b = (row .b).getD (.fin 0)
  tapCell : l.tapMagn = (row .tap).getD (.fin 1)
  shiftCell : l.shiftDeg = (row .shift).getD (.fin 0)

end Anm.Spec
