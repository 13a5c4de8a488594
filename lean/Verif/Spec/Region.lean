import Verif.Model.Components

/-! # Specification of the feasible regions and of the projection -/

namespace Anm.Spec

variable {K : Type} [Field K] [LinearOrder K]

/-- `(p, q)` satisfies all rows of `G @ x <= h` (in extended arithmetic). -/
def Feasible (rows : List (HalfPlane K)) (p q : X K) : Prop :=
  ∀ r ∈ rows, r.gP * p + r.gQ * q ≤ r.h

/-- ... up to a tolerance. -/
def FeasibleTol (ε : K) (rows : List (HalfPlane K)) (p q : X K) : Prop :=
  ∀ r ∈ rows, r.gP * p + r.gQ * q ≤ r.h + .fin ε

/-- Ordinate at `x` of the straight line through `(x0, y0)` and `(x1, y1)`. -/
def lineAt (x0 y0 x1 y1 x : K) : K := y0 + (y1 - y0) * ((x - x0) / (x1 - x0))

/-- Finite parameters of a generator, in per-unit. -/
structure GenParams (K : Type) where
  (pmin pmax qmin qmax pplus qplus qminus : K)

/-- The documented capability region of a generator with potential `pot`: the box, cut above `P+` by
the straight lines from `(P+, qmax)` to `(pmax, Q+)` and from `(P+, qmin)` to `(pmax, Q-)`. -/
structure GenRegion (g : GenParams K) (pot p q : K) : Prop where
  pLo : g.pmin ≤ p
  pHi : p ≤ g.pmax
  pPot : p ≤ pot
  qLo : g.qmin ≤ q
  qHi : q ≤ g.qmax
  cutHi : g.pplus < p → q ≤ lineAt g.pplus g.qmax g.pmax g.qplus p
  cutLo : g.pplus < p → lineAt g.pplus g.qmin g.pmax g.qminus p ≤ q

/-- Finite parameters of a storage unit, in per-unit. -/
structure DesParams (K : Type) where
  (pmin pmax qmin qmax pplus pminus qplus qminus socMin socMax eff : K)

/-- The documented capability region of a storage unit, and the power window for which the state of
charge remains within its limits over a time step `dt`. -/
structure DesRegion (g : DesParams K) (dt soc p q : K) : Prop where
  pLo : g.pmin ≤ p
  pHi : p ≤ g.pmax
  qLo : g.qmin ≤ q
  qHi : q ≤ g.qmax
  cutHiR : g.pplus < p → q ≤ lineAt g.pplus g.qmax g.pmax g.qplus p
  cutLoR : g.pplus < p → lineAt g.pplus g.qmin g.pmax g.qminus p ≤ q
  cutHiL : p < g.pminus → q ≤ lineAt g.pminus g.qmax g.pmin g.qplus p
  cutLoL : p < g.pminus → lineAt g.pminus g.qmin g.pmin g.qminus p ≤ q
  charge : (soc - g.socMax) / (dt * g.eff) ≤ p
  discharge : p ≤ g.eff * (soc - g.socMin) / dt

/-- Squared distance. -/
def sqDist (p q p' q' : K) : K := (p - p') ^ 2 + (q - q') ^ 2

/-- `(p, q)` is a closest feasible point to `(p0, q0)`. -/
def IsClosest (rows : List (HalfPlane K)) (p0 q0 p q : K) : Prop :=
  Feasible rows (.fin p) (.fin q) ∧
  ∀ p' q', Feasible rows (.fin p') (.fin q') → sqDist p q p0 q0 ≤ sqDist p' q' p0 q0

/-- All coefficients of the left-hand sides are finite. -/
def FinCoeffs (rows : List (HalfPlane K)) : Prop := ∀ r ∈ rows, X.IsFin r.gP ∧ X.IsFin r.gQ

/-- Contract of an exact quadratic-program solver (hypothesis on the external solver): on finite
requests and rows with finite coefficients it fails only if the problem is infeasible, and otherwise
returns a closest feasible point. -/
structure QPExact (qp : QP K) : Prop where
  closest : ∀ rows p0 q0 x, FinCoeffs rows → qp rows (.fin p0, .fin q0) = some x →
    ∃ p q, x = (.fin p, .fin q) ∧ IsClosest rows p0 q0 p q
  complete : ∀ rows p0 q0, FinCoeffs rows → qp rows (.fin p0, .fin q0) = none →
    ∀ p q, ¬ Feasible rows (.fin p) (.fin q)

/-- Contract of a solver that returns feasible requests unchanged (implied by `QPExact`). -/
def QPKeeps (qp : QP K) : Prop := ∀ rows p q, FinCoeffs rows → Feasible rows (.fin p) (.fin q) →
  qp rows (.fin p, .fin q) = some (.fin p, .fin q)

/-- Contract of a solver whose solutions satisfy the constraints up to `ε`. -/
def QPSound (ε : K) (qp : QP K) : Prop :=
  ∀ rows r x, qp rows r = some x → FeasibleTol ε rows x.1 x.2

/-- Two device objects of the same machine: they differ at most in the electrical state. -/
def SameMachine (d d' : Device K) : Prop :=
  d' = { d with p := d'.p, q := d'.q, pPot := d'.pPot, soc := d'.soc }

/-- The limits of a generator are the finite numbers `g`. -/
structure HasGenParams (d : Device K) (g : GenParams K) : Prop where
  pmin : d.pMin = .fin g.pmin
  pmax : d.pMax = .fin g.pmax
  qmin : d.qMin = .fin g.qmin
  qmax : d.qMax = .fin g.qmax
  pplus : d.pPlus = .fin g.pplus
  qplus : d.qPlus = .fin g.qplus
  qminus : d.qMinus = .fin g.qminus

/-- The limits of a storage unit are the finite numbers `g`. -/
structure HasDesParams (d : Device K) (g : DesParams K) : Prop where
  pmin : d.pMin = .fin g.pmin
  pmax : d.pMax = .fin g.pmax
  qmin : d.qMin = .fin g.qmin
  qmax : d.qMax = .fin g.qmax
  pplus : d.pPlus = .fin g.pplus
  pminus : d.pMinus = .fin g.pminus
  qplus : d.qPlus = .fin g.qplus
  qminus : d.qMinus = .fin g.qminus
  socMin : d.socMin = .fin g.socMin
  socMax : d.socMax = .fin g.socMax
  eff : d.eff = .fin g.eff

end Anm.Spec
