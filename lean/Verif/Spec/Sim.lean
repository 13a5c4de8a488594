import Verif.Spec.Region
import Verif.Spec.Components
import Verif.Model.Simulator
import Mathlib.Logic.Relation

/-! # Specification vocabulary for simulators -/

namespace Anm.Spec

variable {K : Type} [Field K] [LinearOrder K]

/-- Two bus objects of the same bus: they differ at most in the electrical state. -/
def SameBus (b b' : Bus K) : Prop :=
  b' = { b with p := b'.p, q := b'.q, v := b'.v, i := b'.i }

/-- Two simulators of the same network: they differ at most in the electrical state. -/
structure SameConfig (s s' : Sim K) : Prop where
  base : s'.baseMVA = s.baseMVA
  dt : s'.deltaT = s.deltaT
  lamb : s'.lamb = s.lamb
  buses : List.Forall₂ SameBus s.buses s'.buses
  branches : List.Forall₂ (fun b b' => b'.line = b.line) s.branches s'.branches
  devices : List.Forall₂ SameMachine s.devices s'.devices

/-- `s` is a simulator constructed from the network file `n`, possibly after some use. -/
def SimOf [FloorRing K] (n : Network K) (dt lam : X K) (s : Sim K) : Prop :=
  ∃ s0, mkSim n dt lam = .ok s0 ∧ SameConfig s0 s

/-- Some call of `transition` leads from `s` to `s'`. -/
def Step (c : Ctx K) (s s' : Sim K) : Prop := ∃ a o, s.transition c a = .ok (s', o)

/-- Some sequence of calls of `transition` leads from `s` to `s'`. -/
def Reach (c : Ctx K) : Sim K → Sim K → Prop := Relation.ReflTransGen (Step c)

end Anm.Spec

namespace Anm.Spec

variable {K : Type} [Field K] [LinearOrder K]

/-- A network file without NaN cells and with a finite base power. -/
structure CleanFile (n : Network K) (base : K) : Prop where
  base : n.baseMVA = .fin base
  bus : ∀ r ∈ n.bus, RowOk r
  branch : ∀ r ∈ n.branch, RowOk r
  device : ∀ r ∈ n.device, RowOk r

/-- `r` is the row of the file that describes the device with ID `i`. -/
def IsRowOf [FloorRing K] (n : Network K) (i : ℤ) (r : DevRow K) : Prop :=
  r ∈ n.device ∧ ∃ x, r .devId = some x ∧ x.toInt = .ok i

/-- The state of charge of every storage unit is within its limits. -/
def SocOk (s : Sim K) : Prop :=
  ∀ d ∈ s.devices, d.isStorage = true → ∃ x, d.soc = some x ∧ d.socMin ≤ x ∧ x ≤ d.socMax

/-- All storage units have a finite capacity. -/
def FiniteCapacity (s : Sim K) : Prop :=
  ∀ d ∈ s.devices, d.isStorage = true → ∃ b, d.socMax = .fin b

/-- The solver never returns a NaN active power. -/
def QPNotNan (qp : QP K) : Prop := ∀ rows r x, qp rows r = some x → X.NotNan x.1

/-- A sequence of transitions from `s` to `s'` during which the device with ID `i` injects successively
the powers `ps`. -/
inductive Trajectory (c : Ctx K) (i : ℤ) : Sim K → List K → Sim K → Prop where
  | nil (s : Sim K) : Trajectory c i s [] s
  | cons {s s1 s' : Sim K} {p : K} {ps : List K} {d : Device K} :
      Step c s s1 → d ∈ s1.devices → d.id = i → d.p = .fin p → Trajectory c i s1 ps s' →
      Trajectory c i s (p :: ps) s'

/-- Energy delivered to the grid: the sum of `dt * p` over the steps with `p > 0`. -/
def delivered (dt : K) (ps : List K) : K := (ps.map fun p => dt * max p 0).sum
/-- Energy drawn from the grid: the sum of `dt * (-p)` over the steps with `p < 0`. -/
def drawn (dt : K) (ps : List K) : K := (ps.map fun p => dt * max (-p) 0).sum

end Anm.Spec
