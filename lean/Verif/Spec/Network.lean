import Verif.Num
import Verif.Model.Components

/-!
# Specification of network files

Written from the documentation (`docs/source/topics/...`, `check_network.py` docstring), in terms of
the rows of the arrays only.
-/

namespace Anm.Spec

variable {K : Type} [Field K] [LinearOrder K]

/-- A cell that is not NaN. -/
def CellOk (c : Cell K) : Prop := c ≠ some X.nan

/-- The cells read by the validator contain no NaN. -/
structure NoNanTopology (n : Network K) : Prop where
  base : n.baseMVA ≠ X.nan
  bus : ∀ r ∈ n.bus, CellOk (r .busId) ∧ CellOk (r .busType)
  dev : ∀ r ∈ n.device, CellOk (r .devId) ∧ CellOk (r .busId) ∧ CellOk (r .devType)
  branch : ∀ r ∈ n.branch, CellOk (r .fBus) ∧ CellOk (r .tBus)

/-- The base power is positive. -/
def BasePos (n : Network K) : Prop := X.fin 0 < n.baseMVA

/-- A row of the bus array is the slack bus. -/
def IsSlackBus (r : BusRow K) : Prop := r .busType = some (X.fin 0)

/-- A row of the device array is the slack device. -/
def IsSlackDev (r : DevRow K) : Prop := r .devType = some (X.fin 0)

/-- Exactly one element of the list satisfies `P` (by position). -/
def ExactlyOne {α : Type} (P : α → Prop) (l : List α) : Prop :=
  ∃ (k : ℕ) (a : α), l[k]? = some a ∧ P a ∧ ∀ (j : ℕ) (b : α), l[j]? = some b → P b → j = k

/-- Rule 2: one slack bus. -/
def OneSlackBus (n : Network K) : Prop := ExactlyOne IsSlackBus n.bus
/-- Rule 3: one slack device. -/
def OneSlackDev (n : Network K) : Prop := ExactlyOne IsSlackDev n.device
/-- Rule 4: slack devices are on slack buses. -/
def SlackMatch (n : Network K) : Prop :=
  ∀ b ∈ n.bus, ∀ d ∈ n.device, IsSlackBus b → IsSlackDev d → b .busId = d .busId
/-- Rule 5: bus IDs are pairwise different. -/
def BusIdsDistinct (n : Network K) : Prop := n.bus.Pairwise fun a b => a .busId ≠ b .busId
/-- Rule 6: device IDs are pairwise different. -/
def DevIdsDistinct (n : Network K) : Prop := n.device.Pairwise fun a b => a .devId ≠ b .devId

/-- Two branch rows join the same two buses, in either direction. -/
def SameEnds (a b : BranchRow K) : Prop :=
  (a .fBus = b .fBus ∧ a .tBus = b .tBus) ∨ (a .fBus = b .tBus ∧ a .tBus = b .fBus)

/-- Rule 7: no self-loop, no parallel branches. -/
def SimpleGraph (n : Network K) : Prop :=
  (∀ a ∈ n.branch, a .fBus ≠ a .tBus) ∧ n.branch.Pairwise fun a b => ¬ SameEnds a b

/-- Rule 8: branches join existing buses. -/
def EndpointsExist (n : Network K) : Prop :=
  ∀ a ∈ n.branch, (∃ b ∈ n.bus, b .busId = a .fBus) ∧ (∃ b ∈ n.bus, b .busId = a .tBus)

/-- A well-formed network (all eight rules). -/
structure WellFormed (n : Network K) : Prop where
  basePos : BasePos n
  oneSlackBus : OneSlackBus n
  oneSlackDev : OneSlackDev n
  slackMatch : SlackMatch n
  busIds : BusIdsDistinct n
  devIds : DevIdsDistinct n
  simple : SimpleGraph n
  endpoints : EndpointsExist n

/-- The exception class documented for the first violated rule. -/
inductive FirstViolation (n : Network K) : PyErr → Prop where
  | base : ¬ BasePos n → FirstViolation n .baseMVAError
  | slackBus : BasePos n → ¬ OneSlackBus n → FirstViolation n .busSpecError
  | slackDev : BasePos n → OneSlackBus n → ¬ OneSlackDev n → FirstViolation n .deviceSpecError
  | slackMatch : BasePos n → OneSlackBus n → OneSlackDev n → ¬ SlackMatch n →
      FirstViolation n .deviceSpecError
  | busIds : BasePos n → OneSlackBus n → OneSlackDev n → SlackMatch n → ¬ BusIdsDistinct n →
      FirstViolation n .busSpecError
  | devIds : BasePos n → OneSlackBus n → OneSlackDev n → SlackMatch n → BusIdsDistinct n →
      ¬ DevIdsDistinct n → FirstViolation n .deviceSpecError
  | simple : BasePos n → OneSlackBus n → OneSlackDev n → SlackMatch n → BusIdsDistinct n →
      DevIdsDistinct n → ¬ SimpleGraph n → FirstViolation n .branchSpecError
  | endpoints : BasePos n → OneSlackBus n → OneSlackDev n → SlackMatch n → BusIdsDistinct n →
      DevIdsDistinct n → SimpleGraph n → ¬ EndpointsExist n → FirstViolation n .branchSpecError

end Anm.Spec
