import Verif.Model.Components

/-! # Model of `gym_anm/simulator/check_network.py` -/

namespace Anm

/-- `s.add(a)` on a python set represented by the list of its elements; `eq` is python equality.
(NaN objects are never equal to each other, so two NaN elements are both kept.) -/
def pySetAdd {α : Type} (eq : α → α → Bool) (s : List α) (a : α) : List α :=
  if s.any (eq a) then s else s ++ [a]

/-- `set(l)`. -/
def pySet {α : Type} (eq : α → α → Bool) (l : List α) : List α := l.foldl (pySetAdd eq) []

section
variable {K : Type} [Field K] [LinearOrder K]

/-- Equality of two cells as a boolean. -/
def cellEqB (a b : Cell K) : Bool := decide (cellEq a b)

/-- Equality of two pairs of cells. -/
def pairEqB (a b : Cell K × Cell K) : Bool := cellEqB a.1 b.1 && cellEqB a.2 b.2

/-- `set_branches` (`check_network.py:52-57`). -/
def setBranches (branch : List (BranchRow K)) : List (Cell K × Cell K) :=
  branch.foldl (fun s br =>
    pySetAdd pairEqB (pySetAdd pairEqB s (br .fBus, br .tBus)) (br .tBus, br .fBus)) []

/-- `check_network_specs` (`check_network.py:7-64`). -/
def checkNetwork (n : Network K) : Except PyErr Unit := do
  guardE (¬ n.baseMVA ≤ 0) .baseMVAError                                    -- :18-19
  let slackBus := n.bus.filter (fun r => cellEqB (r .busType) (some 0))
  guardE (slackBus.length = 1) .busSpecError                                -- :22-24
  let slackDev := n.device.filter (fun r => cellEqB (r .devType) (some 0))
  guardE (slackDev.length = 1) .deviceSpecError                             -- :27-29
  guardE (∀ b ∈ slackBus, ∀ d ∈ slackDev, cellEq (b .busId) (d .busId)) .deviceSpecError  -- :32-37
  let busIds := n.bus.map (· .busId)
  guardE (busIds.length = (pySet cellEqB busIds).length) .busSpecError      -- :40-43
  let devIds := n.device.map (· .devId)
  guardE (devIds.length = (pySet cellEqB devIds).length) .deviceSpecError   -- :46-49
  let sb := setBranches n.branch                                            -- :52-57
  guardE (sb.length = 2 * n.branch.length) .branchSpecError                 -- :58-59
  guardE (∀ br ∈ sb, busIds.any (cellEqB br.1) ∧ busIds.any (cellEqB br.2))
    .branchSpecError                                                        -- :62-64

end

end Anm
