import Mathlib.Algebra.Order.Ring.Rat
import Mathlib.Algebra.Field.Rat
import Mathlib.Data.Rat.Floor
import Verif.Model.Components

/-! # Concrete networks over ℚ used in the non-vacuity examples -/

namespace Anm

/-- A finite cell. -/
abbrev num (x : ℚ) : Cell ℚ := some (.fin x)

/-- The computation returns a value satisfying `P`. -/
def OkAnd {α : Type} (r : Except PyErr α) (P : α → Prop) : Prop :=
  match r with
  | .ok a => P a
  | .error _ => False

instance {α : Type} (r : Except PyErr α) (P : α → Prop) [DecidablePred P] : Decidable (OkAnd r P) :=
  match r with
  | .ok a => inferInstanceAs (Decidable (P a))
  | .error _ => inferInstanceAs (Decidable False)

/-- Used to settle concrete executions by evaluation. -/
theorem exOk {α : Type} {r : Except PyErr α} {P : α → Prop} (h : OkAnd r P) : ∃ a, r = .ok a ∧ P a := by
  cases r with
  | ok a => exact ⟨a, rfl, h⟩
  | error _ => exact h.elim

/-- A 3-bus network over ℚ: slack bus 0, load and generator at bus 1, storage at bus 2. -/
def demoNet : Network ℚ := Network.ofLists (.fin 100)
  [[num 0, num 0, num 132, num 1, num 1], [num 1, num 1, num 33, num (11/10), num (9/10)],
   [num 2, num 1, num 33, num (11/10), num (9/10)]]
  [[num 0, num 1, num (1/100), num (1/10), num 0, num 32, num 1, num 0],
   [num 1, num 2, num (1/50), num (3/10), none, num 25, none, none]]
  [[num 0, num 0, num 0, none, num 200, num (-200), num 200, num (-200), none, none, none, none, none, none, none],
   [num 1, num 1, num (-1), num (1/5), num 0, num (-10), none, none, none, none, none, none, none, none, none],
   [num 2, num 1, num 2, none, num 30, num 0, num 30, num (-30), num 20, none, num 15, num (-15), none, none, none],
   [num 3, num 2, num 3, none, num 50, num (-50), num 50, num (-50), num 30, num (-30), num 25, num (-25), num 100, num 0,
    num (9/10)]]

end Anm
