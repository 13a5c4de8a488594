import Mathlib.Algebra.Order.Field.Basic
import Mathlib.Algebra.Order.Floor.Ring
import Mathlib.Tactic.Linarith

/-!
# Numbers, exceptions and small python idioms

`X K` models a python/numpy floating-point number over a linearly ordered field `K`:
finite values are exact elements of `K` (rounding and the sign of zero are idealised away), the
three IEEE-754 special values behave as in IEEE-754.
-/

namespace Anm

/-- A python float: NaN, minus infinity, a finite value, plus infinity. -/
inductive X (K : Type) where
  | nan : X K
  | ninf : X K
  | fin (x : K) : X K
  | pinf : X K
deriving DecidableEq

/-- Exception classes raised by the modelled code
(`gym_anm/errors.py`, `gym_anm/simulator/components/errors.py` and python built-ins). -/
inductive PyErr where
  | baseMVAError | busSpecError | deviceSpecError | genSpecError | loadSpecError
  | storageSpecError | branchSpecError
  | argsError | obsSpaceError | obsNotSupported | unitsNotSupported | envInit | envNextVars
  | keyError | indexError | typeError | valueError | overflowError | zeroDivision
  | attributeError | assertionError | notImplemented
deriving DecidableEq, Repr

/-- `if not c: raise e`. -/
def guardE (c : Prop) [Decidable c] (e : PyErr) : Except PyErr Unit :=
  if c then .ok () else .error e

@[simp] theorem guardE_ok {c : Prop} [Decidable c] {e : PyErr} {u : Unit} :
    guardE c e = .ok u ↔ c := by
  unfold guardE; split <;> simp_all

theorem guardE_error {c : Prop} [Decidable c] {e e' : PyErr} :
    guardE c e = .error e' ↔ ¬ c ∧ e = e' := by
  unfold guardE; split <;> simp_all

theorem bind_ok {ε α β : Type} {x : Except ε α} {f : α → Except ε β} {b : β} :
    (x >>= f) = .ok b ↔ ∃ a, x = .ok a ∧ f a = .ok b := by
  cases x <;> simp [bind, Except.bind]

theorem bind_error {ε α β : Type} {x : Except ε α} {f : α → Except ε β} {e : ε} :
    (x >>= f) = .error e ↔ x = .error e ∨ ∃ a, x = .ok a ∧ f a = .error e := by
  cases x <;> simp [bind, Except.bind]

@[simp] theorem pure_ok {ε α : Type} {a b : α} :
    (pure a : Except ε α) = .ok b ↔ a = b := by simp [pure, Except.pure]

@[simp] theorem pure_error {ε α : Type} {a : α} {e : ε} :
    (pure a : Except ε α) = .error e ↔ False := by simp [pure, Except.pure]

@[simp] theorem throw_ok {ε α : Type} {e : ε} {b : α} :
    (throw e : Except ε α) = .ok b ↔ False := by simp [throw, throwThe, MonadExceptOf.throw]

namespace X

variable {K : Type}

/-- The finite value, if any. -/
def toFin? : X K → Option K
  | fin x => some x
  | _ => none

/-- `not np.isnan(x)`. -/
def NotNan : X K → Prop
  | nan => False
  | _ => True

instance : DecidablePred (NotNan : X K → Prop) := fun x => by
  cases x <;> simp [NotNan] <;> infer_instance

/-- The value is a finite number. -/
def IsFin : X K → Prop
  | fin _ => True
  | _ => False

instance : DecidablePred (IsFin : X K → Prop) := fun x => by
  cases x <;> simp [IsFin] <;> infer_instance

theorem isFin_iff {x : X K} : IsFin x ↔ ∃ a, x = fin a := by
  cases x <;> simp [IsFin]

section ops
variable [Field K] [LinearOrder K]

instance : Zero (X K) := ⟨fin 0⟩
instance : One (X K) := ⟨fin 1⟩
instance : Inhabited (X K) := ⟨nan⟩

omit [LinearOrder K] in
theorem zero_def : (0 : X K) = fin 0 := rfl
omit [LinearOrder K] in
theorem one_def : (1 : X K) = fin 1 := rfl

/-- IEEE negation. -/
def neg : X K → X K
  | nan => nan
  | ninf => pinf
  | fin a => fin (-a)
  | pinf => ninf
instance : Neg (X K) := ⟨neg⟩

/-- IEEE addition. -/
def add : X K → X K → X K
  | fin a, fin b => fin (a + b)
  | nan, _ => nan
  | _, nan => nan
  | pinf, ninf => nan
  | ninf, pinf => nan
  | pinf, _ => pinf
  | _, pinf => pinf
  | ninf, _ => ninf
  | _, ninf => ninf
instance : Add (X K) := ⟨add⟩

/-- IEEE subtraction. -/
def sub (a b : X K) : X K := a + (-b)
instance : Sub (X K) := ⟨sub⟩

/-- Sign of a number as an integer (0 for NaN). -/
def sgn : X K → ℤ
  | nan => 0
  | ninf => -1
  | pinf => 1
  | fin a => if 0 < a then 1 else if a < 0 then -1 else 0

/-- Infinity with the sign of `s`; NaN if `s = 0`. -/
def infOf (s : ℤ) : X K := if 0 < s then pinf else if s < 0 then ninf else nan

/-- IEEE multiplication. -/
def mul : X K → X K → X K
  | fin a, fin b => fin (a * b)
  | nan, _ => nan
  | _, nan => nan
  | a, b => infOf (sgn a * sgn b)
instance : Mul (X K) := ⟨mul⟩

/-- numpy division: `x/0` is an infinity or NaN, not an exception (zeros are positive). -/
def div : X K → X K → X K
  | nan, _ => nan
  | _, nan => nan
  | fin a, fin b => if b = 0 then infOf (sgn (fin a)) else fin (a / b)
  | fin _, _ => fin 0
  | a, fin b => if b < 0 then infOf (- sgn a) else infOf (sgn a)
  | _, _ => nan
instance : Div (X K) := ⟨div⟩

/-- Division of python floats: raises `ZeroDivisionError`. -/
def pyDiv (a b : X K) : Except PyErr (X K) := do
  guardE (b ≠ fin 0) .zeroDivision
  pure (a / b)

/-- `a < b` on floats: false as soon as NaN is involved. -/
def lt : X K → X K → Prop
  | fin a, fin b => a < b
  | ninf, fin _ => True
  | ninf, pinf => True
  | fin _, pinf => True
  | _, _ => False
instance : LT (X K) := ⟨lt⟩

/-- `a <= b` on floats: false as soon as NaN is involved. -/
def le : X K → X K → Prop
  | fin a, fin b => a ≤ b
  | nan, _ => False
  | _, nan => False
  | ninf, _ => True
  | _, pinf => True
  | _, _ => False
instance : LE (X K) := ⟨le⟩

/-- `a == b` on floats: NaN differs from itself. -/
def feq : X K → X K → Prop
  | nan, _ => False
  | a, b => a = b

instance decLt (a b : X K) : Decidable (a < b) := by
  cases a <;> cases b <;>
    first
    | exact (inferInstance : Decidable True)
    | exact (inferInstance : Decidable False)
    | exact inferInstanceAs (Decidable ((_ : K) < _))
instance decLe (a b : X K) : Decidable (a ≤ b) := by
  cases a <;> cases b <;>
    first
    | exact (inferInstance : Decidable True)
    | exact (inferInstance : Decidable False)
    | exact inferInstanceAs (Decidable ((_ : K) ≤ _))
instance decFeq (a b : X K) : Decidable (feq a b) := by
  cases a <;>
    first
    | exact (inferInstance : Decidable False)
    | exact inferInstanceAs (Decidable ((_ : X K) = _))

/-- `np.maximum` (NaN-propagating). -/
def maximum (a b : X K) : X K :=
  if a = nan then nan else if b = nan then nan else if b ≤ a then a else b

/-- `np.minimum` (NaN-propagating). -/
def minimum (a b : X K) : X K :=
  if a = nan then nan else if b = nan then nan else if a ≤ b then a else b

/-- `np.clip(x, lo, hi) = np.minimum(np.maximum(x, lo), hi)`. -/
def clip (x lo hi : X K) : X K := minimum (maximum x lo) hi

/-- `np.abs`. -/
def abs : X K → X K
  | nan => nan
  | ninf => pinf
  | pinf => pinf
  | fin a => fin |a|

/-- `np.sign` of a real number. -/
def sign : X K → X K
  | nan => nan
  | ninf => fin (-1)
  | pinf => fin 1
  | fin a => if 0 < a then fin 1 else if a < 0 then fin (-1) else fin 0

/-- `int(x)`: truncation toward zero; NaN raises `ValueError`, infinities `OverflowError`. -/
def toInt [FloorRing K] : X K → Except PyErr ℤ
  | nan => .error .valueError
  | ninf => .error .overflowError
  | pinf => .error .overflowError
  | fin a => .ok (if 0 ≤ a then ⌊a⌋ else -⌊-a⌋)

end ops
end X

/-- One cell of a network array: `None` or a number. -/
abbrev Cell (K : Type) := Option (X K)

/-- `a == b` for two cells. -/
def cellEq {K : Type} : Cell K → Cell K → Prop
  | none, none => True
  | some a, some b => X.feq a b
  | _, _ => False

instance {K : Type} [DecidableEq K] (a b : Cell K) : Decidable (cellEq a b) := by
  unfold cellEq X.feq
  cases a with
  | none => cases b <;> infer_instance
  | some a =>
    cases b with
    | none => infer_instance
    | some b => cases a <;> cases b <;> infer_instance

/-- `int(cell)`: `int(None)` raises `TypeError`. -/
def cellInt {K : Type} [Field K] [LinearOrder K] [FloorRing K] : Cell K → Except PyErr ℤ
  | none => .error .typeError
  | some x => x.toInt

/-! ## python dictionaries (insertion ordered) -/

/-- An insertion-ordered python `dict` as a list of pairs with distinct keys. -/
abbrev Dict (α β : Type) := List (α × β)

namespace Dict
variable {α β : Type} [DecidableEq α]

/-- `d.get(k)`. -/
def get? (d : Dict α β) (k : α) : Option β := (d.find? (fun p => p.1 = k)).map (·.2)

/-- `d[k]`, raising `KeyError`. -/
def getE (d : Dict α β) (k : α) : Except PyErr β :=
  match d.get? k with
  | some v => .ok v
  | none => .error .keyError

/-- `d[k] = v`: an existing key keeps its position. -/
def set : Dict α β → α → β → Dict α β
  | [], k, v => [(k, v)]
  | (k', v') :: d, k, v => if k' = k then (k, v) :: d else (k', v') :: set d k v

/-- `d.keys()`. -/
def keys (d : Dict α β) : List α := d.map (·.1)

end Dict

end Anm
