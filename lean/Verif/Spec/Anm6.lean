import Verif.Model.Anm6
import Verif.Spec.Env

/-! # Specification vocabulary for the ANM6 environments -/

namespace Anm.Spec

/-! ### Time series -/

/-- The `i`-th value of a series. -/
def at' (s : List ℚ) (i : ℕ) : ℚ := s.getD i 0

/-- Between the quarters of an hour `a` and `a + 8` the series moves linearly: the seven values in between
lie on the line through both ends. -/
def Ramp (s : List ℚ) (a : ℕ) : Prop := ∀ k ≤ 8, at' s (a + k) = at' s a + k * ((at' s (a + 8) - at' s a) / 8)

/-- The row of the network file that describes the device with ID `i`. -/
def Row (i : ℚ) (r : DevRow ℚ) : Prop := r ∈ (anm6Net : Network ℚ).device ∧ r .devId = some (.fin i)

/-! ### Calendar -/

/-- Gregorian leap years. -/
def Leap (y : ℕ) : Prop := y % 4 = 0 ∧ (y % 100 ≠ 0 ∨ y % 400 = 0)

instance (y : ℕ) : Decidable (Leap y) := by unfold Leap; infer_instance

/-- The number of days of a year. -/
def yearDays (y : ℕ) : ℕ := if Leap y then 366 else 365

/-- The number of days before year `y`, counted from 1 January of year 1. -/
def daysBefore (y : ℕ) : ℕ := ((List.range' 1 (y - 1)).map yearDays).sum

/-- The date `d` (in microseconds) is midnight of day `n` of year `y`, where day 0 is 1 January. -/
def DayOf (y n : ℕ) (d : ℤ) : Prop := n < yearDays y ∧ d = ((daysBefore y + n : ℕ) : ℤ) * (24 * 3600 * 1000000)

/-- The generator draws integers and reals from the requested interval. -/
structure Fair {K ρ : Type} [Field K] [LinearOrder K] (g : Rng K ρ) : Prop where
  integers : ∀ r lo hi, lo < hi → lo ≤ (g.integers r lo hi).1 ∧ (g.integers r lo hi).1 < hi
  uniform : ∀ r (lo hi : K), lo ≤ hi → ∃ x, (g.uniform r (.fin lo) (.fin hi)).1 = .fin x ∧ lo ≤ x ∧ x ≤ hi

/-! ### Rendering -/

/-- A call of a method of an ANM6 object, as far as rendering is concerned; for `render` the mode, the
number of frames to skip and the way the external calls end, for `reset` whether it raises an exception. -/
inductive Event where
  | render (mode : String) (skip : ℤ) (w : World)
  | reset (raised : Bool)
  | step
  | close

/-- The result of a call: an exception, or a value (for `render`: whether the display was refreshed). -/
inductive Result where
  | raised
  | rendered (shown : Bool)
  | done
deriving DecidableEq

/-- The result of `render`. -/
def Result.ofRender : Except PyErr Bool → Result
  | .ok b => .rendered b
  | .error _ => .raised

/-- The result of `close`. -/
def Result.ofClose : Except PyErr Unit → Result
  | .ok _ => .done
  | .error _ => .raised

/-- The effect of a call. -/
def apply (s : Screen) : Event → Screen × Result
  | .render m k w => ((s.render w m k).1, .ofRender (s.render w m k).2)
  | .reset b => (s.reset b, if b then .raised else .done)
  | .step => (s, .done)
  | .close => ((s.close).1, .ofClose (s.close).2)

/-- The effect of a sequence of calls, and their results. -/
def play : Screen → List Event → Screen × List Result
  | s, [] => (s, [])
  | s, e :: l => ((play (apply s e).1 l).1, (apply s e).2 :: (play (apply s e).1 l).2)

/-- The results of the calls of `render`, in order. -/
def frames : List Result → List Bool
  | [] => []
  | .rendered b :: l => b :: frames l
  | _ :: l => frames l

/-- A call of `render(skip_frames=k)`, of `step`, or a `reset` without exception. -/
def Watching (k : ℕ) : Event → Prop
  | .render m j w => m = "human" ∧ j = k ∧ w.start = none ∧ w.update = none
  | .reset b => b = false
  | .step => True
  | .close => False

/-! ### ANM6 objects -/

variable {K ρ : Type} [Field K] [LinearOrder K] [FloorRing K]

/-- Successive calls of `step` on an ANM6 object, and what they return. -/
inductive Anm6Episode (c : EnvCtx K ρ) : Anm6 K ρ → List (List (X K)) → List (Env.StepOut K) → Anm6 K ρ → Prop where
  | nil (a : Anm6 K ρ) : Anm6Episode c a [] [] a
  | cons {a a1 a' : Anm6 K ρ} {u : List (X K)} {us : List (List (X K))} {o : Env.StepOut K}
      {os : List (Env.StepOut K)} :
      a.step c u = .ok (a1, o) → Anm6Episode c a1 us os a' → Anm6Episode c a (u :: us) (o :: os) a'

/-- An ANM6Easy object: one made by the constructor, then used by calls of `reset` and `step`. -/
inductive EasyOf (w : EasyWorld K ρ) (s0 : Sim K) : Anm6 K ρ → Prop where
  | make {a : Anm6 K ρ} : mkSim anm6Net (.fin (1/4)) (.fin 100) = .ok s0 →
      mkAnm6 (easyCtx w s0) easyArgs = .ok a → EasyOf w s0 a
  | reset {a a' : Anm6 K ρ} {seed date : Option ℤ} {obs : List (X K)} :
      EasyOf w s0 a → a.easyReset (easyCtx w s0) w.rng seed date = .ok (a', obs) → EasyOf w s0 a'
  | step {a a' : Anm6 K ρ} {u : List (X K)} {o : Env.StepOut K} :
      EasyOf w s0 a → a.step (easyCtx w s0) u = .ok (a', o) → EasyOf w s0 a'

/-- The last component of the state vector is the number `t`. -/
def Clock (e : Env K ρ) (t : ℕ) : Prop := ∃ y, e.dyn = some y ∧ y.state.getLast? = some (.fin (t : K))

/-- `v` lists the values of the five time series at the time of day `n`, then `n`. -/
def Exogenous (n : ℕ) (v : List (X K)) : Prop :=
  ∃ xs, v = xs ++ [.fin (n : K)] ∧
    List.Forall₂ (fun s x => ∃ q : ℚ, s[n]? = some q ∧ x = .fin (q : K)) (loadSeries ++ genSeries) xs

end Anm.Spec
