import Mathlib.Analysis.SpecialFunctions.Complex.Arg
import Mathlib.Data.Matrix.Basic
import Mathlib.Data.Fin.Tuple.Basic
import Mathlib.Algebra.BigOperators.Fin
import Mathlib.Algebra.Order.Floor.Ring
import Verif.Model.Simulator

/-!
# Model of `gym_anm/simulator/solve_load_flow.py`, of the numeric part of `components/branch.py` and of
`Simulator._build_admittance_matrix`, over ℝ and ℂ
-/

namespace Anm

open Complex ComplexConjugate

noncomputable section

/-- A complex number as numpy sees it. -/
def Phasor.ofC (z : ℂ) : Phasor ℝ := ⟨.fin z.re, .fin z.im, .fin ‖z‖, .fin z.arg⟩

/-! ## Branches -/

/-- A line all of whose parameters (except the rate) are finite. -/
structure LineC where
  fBus : ℤ
  tBus : ℤ
  r : ℝ
  x : ℝ
  b : ℝ
  tapMagn : ℝ
  shiftDeg : ℝ

/-- The finite parameters of a line, if they are. -/
def Line.finite? (l : Line ℝ) : Option LineC :=
  match l.r, l.x, l.b, l.tapMagn, l.shiftDeg with
  | .fin r, .fin x, .fin b, .fin a, .fin d => some ⟨l.fBus, l.tBus, r, x, b, a, d⟩
  | _, _, _, _, _ => none

namespace LineC
variable (l : LineC)

/-- `self.series` (`branch.py:145`). -/
def series : ℂ := 1 / (l.r + I * l.x)
/-- `self.shunt` (`branch.py:148`). -/
def shunt : ℂ := I * l.b / 2
/-- `self.shift`, in radians (`branch.py:137`). -/
def shift : ℝ := l.shiftDeg * Real.pi / 180
/-- `self.tap` (`branch.py:151`). -/
def tap : ℂ := l.tapMagn * exp (I * l.shift)

/-- `self.i_from` (`branch.py:166-168`). -/
def iFrom (vf vt : ℂ) : ℂ :=
  (l.series + l.shunt) * vf / (‖l.tap‖ : ℂ) ^ 2 + -l.series * vt / conj l.tap
/-- `self.i_to` (`branch.py:171-173`). -/
def iTo (vf vt : ℂ) : ℂ := (l.series + l.shunt) * vt + -l.series * vf / l.tap
/-- `s_from` (`branch.py:188`). -/
def sFrom (vf vt : ℂ) : ℂ := vf * conj (l.iFrom vf vt)
/-- `s_to` (`branch.py:193`). -/
def sTo (vf vt : ℂ) : ℂ := vt * conj (l.iTo vf vt)
/-- `self.s_apparent_max` (`branch.py:198`). -/
def sApparentMax (vf vt : ℂ) : X ℝ :=
  X.sign (.fin (l.sFrom vf vt).re) * X.maximum (.fin ‖l.sFrom vf vt‖) (.fin ‖l.sTo vf vt‖)

/-- `compute_currents` and `compute_power_flows` (`branch.py:153-198`). -/
def flow (vf vt : ℂ) : Flow ℝ :=
  { iFrom := .ofC (l.iFrom vf vt), iTo := .ofC (l.iTo vf vt)
    pFrom := .fin (l.sFrom vf vt).re, qFrom := .fin (l.sFrom vf vt).im
    pTo := .fin (l.sTo vf vt).re, qTo := .fin (l.sTo vf vt).im
    sApparentMax := l.sApparentMax vf vt }

end LineC

/-! ## Admittance matrix -/

/-- `Y[i, j] = z`. -/
def setAt (Y : ℤ → ℤ → ℂ) (i j : ℤ) (z : ℂ) : ℤ → ℤ → ℂ :=
  fun a b => if a = i ∧ b = j then z else Y a b

/-- The body of the loop of `_build_admittance_matrix` (`simulator.py:190-197`). -/
def ybusStep (Y : ℤ → ℤ → ℂ) (l : LineC) : ℤ → ℤ → ℂ :=
  let f := l.fBus
  let t := l.tBus
  let Y := setAt Y f t (-l.series / conj l.tap)
  let Y := setAt Y t f (-l.series / l.tap)
  let Y := setAt Y f f (Y f f + (l.series + l.shunt) / (‖l.tap‖ : ℂ) ^ 2)
  setAt Y t t (Y t t + (l.series + l.shunt))

/-- `_build_admittance_matrix` (`simulator.py:183-199`), for non-negative bus IDs (negative indices,
which count from the end, are not modelled). -/
def ybus (ls : List LineC) : ℤ → ℤ → ℂ := ls.foldl ybusStep (fun _ _ => 0)

/-! ## Newton-Raphson -/

/-- A guess (`solve_load_flow.py:92-94`): angles and magnitudes of the `m = N_bus - 1` last buses. -/
structure Guess (m : ℕ) where
  ang : Fin m → ℝ
  mag : Fin m → ℝ

/-- Index of a mismatch equation or of an unknown: first the real parts / angles, then the imaginary
parts / magnitudes. -/
abbrev Ix (m : ℕ) := Fin m ⊕ Fin m

namespace NR
variable {m : ℕ} (Y : Matrix (Fin (m + 1)) (Fin (m + 1)) ℂ)

/-- `_construct_v_from_guess` (`solve_load_flow.py:167-173`). -/
def volt (g : Guess m) : Fin (m + 1) → ℂ :=
  Fin.cons 1 fun k => (g.mag k : ℂ) * exp (I * g.ang k)

/-- `Y * v`. -/
def curr (v : Fin (m + 1) → ℂ) (i : Fin (m + 1)) : ℂ := ∑ j, Y i j * v j

/-- `(v * np.conj(Y * v))[1:]` (`solve_load_flow.py:116`). -/
def power (g : Guess m) (k : Fin m) : ℂ := volt g k.succ * conj (curr Y (volt g) k.succ)

/-- `_f` (`solve_load_flow.py:84-120`); `p + 1j * q` has the real part `p + 0*q`. -/
def f (p q : Fin m → X ℝ) (g : Guess m) : Ix m → X ℝ
  | .inl k => .fin (power Y g k).re - (p k + .fin 0 * q k)
  | .inr k => .fin (power Y g k).im - q k

/-- `norm(F, np.inf)` (`solve_load_flow.py:216`, `:222`). -/
def norm (F : Ix m → X ℝ) : X ℝ :=
  (List.ofFn (fun k => F (.inl k)) ++ List.ofFn (fun k => F (.inr k))).foldl
    (fun a x => X.maximum a (X.abs x)) 0

/-- `i_diag` (`solve_load_flow.py:151`). -/
def iDiag (v : Fin (m + 1) → ℂ) (i j : Fin (m + 1)) : ℂ := if i = j then curr Y v i else 0

/-- `dS_dVa` (`solve_load_flow.py:154`). -/
def dSdVa (v : Fin (m + 1) → ℂ) (i j : Fin (m + 1)) : ℂ :=
  I * v i * conj (iDiag Y v i j - Y i j * v j)

/-- `dS_dVm` (`solve_load_flow.py:155`). -/
def dSdVm (v : Fin (m + 1) → ℂ) (i j : Fin (m + 1)) : ℂ :=
  v i / (‖v i‖ : ℂ) * conj (iDiag Y v i j) + v i * conj (Y i j * (v j / (‖v j‖ : ℂ)))

/-- `_dfdx` (`solve_load_flow.py:123-164`), where it is finite. -/
def dfdx (g : Guess m) : Matrix (Ix m) (Ix m) ℝ := fun a b =>
  match a, b with
  | .inl i, .inl j => (dSdVa Y (volt g) i.succ j.succ).re
  | .inl i, .inr j => (dSdVm Y (volt g) i.succ j.succ).re
  | .inr i, .inl j => (dSdVa Y (volt g) i.succ j.succ).im
  | .inr i, .inr j => (dSdVm Y (volt g) i.succ j.succ).im

/-- The Jacobian handed to the linear solver; `none` if it has non-finite entries (`v / abs(v)` with
`v = 0`). -/
def jac (g : Guess m) : Option (Matrix (Ix m) (Ix m) ℝ) :=
  if ∃ k, g.mag k = 0 then none else some (dfdx Y g)

end NR

/-- External code used by the load flow. -/
structure LFOracle where
  /-- `spsolve`: any function of the matrix (`none`: not finite) and of the right-hand side; `none` is a
  result that is not finite. -/
  spsolve : ∀ m, Option (Matrix (Ix m) (Ix m) ℝ) → (Ix m → X ℝ) → Option (Ix m → ℝ)
  /-- Whether the residual of a non-finite guess at iteration `n` is infinite (otherwise NaN). -/
  blowup : ℕ → Bool
  /-- Voltages, currents and flows computed from a non-finite guess. -/
  garbage : PFIn ℝ → PFOut ℝ
  /-- Results for networks that are not modelled (non-finite line parameters, negative bus IDs, several
  slack buses). -/
  other : PF ℝ

namespace NR

/-- The local variables of the loop (`solve_load_flow.py:214-222`); `guess = none` when it is not
finite. -/
structure St (m : ℕ) where
  nIter : ℕ
  guess : Option (Guess m)
  F : Ix m → X ℝ

section
variable {m : ℕ} (o : LFOracle) (Y : Matrix (Fin (m + 1)) (Fin (m + 1)) ℂ) (p q : Fin m → X ℝ)

/-- `_f` at a possibly non-finite guess: then the residual is not finite. -/
def evalF (n : ℕ) : Option (Guess m) → Ix m → X ℝ
  | some g => f Y p q g
  | none => fun _ => if o.blowup n then .pinf else .nan

/-- `v_guess - spsolve(_dfdx(v_guess, Y), F)` (`solve_load_flow.py:220`). -/
def next (g : Option (Guess m)) (F : Ix m → X ℝ) : Option (Guess m) :=
  match g with
  | none => none
  | some g =>
    match o.spsolve m (jac Y g) F with
    | none => none
    | some d => some ⟨fun k => g.ang k - d (.inl k), fun k => g.mag k - d (.inr k)⟩

/-- The loop test (`solve_load_flow.py:218`). -/
def cond (xtol : ℝ) (s : St m) : Prop := .fin xtol < norm s.F ∧ s.nIter < 100

/-- The loop body (`solve_load_flow.py:219-222`). -/
def body (s : St m) : St m :=
  let g := next o Y s.guess s.F
  { nIter := s.nIter + 1, guess := g, F := evalF o Y p q (s.nIter + 1) g }

/-- `v_guess` (`solve_load_flow.py:42-43`): all angles 0, all magnitudes 1. -/
def flat : Guess m := ⟨fun _ => 0, fun _ => 1⟩

/-- The state before the loop (`solve_load_flow.py:214-216`). -/
def init : St m := { nIter := 0, guess := some flat, F := f Y p q flat }

open Classical in
/-- The loop, run at most `fuel` times; with `fuel = 100` the fuel is never exhausted before the loop
test fails (`C26_loop_terminates`). -/
def loop (xtol : ℝ) : ℕ → St m → St m
  | 0, s => s
  | n + 1, s => if cond xtol s then loop xtol n (body o Y p q s) else s

/-- `_newton_raphson_sparse` (`solve_load_flow.py:176-226`). -/
def run (xtol : ℝ) : St m := loop o Y p q xtol 100 (init Y p q)

end

open Classical in
/-- `stable = converged and diff <= xtol` (`solve_load_flow.py:49`, `:224`). -/
def stable {m : ℕ} (xtol : ℝ) (s : St m) : Bool :=
  decide (norm s.F ≠ .nan ∧ norm s.F ≤ .fin xtol)

end NR

/-! ## The load flow -/

/-- The default tolerance (`solve_load_flow.py:7`). -/
def xtol : ℝ := 1e-5

/-- `V[i]` for a bus ID, in an ID-indexed vector of length `m + 1`. -/
def atId {m : ℕ} (v : Fin (m + 1) → ℂ) (i : ℤ) : ℂ :=
  if h : i.toNat < m + 1 then v ⟨i.toNat, h⟩ else 0

/-- `Y_bus` as a square matrix. -/
def ymat (m : ℕ) (ls : List LineC) : Matrix (Fin (m + 1)) (Fin (m + 1)) ℂ :=
  fun i j => ybus ls (i : ℕ) (j : ℕ)

/-- The results computed from a finite voltage vector (`solve_load_flow.py:54-79`). -/
def outOf {m : ℕ} (ls : List LineC) (v : Fin (m + 1) → ℂ) (st : Bool) : PFOut ℝ :=
  let c := NR.curr (ymat m ls) v
  let s := v 0 * conj (c 0)                                                 -- :64
  { v := fun k => if h : k < m + 1 then .ofC (v ⟨k, h⟩) else .undef         -- :59
    i := fun k => if h : k < m + 1 then .ofC (c ⟨k, h⟩) else .undef         -- :55, :60
    slackP := .fin s.re, slackQ := .fin s.im                                -- :65-66
    flow := fun k => (ls[k]?).elim {} fun l =>
      l.flow (atId v l.fBus) (atId v l.tBus)                                -- :75-79
    stable := st }

/-- `solve_pfe_newton_raphson` for buses numbered `0, ..., m` with `m >= 1`, the injections `pq` of the
non-slack buses and finite line parameters. -/
def solveFinite (o : LFOracle) (inp : PFIn ℝ) (m : ℕ) (pq : Fin m → X ℝ × X ℝ) (ls : List LineC) :
    PFOut ℝ :=
  let s := NR.run o (ymat m ls) (fun k => (pq k).1) (fun k => (pq k).2) xtol -- :46
  match s.guess with
  | some g => outOf ls (NR.volt g) (NR.stable xtol s)                       -- :49, :52
  | none =>
    { o.garbage inp with
      v := fun k => if k = 0 then .ofC 1 else (o.garbage inp).v k
      stable := NR.stable xtol s }

/-- `[f(x) for x in l]` if all are defined. -/
def mapO {α β : Type} (f : α → Option β) : List α → Option (List β)
  | [] => some []
  | a :: l =>
    match f a, mapO f l with
    | some b, some bs => some (b :: bs)
    | _, _ => none

open Classical in
/-- The computation of `solve_pfe_newton_raphson` (`solve_load_flow.py:7-81`).

* If `max(ids) + 1` differs from the number of buses, `Y * v` raises `ValueError` (`:116`).
* With one bus, the norm of an empty vector raises `ValueError` (`:216`).
* Networks with negative IDs or non-finite line parameters are left to `o.other`. -/
def realPF (o : LFOracle) : PF ℝ := fun inp =>
  let ids : List ℤ := inp.buses.map (·.1)
  let n := inp.buses.length
  if ids.foldl max (ids.headD 0) + 1 ≠ (n : ℤ) then .error .valueError
  else if ids ≠ (List.range n).map Int.ofNat then o.other inp
  else if n ≤ 1 then .error .valueError
  else
    let pq := (inp.buses.filter (fun b => !b.2.1)).map (fun b => (b.2.2.1, b.2.2.2))  -- :31-39
    match mapO Line.finite? inp.lines with
    | none => o.other inp
    | some ls =>
      if h : pq.length = n - 1 then
        .ok (solveFinite o inp (n - 1) (fun k => pq.get (k.cast h.symm)) ls)
      else o.other inp

end

end Anm
