import Mathlib.LinearAlgebra.Matrix.NonsingularInverse
import Verif.Model.LoadFlow

/-! # Specification vocabulary for the load flow -/

namespace Anm.Spec

open Complex ComplexConjugate

noncomputable section

/-! ### The π-model of a branch with an ideal transformer at the sending end -/

/-- Current entering the branch at the sending end: an ideal transformer of complex ratio `t` reduces the
sending voltage to `vf / t`; behind it the series admittance `y` and half of the line charging `jb`. -/
def piFrom (y : ℂ) (b : ℝ) (t vf vt : ℂ) : ℂ := (y * (vf / t - vt) + I * (b / 2) * (vf / t)) / conj t

/-- Current entering the branch at the receiving end. -/
def piTo (y : ℂ) (b : ℝ) (t vf vt : ℂ) : ℂ := y * (vt - vf / t) + I * (b / 2) * vt

/-! ### Kirchhoff's current law -/

/-- Sum of the currents entering, at bus `i`, the branches attached to it (voltages by bus ID). -/
def leaving (ls : List LineC) (V : ℤ → ℂ) (i : ℤ) : ℂ :=
  (ls.map fun l => (if l.fBus = i then l.iFrom (V l.fBus) (V l.tBus) else 0) +
    (if l.tBus = i then l.iTo (V l.fBus) (V l.tBus) else 0)).sum

/-- Active losses of a branch: what enters at both ends. -/
def loss (l : LineC) (V : ℤ → ℂ) : ℝ :=
  (l.sFrom (V l.fBus) (V l.tBus)).re + (l.sTo (V l.fBus) (V l.tBus)).re

/-- No self loops, at most one branch between two buses. -/
def SimpleLines (ls : List LineC) : Prop :=
  (∀ l ∈ ls, l.fBus ≠ l.tBus) ∧
  ls.Pairwise fun l l' => ¬ (l.fBus = l'.fBus ∧ l.tBus = l'.tBus) ∧ ¬ (l.fBus = l'.tBus ∧ l.tBus = l'.fBus)

/-- The ends of all branches are among the buses `0, ..., m`. -/
def EndsIn (m : ℕ) (ls : List LineC) : Prop :=
  ∀ l ∈ ls, (0 ≤ l.fBus ∧ l.fBus < (m + 1 : ℕ)) ∧ (0 ≤ l.tBus ∧ l.tBus < (m + 1 : ℕ))

/-! ### `while` loops -/

/-- Big-step semantics of `while cond: s = body(s)`: from `s` the loop ends in `s'` after `k` passes. -/
inductive WhileRun {σ : Type} (cond : σ → Prop) (body : σ → σ) : σ → ℕ → σ → Prop where
  | stop {s : σ} : ¬ cond s → WhileRun cond body s 0 s
  | pass {s s' : σ} {k : ℕ} : cond s → WhileRun cond body (body s) k s' →
      WhileRun cond body s (k + 1) s'

/-! ### Simulators on which the load flow is modelled -/

/-- Buses are numbered `0, ..., m` and bus 0 is the slack bus. -/
structure Numbered (s : Sim ℝ) (m : ℕ) : Prop where
  ids : s.buses.map Bus.id = (List.range (m + 1)).map Int.ofNat
  pos : 1 ≤ m
  slack : ∀ b ∈ s.buses, b.isSlack = true ↔ b.id = 0

/-- All line parameters are finite. -/
def FiniteLines (s : Sim ℝ) (ls : List LineC) : Prop :=
  List.Forall₂ (fun (b : Branch ℝ) l => b.line.finite? = some l) s.branches ls

end

end Anm.Spec

namespace Anm.Spec

open Complex ComplexConjugate

/-- The electrical state of the simulator `s` is the one of the voltages `V` (by bus ID): the slack bus 0
is at `1 + 0j`, bus currents are what leaves the bus through the branches, branch quantities are those of
the branch equations, and the slack bus injects `V0 * conj(I0)`. -/
structure Solved (s : Sim ℝ) (ls : List LineC) (V : ℤ → ℂ) : Prop where
  ref : V 0 = 1
  v : ∀ b ∈ s.buses, b.v = .ofC (V b.id)
  i : ∀ b ∈ s.buses, b.i = .ofC (leaving ls V b.id)
  slack : ∀ b ∈ s.buses, b.isSlack = true → b.p = .fin (V 0 * conj (leaving ls V 0)).re ∧
    b.q = .fin (V 0 * conj (leaving ls V 0)).im
  flow : List.Forall₂ (fun (b : Branch ℝ) l => b.line.finite? = some l ∧
    b.flow = l.flow (V l.fBus) (V l.tBus)) s.branches ls

/-- The non-slack buses satisfy the power-flow equations up to `ε`, in active and in reactive power. -/
def Balanced (ε : ℝ) (s : Sim ℝ) (ls : List LineC) (V : ℤ → ℂ) : Prop :=
  ∀ b ∈ s.buses, b.isSlack = false → ∃ p q, b.p = .fin p ∧ b.q = .fin q ∧
    |(V b.id * conj (leaving ls V b.id)).re - p| ≤ ε ∧ |(V b.id * conj (leaving ls V b.id)).im - q| ≤ ε

/-- The component of a guess with a given index. -/
def guessGet {m : ℕ} (g : Guess m) : Ix m → ℝ
  | .inl k => g.ang k
  | .inr k => g.mag k

/-- Change one component of a guess. -/
def guessSet {m : ℕ} (g : Guess m) : Ix m → ℝ → Guess m
  | .inl k, t => ⟨Function.update g.ang k t, g.mag⟩
  | .inr k, t => ⟨g.ang, Function.update g.mag k t⟩

/-- The value of a finite number. -/
def finVal : X ℝ → ℝ
  | .fin x => x
  | _ => 0

/-- A linear solver that solves every invertible finite system exactly. -/
def ExactSolve (o : LFOracle) : Prop :=
  ∀ m (J : Matrix (Ix m) (Ix m) ℝ) (F : Ix m → ℝ), IsUnit J.det →
    ∃ d, o.spsolve m (some J) (fun k => .fin (F k)) = some d ∧ J.mulVec d = F

end Anm.Spec
