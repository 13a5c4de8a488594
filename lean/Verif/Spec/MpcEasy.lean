import Verif.Spec.Mpc
import Verif.Spec.Env

/-! # Specification vocabulary for the MPC agents in ANM6Easy -/

namespace Anm.Spec

/-- A table of numbers with `r` rows and `c` columns. -/
def NumTable (rows : List (List (X ℝ))) (r c : ℕ) : Prop :=
  rows.length = r ∧ ∀ row ∈ rows, row.length = c ∧ ∀ v ∈ row, ∃ z, v = .fin z

/-- CVXPY and the solver, for a network with `n` devices, among them `nl` loads, `ng` generators other than the
slack and `ns` storage units, and `N` stages: numbers are accepted as values of the parameters, and if some plan
satisfies all constraints, the solver returns the powers of the first stage of such a plan. -/
structure SolvesPlans (cv : Cvx ℝ) (n nl ng ns N : ℕ) : Prop where
  accept : ∀ load gen soc, NumTable load nl N → NumTable gen ng N → NumTable [soc] 1 ns → cv.accept load gen soc = .ok ()
  solve : ∀ cs obj x, (∀ c ∈ cs, c x = true) → ∃ x', (∀ c ∈ cs, c x' = true) ∧
    cv.solve cs obj = .ok (some ((List.range n).map fun j => .fin (power x' 0 j)))

/-- The forecasts of the two agents in an ANM6Easy environment: `MPCAgentPerfect` if `perfect`, and
`MPCAgentConstant` otherwise. -/
noncomputable def forecastOf {ρ : Type} (m : Mpc ℝ) (perfect : Bool) (a : Anm6 ℝ ρ) (y : EnvDyn ℝ) :
    Except PyErr (List (List (X ℝ)) × List (List (X ℝ))) :=
  if perfect then m.perfectForecast y.state else m.constantForecast a.env.sim

/-- The usual loop: in each step, the agent computes an action and the environment takes it. -/
inductive AgentRun {ρ : Type} (c : EnvCtx ℝ ρ) (cv : Cvx ℝ) (pi : ℝ) (m : Mpc ℝ) (perfect : Bool) :
    Anm6 ℝ ρ → List (Env.StepOut ℝ) → Anm6 ℝ ρ → Prop where
  | nil (a : Anm6 ℝ ρ) : AgentRun c cv pi m perfect a [] a
  | cons {a a1 a' : Anm6 ℝ ρ} {y : EnvDyn ℝ} {fc : List (List (X ℝ)) × List (List (X ℝ))} {u : List (X ℝ)}
      {o : Env.StepOut ℝ} {os : List (Env.StepOut ℝ)} : a.env.dyn = some y → forecastOf m perfect a y = .ok fc →
      m.act cv pi a.env.sim fc = .ok u → a.step c u = .ok (a1, o) → AgentRun c cv pi m perfect a1 os a' →
      AgentRun c cv pi m perfect a (o :: os) a'

end Anm.Spec
