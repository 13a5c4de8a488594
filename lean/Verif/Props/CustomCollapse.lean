import Verif.Props.CustomPlay
import Verif.Props.Collapse

/-!
# C159: an action that collapses the six-bus example

The reactive powers, which C158 leaves out, are enough to end an episode of `examples/custom_anm6.py` at any time.
-/

namespace Anm

open Spec Complex ComplexConjugate

noncomputable section

/-- The point closest to a feasible one is that point. -/
theorem closest_stays {C : ℝ → ℝ → Prop} {p q x y : ℝ} (h0 : C p q) (h : ClosestIn C p q x y) : x = p ∧ y = q := by
  have := h.2 p q h0
  simp only [sqDist, sub_self] at this
  constructor <;> nlinarith [sq_nonneg (x - p), sq_nonneg (y - q)]

variable {ρ : Type} {w : ExampleWorld ℝ ρ} {a a' : Anm6 ℝ ρ} {y : EnvDyn ℝ}

/-- **C159.** Whatever the solver of the linear systems does, and with exact projections: in every state between two steps of the six-bus
example the action [0, 0, -30, -50, 0, -50] of its action space collapses the network, whatever is drawn; the reward is -1000. -/
theorem C159_collapse {o : LFOracle} (hw : w.sim.pf = realPF o) (hn : FairNumpy w.np) (ha : CustomOf w easySim a)
    (G : GoodSolvers w.sim (easySim : Sim ℝ)) (hy : a.env.dyn = some y) (ht : y.terminated = false) {out : Env.StepOut ℝ}
    (h : a.step (customCtx w easySim) drain = .ok (a', out)) : out.terminated = true ∧ out.reward = .fin (-1000) := by
  have hw' : w.sim = ⟨w.sim.qp, realPF o, w.sim.pi⟩ := by rw [← hw]
  suffices hterm : out.terminated = true by
    refine ⟨hterm, ?_⟩
    obtain ⟨e1, dd, dd0, h2, -, -, rfl⟩ := anm6_step_ok h
    rw [C47_terminating_made (c1 := some (.fin 1)) (c2 := 100) (g := 9/10) (custom_env ha) rfl rfl (by norm_num) hy ht h2 hterm]
    norm_num
  obtain ⟨args, tr, l1, l5, pot, k1, k2, I⟩ := custom_inputs hn ha hy ht h
  have hs := envOf_simOf (custom_env ha)
  have hc := custom_sameConfig ha
  obtain ⟨d0, d1, d2, d3, d4, d5, d6, x2, y2, x4, y4, x6, y6, z, J, g2, g4, g6, z1, z2⟩ :=
    custom_applied G.exact hs hc ((custom_live hn ha G).2 y hy).1 I k1
  obtain ⟨rfl, rfl⟩ := closest_stays (by
    constructor <;> norm_num [easyGen2]) g2
  obtain ⟨rfl, rfl⟩ := closest_stays (by constructor <;> norm_num [easyGen4]) g4
  obtain ⟨rfl, rfl⟩ := closest_stays (by
    constructor <;> norm_num [easyDes]
    · linarith
    · positivity) g6
  rw [k2]
  rw [hw'] at k1
  obtain ⟨n1, -⟩ := inject_run hs hc k1 J
  cases hcv : tr.converged with
  | false => rfl
  | true =>
    rw [hcv] at n1
    obtain ⟨G', -, hG⟩ := NR.stable_spec (by unfold xtol; norm_num) (by norm_num) n1.symm
    exfalso
    obtain ⟨-, -, C1⟩ := I.load1
    obtain ⟨-, -, C5⟩ := I.load5
    refine C127_no_solution (V := NR.volt G') rfl (s := fun k => ⟨busInj (powers l1 (100 * (0 / 100)) 0 (100 * (0 / 100)) l5 (100 * (0 / 100))) k,
      busInj (powers (l1 / 5) (100 * (-30 / 100)) 0 (100 * (-50 / 100)) (l5 / 5) (100 * (-50 / 100))) k⟩) (fun k => ?_) (fun k => ?_) ?_ ?_ ?_ (fun k => ?_)
    rotate_left 5
    · obtain ⟨x, z, hx, hz, hG1, hG2⟩ := hG k
      cases hx
      cases hz
      exact ⟨hG1, hG2⟩
    · fin_cases k <;> simp [busInj, powers] <;> linarith
    · fin_cases k <;> simp [busInj, powers] <;> linarith
    all_goals simp [busInj, powers]; linarith

/-- **C159, the step exists.** -/
theorem C159_step {o : LFOracle} (hw : w.sim.pf = realPF o) (hn : FairNumpy w.np) (ha : CustomOf w easySim a)
    (G : GoodSolvers w.sim (easySim : Sim ℝ)) (hy : a.env.dyn = some y) (ht : y.terminated = false) {d : ℤ} (hd : a.date = some d) (h0 : 0 ≤ d)
    (hlt : d + 15 * (60 * 1000000) < 3652059 * dayMicros) :
    a.env.actionSpace.contains drain true ∧ ∃ a' out, a.step (customCtx w easySim) drain = .ok (a', out) ∧ out.terminated = true ∧
      out.reward = .fin (-1000) := by
  refine ⟨by rw [(C100_custom_spaces ha).1]; exact drain_contained, ?_⟩
  obtain ⟨d', hd', hs⟩ := C100_custom_step hn ha G hy drain_contained
  rw [hd] at hd'
  cases hd'
  rcases hs h0 with ⟨a', out, h⟩ | ⟨-, h⟩
  · exact ⟨a', out, h, C159_collapse hw hn ha G hy ht h⟩
  · omega

/-! ### A case that meets the hypotheses -/

/-- The action of C159 ends an episode right after a reset. -/
example : ∃ (a a' : Anm6 ℝ ℕ) (obs : List (X ℝ)) (a1 : Anm6 ℝ ℕ) (out : Env.StepOut ℝ), CustomOf (exactExamples exactOracle) easySim a ∧
    a.reset (customCtx (exactExamples exactOracle) easySim) (exactExamples exactOracle).rng (some 7) none = .ok (a', obs) ∧
    a'.step (customCtx (exactExamples exactOracle) easySim) drain = .ok (a1, out) ∧ out.terminated = true ∧ out.reward = .fin (-1000) := by
  obtain ⟨a, h0⟩ := C100_custom_made (w := exactExamples exactOracle) fun _ _ => rfl
  have ha := CustomOf.make h0
  obtain ⟨a', obs, d, y, -, h, -, hd, hr, hy, hf, -⟩ :=
    C157_reset exactOracle_exact rfl fair_midReal fair_real ha (C83_solvers exactOracle _) (some 7) none
  obtain ⟨h2, h3⟩ := hr rfl
  have hdm : dayMicros = 24 * 60 * 60 * 1000000 := rfl
  obtain ⟨-, a1, out, h4, h5, h6⟩ := C159_step (o := exactOracle) rfl fair_midReal (ha.reset h) (C83_solvers exactOracle _) hy hf hd h2 (by omega)
  exact ⟨a, a', obs, a1, out, ha, h, h4, h5, h6⟩

end

end Anm
