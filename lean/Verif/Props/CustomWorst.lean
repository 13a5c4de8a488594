import Verif.Props.CustomCosts

/-!
# C162: the rewards of the six-bus example

Every reward is a number, and the action of C159 is the worst one in every state.
-/

namespace Anm

open Spec Complex ComplexConjugate Radial

noncomputable section

theorem fin_between {lo hi : ℝ} {x : X ℝ} (h1 : .fin lo ≤ x) (h2 : x ≤ .fin hi) : ∃ z, x = .fin z ∧ lo ≤ z ∧ z ≤ hi := by
  cases x with
  | fin z => exact ⟨z, rfl, X.fin_le_fin.1 h1, X.fin_le_fin.1 h2⟩
  | nan => exact absurd (X.le_notNan h1).2 (by simp [X.NotNan])
  | ninf => exact absurd h1 (by simp)
  | pinf => exact absurd h2 (by simp)

/-- The actions of the six-bus network are made of six numbers. -/
theorem easyActions_six {u : List (X ℝ)} (h : easyActions.contains u true) :
    ∃ p2 p4 q2 q4 p6 q6 : ℝ, u = [.fin p2, .fin p4, .fin q2, .fin q4, .fin p6, .fin q6] := by
  obtain ⟨-, hl, h1, h2⟩ := h
  match u, hl with
  | [x1, x2, x3, x4, x5, x6], _ =>
    simp only [easyActions, boxOf, List.map_cons, List.map_nil, List.forall₂_cons, List.forall₂_nil_left_iff, and_true] at h1 h2
    obtain ⟨a1, a2, a3, a4, a5, a6⟩ := h1
    obtain ⟨b1, b2, b3, b4, b5, b6⟩ := h2
    obtain ⟨z1, rfl, -⟩ := fin_between a1 b1
    obtain ⟨z2, rfl, -⟩ := fin_between a2 b2
    obtain ⟨z3, rfl, -⟩ := fin_between a3 b3
    obtain ⟨z4, rfl, -⟩ := fin_between a4 b4
    obtain ⟨z5, rfl, -⟩ := fin_between a5 b5
    obtain ⟨z6, rfl, -⟩ := fin_between a6 b6
    exact ⟨_, _, _, _, _, _, rfl⟩

variable {ρ : Type} {w : ExampleWorld ℝ ρ} {a a' : Anm6 ℝ ρ} {y : EnvDyn ℝ}

/-- **C162, steps.** The reward of every step of the six-bus example, whatever the action, the draws and the solvers, is a number: -1000 if
the step ends the episode, otherwise a number between -101 and 1. -/
theorem C162_step {o : LFOracle} (hw : w.sim.pf = realPF o) (hn : FairNumpy w.np) (ha : CustomOf w easySim a) (hy : a.env.dyn = some y)
    (ht : y.terminated = false) {u : List (X ℝ)} {out : Env.StepOut ℝ} (h : a.step (customCtx w easySim) u = .ok (a', out)) :
    ∃ r, out.reward = .fin r ∧ (out.terminated = true → r = -1000) ∧ (out.terminated = false → -101 ≤ r ∧ r ≤ 1) := by
  classical
  obtain ⟨e1, dd, dd0, hst, -, -, hae⟩ := anm6_step_ok h
  cases hf : out.terminated with
  | true =>
    refine ⟨_, C47_terminating_made (c1 := some (.fin 1)) (c2 := 100) (g := 9/10) (custom_env ha) rfl rfl (by norm_num) hy ht hst hf, fun _ => ?_, by simp⟩
    norm_num
  | false =>
    have hu := (step_ok hst).1
    rw [(C100_custom_spaces ha).1] at hu
    obtain ⟨p2, p4, q2, q4, p6, q6, rfl⟩ := easyActions_six hu
    have hw' : w.sim = ⟨w.sim.qp, realPF o, w.sim.pi⟩ := by rw [← hw]
    obtain ⟨args, tr, l1, l5, pot, h1, h2, h3⟩ := custom_inputs hn ha hy ht h
    have hs := envOf_simOf (custom_env ha)
    have hc := custom_sameConfig ha
    have hcv : tr.converged = true := by
      rw [hf] at h2
      simpa using h2.symm
    have h1' := h1
    rw [hw'] at h1'
    obtain ⟨x, hx⟩ := custom_loss hs hc h3 h1' hcv
    obtain ⟨V, hV, -⟩ := C25_converged anm6_clean hs (numbered_same hc easy_numbered) (finiteLines_same hc easy_finiteLines) h1' hcv
    have hpen := solved_penalty hs hc h1' hV (m := fun k => ∀ b, a'.env.sim.branches[k.1]? = some b → b.flow.pFrom ≠ .fin 0) (fun k b hb =>
      ⟨fun h => h b hb, fun h b' hb' => by rw [hb] at hb'; cases hb'; exact h⟩)
    obtain ⟨args1, tr1, y1, t1, -, -, -, -, t5⟩ := C47_reward (custom_clipping ha).1 (custom_clipping ha).2 zero_le_one (by norm_num) hst hf
    rw [hae] at h1
    obtain ⟨c1, c2⟩ := same_costs h1 t1
    obtain ⟨t6, t7⟩ := t5 (by rw [← c1, hx]; exact X.notNan_fin _) (by rw [← c2, hpen]; exact X.notNan_fin _)
    obtain ⟨r, hr, r1, r2⟩ := fin_between t6 t7
    exact ⟨r, hr, by simp, fun _ => ⟨by linarith, r2⟩⟩

/-- **C162, the worst action.** In every state of the six-bus example between two steps, no action is rewarded less than the action of C159,
and every action that does not end the episode is rewarded more, by 899 or more. -/
theorem C162_worst {o : LFOracle} (hw : w.sim.pf = realPF o) (hn : FairNumpy w.np) (ha : CustomOf w easySim a)
    (G : GoodSolvers w.sim (easySim : Sim ℝ)) (hy : a.env.dyn = some y) (ht : y.terminated = false) {d : ℤ} (hd : a.date = some d) (h0 : 0 ≤ d)
    (hlt : d + 15 * (60 * 1000000) < 3652059 * dayMicros) :
    ∃ a0 out0 r0, a.step (customCtx w easySim) drain = .ok (a0, out0) ∧ out0.reward = .fin r0 ∧
      ∀ u a1 out, a.step (customCtx w easySim) u = .ok (a1, out) →
        ∃ r, out.reward = .fin r ∧ r0 ≤ r ∧ (out.terminated = false → r0 + 899 ≤ r) := by
  obtain ⟨-, a0, out0, k1, -, k3⟩ := C159_step hw hn ha G hy ht hd h0 hlt
  refine ⟨a0, out0, _, k1, k3, fun u a1 out h => ?_⟩
  obtain ⟨r, r1, r2, r3⟩ := C162_step hw hn ha hy ht h
  refine ⟨r, r1, ?_, fun hf => by linarith [(r3 hf).1]⟩
  cases hf : out.terminated with
  | true => exact (r2 hf).ge
  | false => linarith [(r3 hf).1]

/-- **C162, episodes.** The discounted rewards of any agent of the six-bus example sum up to a number between -1010 and 10. -/
theorem C162_return {o : LFOracle} (hw : w.sim.pf = realPF o) (hn : FairNumpy w.np) {us : List (List (X ℝ))} {os : List (Env.StepOut ℝ)}
    (h : Anm6Episode (customCtx w easySim) a us os a') (ha : CustomOf w easySim a) (hy : a.env.dyn = some y) :
    ∃ rs : List ℝ, os.map (·.reward) = rs.map X.fin ∧ -1010 ≤ discounted (9/10) rs ∧ discounted (9/10) rs ≤ 10 := by
  suffices H : ∃ rs : List ℝ, os.map (·.reward) = rs.map X.fin ∧ (y.terminated = true → discounted (9/10) rs = 0) ∧
      -1010 ≤ discounted (9/10) rs ∧ discounted (9/10) rs ≤ 10 by
    obtain ⟨rs, h1, -, h2⟩ := H
    exact ⟨rs, h1, h2⟩
  induction h generalizing y with
  | nil a => exact ⟨[], rfl, fun _ => rfl, by simp [discounted], by simp [discounted]⟩
  | @cons a a1 a' u us out os h1 h2 ih =>
    obtain ⟨e, d, d0, h3, -, -, e1⟩ := anm6_step_ok h1
    obtain ⟨y1, hy1, hf⟩ := C46_flag h3
    obtain ⟨rs, hrs, i1, i2, i3⟩ := ih (ha.step h1) (y := y1) (by rw [e1]; exact hy1)
    cases hyt : y.terminated with
    | true =>
      obtain ⟨hu, -⟩ := step_ok h3
      rw [(C46_terminal_step hy hyt u).1 hu] at h3
      cases h3
      rw [hy] at hy1
      cases hy1
      refine ⟨0 :: rs, by simp [hrs, X.zero_def], ?_⟩
      simp only [discounted, i1 hyt]
      norm_num
    | false =>
      obtain ⟨r, hr, k2, k3⟩ := C162_step hw hn ha hy hyt h1
      refine ⟨r :: rs, by simp [hr, hrs], nofun, ?_⟩
      simp only [discounted]
      cases ho : out.terminated with
      | true =>
        rw [k2 ho, i1 (hf.trans ho)]
        norm_num
      | false =>
        obtain ⟨b1, b2⟩ := k3 ho
        constructor <;> linarith

/-! ### A case that meets the hypotheses -/

/-- After a reset, full production is rewarded more than the action of C159, by 899 or more. -/
example : ∃ (a a0 a1 : Anm6 ℝ ℕ) (out0 out : Env.StepOut ℝ) (r0 r : ℝ),
    a.step (customCtx (exactExamples exactOracle) easySim) drain = .ok (a0, out0) ∧ out0.reward = .fin r0 ∧
    a.step (customCtx (exactExamples exactOracle) easySim) (curtailOnly 30 50) = .ok (a1, out) ∧ out.reward = .fin r ∧ r0 + 899 ≤ r := by
  obtain ⟨a, h0⟩ := C100_custom_made (w := exactExamples exactOracle) fun _ _ => rfl
  have ha := CustomOf.make h0
  obtain ⟨a', obs, d, y, -, h, -, hd, hr, hy, hf, -⟩ :=
    C157_reset exactOracle_exact rfl fair_midReal fair_real ha (C83_solvers exactOracle _) (some 7) none
  obtain ⟨h2, h3⟩ := hr rfl
  have hdm : dayMicros = 24 * 60 * 60 * 1000000 := rfl
  obtain ⟨a0, out0, r0, k1, k2, k3⟩ := C162_worst (o := exactOracle) rfl fair_midReal (ha.reset h) (C83_solvers exactOracle _) hy hf hd h2 (by omega)
  obtain ⟨os, a2, h6, -⟩ := C158_episode exactOracle_exact rfl fair_midReal (C83_solvers exactOracle _) [(30, 50)] (by
    intro p hp
    obtain rfl := List.mem_singleton.1 hp
    exact curtail_contains (by norm_num) (by norm_num)) (ha.reset h) hy hf hd h2 (by simp only [List.length_singleton]; omega)
  cases h6 with
  | cons m1 m2 =>
    obtain ⟨r, n1, -, n2⟩ := k3 _ _ _ m1
    exact ⟨a', a0, _, out0, _, r0, r, k1, k2, m1, n1, n2 (C158_step exactOracle_exact rfl fair_midReal (ha.reset h) (C83_solvers exactOracle _) hy hf m1).1⟩

end

end Anm
