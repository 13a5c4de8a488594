import Verif.Props.SimpleGrid

/-!
# C160: costs of the two-bus example

The values given as `costs_clipping` by `examples/simple_env.py` are never reached.
-/

namespace Anm

open Spec Complex ComplexConjugate

noncomputable section

theorem ofC_inj {v v' : ℂ} (h : Phasor.ofC v = Phasor.ofC v') : v = v' := by
  simp only [Phasor.ofC, Phasor.mk.injEq, X.fin.injEq] at h
  exact Complex.ext h.1 h.2.1

theorem ends_penalty {b : Branch ℝ} {x r m : ℝ} (h : X.abs b.flow.sApparentMax ≤ .fin x) (hr : b.line.rate = .fin r) (hx : r ≤ x) (hm : x - r ≤ m) :
    ∃ z, Sim.branchPenalty b = .fin z ∧ 0 ≤ z ∧ z ≤ m := by
  rw [Sim.branchPenalty, hr]
  cases hf : b.flow.sApparentMax with
  | fin y =>
    rw [hf] at h
    simp only [X.abs, X.fin_le_fin] at h
    simp only [X.abs, X.fin_sub_fin, X.zero_def, X.max_fin]
    exact ⟨_, rfl, le_max_left _ _, max_le (by linarith) (by linarith)⟩
  | nan => rw [hf] at h; exact absurd (X.le_notNan h).1 (by simp [X.NotNan, X.abs])
  | ninf => rw [hf] at h; exact absurd h (by simp [X.abs])
  | pinf => rw [hf] at h; exact absurd h (by simp [X.abs])

/-- The costs of a transition of the two-bus network. -/
theorem two_costs {o : LFOracle} (ho : ExactLF o) {qp : QP ℝ} {pi : ℝ} {s s' : Sim ℝ} {a : Sim.Args ℝ} {out : Sim.TransOut ℝ}
    (hs : SimOf simpleNet (.fin (1/4)) (.fin 100) s) (hc : SameConfig simpleSim s) (ha : FiniteArgs s a)
    (h : s.transition ⟨qp, realPF o, pi⟩ a = .ok (s', out)) : out.converged = true ∧
    (∃ x, out.eLoss = .fin x ∧ -1/100000 ≤ x ∧ x ≤ 4/100000) ∧ ∃ x, out.penalty = .fin x ∧ 0 ≤ x ∧ x ≤ 191/100 := by
  obtain ⟨hcv, ⟨V, S, v1, v2, j1⟩, -⟩ := two_transition ho hs hc ha h
  have hc' := sameConfig_trans hc (sameConfig_transition h)
  obtain ⟨b0, b1, br, hb, hr, ⟨i0, l0, u0⟩, ⟨i1, s1, l1, u1⟩, k⟩ := two_parts hc'
  have a0 : atId V 0 = V 0 := rfl
  have a1 : atId V 1 = V 1 := rfl
  have V0 : V 0 = 1 := by rw [← a0]; exact S.ref
  refine ⟨hcv, ?_, ?_⟩
  · obtain ⟨i, j, hone⟩ := oneSlack_of_file simple_clean simple_documented hs
    have hdev := hc.devices
    obtain ⟨d0, d1, hl, m0, m1⟩ : ∃ d0 d1, s.devices = [d0, d1] ∧ SameMachine anm6Slack d0 ∧ SameMachine (anm6Load 1 1 (-1/10)) d1 := by
      simp only [simpleSim, simpleDevices] at hdev
      rcases hl : s.devices with _ | ⟨e0, _ | ⟨e1, _ | ⟨e2, l⟩⟩⟩ <;> rw [hl] at hdev <;>
        simp only [List.forall₂_cons, List.forall₂_nil_left_iff, List.forall₂_nil_right_iff, reduceCtorEq, and_false, and_true] at hdev
      exact ⟨e0, e1, rfl, hdev.1, hdev.2⟩
    have t0 : d0.isSlack = true := by rw [m0]; rfl
    have t1 : d0.busId = 0 := by rw [m0]; rfl
    have t2 : d1.busId = 1 := by rw [m1]; rfl
    obtain rfl : i = 0 := by rw [← hone.on d0 (by simp [hl]) t0, t1]
    have kinds : ∀ d ∈ s'.devices, d.isRenewable = false ∧ d.isStorage = false := by
      intro d hd
      obtain ⟨e, he, hsm⟩ := forall₂_mem_right hc'.devices hd
      simp only [simpleSim, simpleDevices, List.mem_cons, List.not_mem_nil, or_false] at he
      rcases he with rfl | rfl <;> rw [hsm] <;> exact ⟨rfl, rfl⟩
    obtain ⟨-, W, x, hW, hx, hk⟩ := C32_energy_loss (by norm_num) simple_clean hs (numbered_same hc simple_numbered) hone
      (finiteLines_same hc simple_finiteLines) (fun d hd hi => by
        rw [hl] at hd
        simp only [List.mem_cons, List.not_mem_nil, or_false] at hd
        rcases hd with rfl | rfl
        · exact t0
        · rw [t2] at hi; cases hi) h hcv
      (fun d hd hd' => by rw [(kinds d hd).1] at hd'; cases hd')
    have w0 : W 0 = V 0 := by rw [hW.ref, V0]
    have w1 : W 1 = V 1 := by
      have e1 := hW.v b1 (by simp [hb])
      rw [S.v b1 (by simp [hb]), i1, a1] at e1
      exact (ofC_inj e1).symm
    have c1 : (s'.devices.map curtailed).sum = 0 := by
      refine List.sum_eq_zero fun y hy => ?_
      obtain ⟨d, hd, rfl⟩ := List.mem_map.1 hy
      simp [curtailed, (kinds d hd).1]
    have c2 : s'.devices.filter Device.isStorage = [] := by
      rw [List.filter_eq_nil_iff]
      intro d hd
      simp [(kinds d hd).2]
    have c3 : ([(⟨0, 1, 1/100, 1/10, 0, 1, 0⟩ : LineC)].map fun l => loss l W).sum = 1/100 * ‖(V 1 - V 0) / twoZ‖ ^ 2 := by
      simp only [List.map_cons, List.map_nil, List.sum_cons, List.sum_nil, add_zero, loss, w0, w1, LineC.sFrom, LineC.sTo, two_flow V]
      rw [← Complex.add_re, map_neg]
      set J := (V 1 - V 0) / twoZ with hJ
      have e : V 1 - V 0 = twoZ * J := by rw [hJ, mul_div_cancel₀ _ twoZ_ne]
      rw [show V 0 * -conj J + V 1 * conj J = (V 1 - V 0) * conj J by ring, e, mul_assoc, Complex.mul_conj, Complex.normSq_eq_norm_sq]
      rw [Complex.re_mul_ofReal]
      rfl
    rw [c1, c2, c3] at hk
    refine ⟨x, hx, ?_⟩
    rw [abs_le] at hk
    have jn := norm_nonneg ((V 1 - V 0) / twoZ)
    generalize ‖(V 1 - V 0) / twoZ‖ = u at hk j1 jn
    have ju : u ^ 2 ≤ (1042/10000) ^ 2 := pow_le_pow_left₀ jn j1 2
    have ju0 := sq_nonneg u
    simp only [List.map_nil, List.sum_nil, Nat.cast_one] at hk
    norm_num at hk ju ⊢
    constructor <;> linarith
  · obtain ⟨bp, hbp, -, e2⟩ := penalty_inv h
    have hw := S.v
    rw [hb] at hw
    simp only [List.forall_mem_cons] at hw
    have P0 : Sim.busPenalty b0 = .ok (.fin 0) := by
      simp only [Sim.busPenalty, l0, u0, hw.1, i0, a0, V0, norm_one, Phasor.ofC, X.zero_def, X.fin_sub_fin, X.max_fin, X.fin_add_fin, sub_self, max_self, add_zero]
    have P1 : Sim.busPenalty b1 = .ok (.fin 0) := by
      simp only [Sim.busPenalty, l1, u1, hw.2.1, i1, a1, Phasor.ofC, X.zero_def, X.fin_sub_fin, X.max_fin, X.fin_add_fin]
      rw [max_eq_left (by linarith), max_eq_left (by linarith), add_zero]
    have hfl := S.flow
    unfold twoLines at hfl
    rw [hr] at hfl
    simp only [List.forall₂_cons, List.forall₂_nil_right_iff, and_true] at hfl
    have j0 := norm_nonneg ((V 1 - V 0) / twoZ)
    obtain ⟨z, hz, z0, z1⟩ := ends_penalty (b := br) (x := 10629/100000) (r := 3/100) (m := 7629/100000) (by
      rw [hfl.2]
      exact ends_apparent (two_flow V).1 (two_flow V).2 (by rw [a0, V0, norm_one, one_mul, ← V0]; linarith) (by rw [a1]; nlinarith) (by norm_num))
      (by rw [k]) (by norm_num) (by norm_num)
    rw [hb] at hbp
    simp only [mapE, P0, P1, bind, Except.bind, pure, Except.pure, Except.ok.injEq] at hbp
    have hdt : s.deltaT = .fin (1/4) := (simOf_base hs).2.1
    have hlam : s.lamb = .fin 100 := (simOf_base hs).2.2
    rw [e2, violations, ← hbp, hr, hdt, hlam]
    simp only [List.foldl, hz, X.zero_def, X.fin_add_fin, X.fin_mul_fin]
    refine ⟨_, rfl, ?_, ?_⟩ <;> linarith

variable {ρ : Type} {w : ExampleWorld ℝ ρ} {e : Env ℝ ρ}

/-- **C160, steps.** With exactly solved linear systems, the reward of every step of the two-bus environment is minus the energy loss and the
penalty that the simulator computes: neither is clipped. It is between -1.9101 and 0.00001. -/
theorem C160_step {o : LFOracle} (ho : ExactLF o) (hw : w.sim.pf = realPF o) (hn : FairNumpy w.np)
    (he : EnvOf (simpleCtx w simpleSim) simpleArgs e) (G : GoodSolvers w.sim (simpleSim : Sim ℝ)) {y : EnvDyn ℝ} (hy : e.dyn = some y)
    (hf : y.terminated = false) :
    ∃ (e' : Env ℝ ρ) (out : Env.StepOut ℝ) (args : Sim.Args ℝ) (tr : Sim.TransOut ℝ) (r : ℝ), e.step (simpleCtx w simpleSim) [] = .ok (e', out) ∧
      e.sim.transition w.sim args = .ok (e'.sim, tr) ∧ out.reward = -(tr.eLoss + tr.penalty) ∧ out.reward = .fin r ∧
      -19101/10000 ≤ r ∧ r ≤ 1/100000 := by
  have hw' : w.sim = ⟨w.sim.qp, realPF o, w.sim.pi⟩ := by rw [← hw]
  obtain ⟨x, hx, -, -⟩ := hn.rand e.rng
  obtain ⟨e', out, h⟩ := C100_simple_step hn he G hy
  obtain ⟨hact, y0, hy0, ⟨ht, -⟩ | ⟨-, hadv⟩⟩ := step_ok h
  · rw [hy] at hy0
    obtain rfl := Option.some.inj hy0
    rw [hf] at ht
    cases ht
  obtain ⟨vars, args, tr, y', I⟩ := advance_ok hadv
  have hvars : vars = [.fin (-10) * (w.np.rand e.rng).1, .fin ((w.np.randint (w.np.rand e.rng).2 0 10).1 : ℝ)] :=
    (congrArg Prod.fst (Except.ok.inj I.next)).symm
  rw [hx, X.fin_mul_fin] at hvars
  obtain ⟨args', q1, q2, q3⟩ := step_args (simple_ready he) hact I.size (by
    rw [hvars]
    intro z hz
    simp only [List.mem_cons, List.not_mem_nil, or_false] at hz
    rcases hz with rfl | rfl <;> exact ⟨_, rfl⟩)
  obtain rfl : args' = args := by
    have e1 := Except.ok.inj (q1.symm.trans I.dicts)
    have e2 := q2.symm.trans I.decode
    cases args'
    cases args
    simp only [Prod.mk.injEq] at e1 e2
    simp [e1, e2]
  have htr := I.trans
  rw [show (simpleCtx w simpleSim).sim = ⟨w.sim.qp, realPF o, w.sim.pi⟩ from hw'] at htr
  obtain ⟨r1, ⟨el, g1, g2, g3⟩, pe, f1, f2, f3⟩ := two_costs ho (envOf_simOf he) (simple_sameConfig he) q3 htr
  have hrw := I.reward
  rw [Env.rewardOf, if_pos r1, (simple_clipping he).1, (simple_clipping he).2] at hrw
  simp only [Except.ok.injEq, Prod.mk.injEq] at hrw
  have c1 : X.sign tr.eLoss * X.clip (X.abs tr.eLoss) 0 (.fin 1) = tr.eLoss :=
    (X.clip_energy (by rw [g1]; exact X.notNan_fin _) zero_le_one).2.2 (by rw [g1, X.fin_le_fin]; linarith) (by rw [g1, X.fin_le_fin]; linarith)
  have c2 : X.clip tr.penalty 0 (.fin 100) = tr.penalty :=
    X.clip_self (by rw [f1, X.zero_def, X.fin_le_fin]; exact f2) (by rw [f1, X.fin_le_fin]; linarith)
  have hr := hrw.1.symm
  rw [c1, c2] at hr
  refine ⟨e', out, args', tr, -(el + pe), h, by rw [hw']; exact htr, hr, by rw [hr, g1, f1]; rfl, ?_, ?_⟩ <;> linarith

/-- **C160, episodes.** All rewards of an episode of the two-bus environment are between -1.9101 and 0.00001. -/
theorem C160_episode {o : LFOracle} (ho : ExactLF o) (hw : w.sim.pf = realPF o) (hn : FairNumpy w.np)
    (G : GoodSolvers w.sim (simpleSim : Sim ℝ)) (n : ℕ) :
    ∀ {e : Env ℝ ρ} {y : EnvDyn ℝ}, EnvOf (simpleCtx w simpleSim) simpleArgs e → e.dyn = some y → y.terminated = false →
      ∃ os e', Episode (simpleCtx w simpleSim) e (List.replicate n []) os e' ∧ os.length = n ∧
        ∀ out ∈ os, out.terminated = false ∧ ∃ r, out.reward = .fin r ∧ -19101/10000 ≤ r ∧ r ≤ 1/100000 := by
  induction n with
  | zero => exact fun _ _ _ => ⟨[], _, .nil _, rfl, by simp⟩
  | succ n ih =>
    intro e y he hy hf
    obtain ⟨e1, out, y1, -, -, h1, h2, h3, h4, -⟩ := C156_step ho hw hn he G hy hf
    obtain ⟨e2, out2, -, -, r, k1, -, -, k2⟩ := C160_step ho hw hn he G hy hf
    obtain ⟨-, rfl⟩ := Prod.mk.inj (Except.ok.inj (h1.symm.trans k1))
    obtain ⟨os, e', l1, l2, l3⟩ := ih (envOf_call he (.inr (.inl ⟨_, _, h1⟩))) h3 h4
    exact ⟨out :: os, e', .cons h1 l1, by simp [l2], List.forall_mem_cons.2 ⟨⟨h2, r, k2⟩, l3⟩⟩

/-! ### A case that meets the hypotheses -/

example (n : ℕ) : ∃ e e1 obs os e', EnvOf (simpleCtx (exactExamples exactOracle) simpleSim) simpleArgs e ∧
    e.reset (simpleCtx (exactExamples exactOracle) simpleSim) (some 7) = .ok (e1, obs) ∧
    Episode (simpleCtx (exactExamples exactOracle) simpleSim) e1 (List.replicate n []) os e' ∧ os.length = n ∧
    ∀ out ∈ os, out.terminated = false ∧ ∃ r, out.reward = .fin r ∧ -19101/10000 ≤ r ∧ r ≤ 1/100000 := by
  obtain ⟨e, e1, obs, -, -, he, h1, -⟩ := C156_case exactOracle_exact 0
  obtain ⟨e2, obs2, y, -, k1, -, k2, k3, -⟩ := C156_reset exactOracle_exact rfl fair_midReal he (C100_simple_solvers _ _) (some 7)
  obtain ⟨os, e', k4⟩ := C160_episode exactOracle_exact rfl fair_midReal (C100_simple_solvers _ _) n (envOf_call he (.inl ⟨_, _, k1⟩)) k2 k3
  exact ⟨e, e2, obs2, os, e', he, k1, k4⟩

end

end Anm
