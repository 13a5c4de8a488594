import Verif.Props.CustomCollapse
import Verif.Props.SameReward
import Verif.Props.Clipped

/-!
# C161: in the six-bus example, curtailing is always better than a collapse

Bounds on the rewards of an agent that only curtails (C158), compared with the reward of a collapse (C159).
-/

namespace Anm

open Spec Complex ComplexConjugate Radial

noncomputable section

theorem six_atId (V : Fin 6 → ℂ) : six (atId V) = V := by
  funext k
  simp only [six, atId]
  rw [dif_pos (by omega)]
  rfl

theorem lineE_le : lineE 0 ≤ 741/1000 ∧ lineE 1 ≤ 374/1000 ∧ lineE 2 ≤ 3672/10000 ∧ lineE 3 ≤ 1/1000 ∧ lineE 4 ≤ 3733/10000 := by
  decide +kernel

/-- The violations of the limits that an agent can cause who only curtails. -/
theorem over_curtail {V : Fin 6 → ℂ} (h0 : V 0 = 1) (hv : ∀ k : Fin 5, 41/50 ≤ ‖V k.succ‖ ∧ ‖V k.succ‖ ≤ 59/50)
    (hl : ∀ l, ‖easyRadial.line V l‖ ≤ lineE l) (m : Fin 5 → Prop) [DecidablePred m] : 0 ≤ over m V ∧ over m V ≤ 166/100 := by
  refine ⟨add_nonneg (Finset.sum_nonneg fun k _ => add_nonneg (le_max_left _ _) (le_max_left _ _)) (Finset.sum_nonneg fun l _ => le_max_left _ _), ?_⟩
  have bus : ∀ k : Fin 5, max 0 (‖V k.succ‖ - 11/10) + max 0 (9/10 - ‖V k.succ‖) ≤ 2/25 := by
    intro k
    obtain ⟨h1, h2⟩ := hv k
    rcases le_total ‖V k.succ‖ 1 with h | h
    · rw [max_eq_left (by linarith)]
      have : max 0 (9/10 - ‖V k.succ‖) ≤ 2/25 := max_le (by norm_num) (by linarith)
      linarith
    · rw [max_eq_left (a := (0 : ℝ)) (b := 9/10 - ‖V k.succ‖) (by linarith)]
      have : max 0 (‖V k.succ‖ - 11/10) ≤ 2/25 := max_le (by norm_num) (by linarith)
      linarith
  have all : ∀ k : Fin 6, ‖V k‖ ≤ 59/50 := by
    intro k
    refine Fin.cases ?_ (fun k => (hv k).2) k
    rw [h0]
    norm_num
  have line : ∀ (l : Fin 5) {e r : ℝ}, ((lineE l : ℚ) : ℝ) ≤ e → 0 ≤ r → max 0 ((if m l then appar V l else 0) - r) ≤ max 0 (59/50 * e - r) := by
    intro l e r he hr
    have ha : appar V l ≤ 59/50 * e :=
      mul_le_mul (max_le (all _) (all _)) ((hl l).trans he) (norm_nonneg _) (by norm_num)
    have ha0 : 0 ≤ appar V l := mul_nonneg ((norm_nonneg _).trans (le_max_left _ _)) (norm_nonneg _)
    refine max_le_max le_rfl (sub_le_sub_right ?_ _)
    split_ifs
    · exact ha
    · exact ha0.trans ha
  obtain ⟨e0, e1, e2, e3, e4⟩ := lineE_le
  rify at e0 e1 e2 e3 e4
  have l0 := line 0 (r := 32/100) e0 (by norm_num)
  have l1 := line 1 (r := 25/100) e1 (by norm_num)
  have l2 := line 2 (r := 18/100) e2 (by norm_num)
  have l3 := line 3 (r := 18/100) e3 (by norm_num)
  have l4 := line 4 (r := 18/100) e4 (by norm_num)
  rw [max_eq_right (a := (0 : ℝ)) (b := 59/50 * (741/1000) - 32/100) (by norm_num)] at l0
  rw [max_eq_right (a := (0 : ℝ)) (b := 59/50 * (374/1000) - 25/100) (by norm_num)] at l1
  rw [max_eq_right (a := (0 : ℝ)) (b := 59/50 * (3672/10000) - 18/100) (by norm_num)] at l2
  rw [max_eq_left (a := (0 : ℝ)) (b := 59/50 * (1/1000) - 18/100) (by norm_num)] at l3
  rw [max_eq_right (a := (0 : ℝ)) (b := 59/50 * (3733/10000) - 18/100) (by norm_num)] at l4
  have k0 := bus 0
  have k1 := bus 1
  have k2 := bus 2
  have k3 := bus 3
  have k4 := bus 4
  rw [over, Fin.sum_univ_succ, Fin.sum_univ_five, Fin.sum_univ_five, h0, norm_one]
  simp only [vLo, vHi, sHi, Fin.succ_zero_eq_one, Matrix.cons_val_zero, Matrix.cons_val_succ, Matrix.cons_val, sub_self, max_self] at k0 k1 k2 k3 k4 l0 l1 l2 l3 l4 ⊢
  linarith

/-- The maximum productions after a transition of the six-bus example are numbers. -/
theorem custom_pots {c : Ctx ℝ} {s s' : Sim ℝ} {a : Sim.Args ℝ} {out : Sim.TransOut ℝ} (hs : SimOf anm6Net (.fin (1/4)) (.fin 100) s)
    (hc : SameConfig easySim s) {l1 l5 pot p2 p4 q2 q4 p6 q6 : ℝ} (ha : CustomInputs a l1 l5 pot p2 p4 q2 q4 p6 q6)
    (h : s.transition c a = .ok (s', out)) : ∀ d ∈ s'.devices, d.isRenewable = true → ∃ x, d.pPot = .fin x := by
  have cut : ∀ {d : Device ℝ} {lo hi x : ℝ}, d ∈ s'.devices → d.isNonSlackGen = true → d.pMin = .fin lo → d.pMax = .fin hi →
      a.pPot.get? d.id = some (.fin x) → ∃ z, d.pPot = .fin z := by
    intro d lo hi x hd hg h1 h2 h3
    obtain ⟨x', hx', c1, c2, c3⟩ := C17_potential anm6_clean hs h hd hg
    rw [h3] at hx'
    obtain rfl := Option.some.inj hx'
    rw [X.fin_div_fin (by norm_num : (100 : ℝ) ≠ 0), h1, h2] at c1
    rw [X.fin_div_fin (by norm_num : (100 : ℝ) ≠ 0), h2] at c2
    rw [X.fin_div_fin (by norm_num : (100 : ℝ) ≠ 0), h1] at c3
    rcases le_total lo (x / 100) with k | k
    · rcases le_total (x / 100) hi with k' | k'
      · exact ⟨_, c1 k k'⟩
      · exact ⟨_, c2 k'⟩
    · exact ⟨_, c3 k⟩
  obtain ⟨d0, d1, d2, d3, d4, d5, d6, hds, m0, m1, m2, m3, m4, m5, m6⟩ := easy_devices (sameConfig_trans hc (sameConfig_transition h))
  obtain ⟨x4, P4, -⟩ := ha.pot4
  have r2 := cut (d := d2) (x := pot) (by simp [hds]) (by rw [m2]; rfl) (by rw [m2]; rfl) (by rw [m2]; rfl)
    (by rw [show d2.id = 2 by rw [m2]; rfl]; exact ha.pot2)
  have r4 := cut (d := d4) (x := x4) (by simp [hds]) (by rw [m4]; rfl) (by rw [m4]; rfl) (by rw [m4]; rfl)
    (by rw [show d4.id = 4 by rw [m4]; rfl]; exact P4)
  have f0 : d0.isRenewable = false := by rw [m0]; rfl
  have f1 : d1.isRenewable = false := by rw [m1]; rfl
  have f3 : d3.isRenewable = false := by rw [m3]; rfl
  have f5 : d5.isRenewable = false := by rw [m5]; rfl
  have f6 : d6.isRenewable = false := by rw [m6]; rfl
  intro d hd hr
  rw [hds] at hd
  simp only [List.mem_cons, List.not_mem_nil, or_false] at hd
  rcases hd with rfl | rfl | rfl | rfl | rfl | rfl | rfl
  · simp [f0] at hr
  · simp [f1] at hr
  · exact r2
  · simp [f3] at hr
  · exact r4
  · simp [f5] at hr
  · simp [f6] at hr

/-- The energy loss of a converged transition of the six-bus example is a number. -/
theorem custom_loss {o : LFOracle} {qp : QP ℝ} {pi : ℝ} {s s' : Sim ℝ} {a : Sim.Args ℝ} {out : Sim.TransOut ℝ}
    (hs : SimOf anm6Net (.fin (1/4)) (.fin 100) s) (hc : SameConfig easySim s) {l1 l5 pot p2 p4 q2 q4 p6 q6 : ℝ}
    (ha : CustomInputs a l1 l5 pot p2 p4 q2 q4 p6 q6) (h : s.transition ⟨qp, realPF o, pi⟩ a = .ok (s', out)) (hcv : out.converged = true) :
    ∃ x, out.eLoss = .fin x := by
  obtain ⟨i, j, hone⟩ := oneSlack_of_file anm6_clean anm6_documented hs
  obtain ⟨d0, d1, d2, d3, d4, d5, d6, hds, m0, m1, m2, m3, m4, m5, m6⟩ := easy_devices hc
  have hi : i = 0 := by
    rw [← hone.on d0 (by simp [hds]) (by rw [m0]; rfl), m0]
    rfl
  obtain ⟨-, V, x, -, hx, -⟩ := C32_energy_loss (by norm_num) anm6_clean hs (numbered_same hc easy_numbered) hone
    (finiteLines_same hc easy_finiteLines) (fun d hd hdi => by
      rw [hi] at hdi
      rw [hds] at hd
      have b0 : d0.isSlack = true := by rw [m0]; rfl
      have b1 : d1.busId = 3 := by rw [m1]; rfl
      have b2 : d2.busId = 3 := by rw [m2]; rfl
      have b3 : d3.busId = 4 := by rw [m3]; rfl
      have b4 : d4.busId = 4 := by rw [m4]; rfl
      have b5 : d5.busId = 5 := by rw [m5]; rfl
      have b6 : d6.busId = 5 := by rw [m6]; rfl
      simp only [List.mem_cons, List.not_mem_nil, or_false] at hd
      rcases hd with rfl | rfl | rfl | rfl | rfl | rfl | rfl
      · exact b0
      all_goals omega) h hcv (custom_pots hs hc ha h)
  exact ⟨x, hx⟩

/-- The costs of a transition depend on its result only. -/
theorem same_costs {c : Ctx ℝ} {s s1 s' : Sim ℝ} {a a1 : Sim.Args ℝ} {out out1 : Sim.TransOut ℝ} (h : s.transition c a = .ok (s', out))
    (h1 : s1.transition c a1 = .ok (s', out1)) : out.eLoss = out1.eLoss ∧ out.penalty = out1.penalty := by
  obtain ⟨_, _, I⟩ := transition_ok h
  obtain ⟨_, _, J⟩ := transition_ok h1
  have := Except.ok.inj (I.reward.symm.trans J.reward)
  simp only [Prod.mk.injEq] at this
  exact this.2

variable {ρ : Type} {w : ExampleWorld ℝ ρ} {a a' : Anm6 ℝ ρ} {y : EnvDyn ℝ}

theorem custom_clipping (ha : CustomOf w easySim a) : a.env.c1 = .fin 1 ∧ a.env.c2 = .fin 100 := by
  obtain ⟨e0, I, hs, -, -⟩ := envOf_inv (custom_env ha)
  exact ⟨by rw [hs.c1, I.c1]; rfl, by rw [hs.c2, I.c2]; rfl⟩

/-- **C161, steps.** With exactly solved linear systems, the rewards of an agent of the six-bus example who only curtails are between -42.5
and 1, whatever is drawn. -/
theorem C161_step {o : LFOracle} (ho : ExactLF o) (hw : w.sim.pf = realPF o) (hn : FairNumpy w.np) (ha : CustomOf w easySim a)
    (G : GoodSolvers w.sim (easySim : Sim ℝ)) (hy : a.env.dyn = some y) (ht : y.terminated = false) {p2 p4 : ℝ} {out : Env.StepOut ℝ}
    (h : a.step (customCtx w easySim) (curtailOnly p2 p4) = .ok (a', out)) :
    out.terminated = false ∧ ∃ r, out.reward = .fin r ∧ -425/10 ≤ r ∧ r ≤ 1 := by
  classical
  have hw' : w.sim = ⟨w.sim.qp, realPF o, w.sim.pi⟩ := by rw [← hw]
  have hterm := (C158_step ho hw hn ha G hy ht h).1
  refine ⟨hterm, ?_⟩
  obtain ⟨args, tr, l1, l5, pot, h1, h2, h3⟩ := custom_inputs hn ha hy ht h
  have hs := envOf_simOf (custom_env ha)
  have hc := custom_sameConfig ha
  have h1' := h1
  rw [hw'] at h1'
  obtain ⟨r1, V, r2, r3, r4⟩ := curtail_transition ho G.exact hs hc ((custom_live hn ha G).2 y hy).1 h3 h1'
  obtain ⟨x, hx⟩ := custom_loss hs hc h3 h1' r1
  set m : Fin 5 → Prop := fun k => ∀ b, a'.env.sim.branches[k.1]? = some b → b.flow.pFrom ≠ .fin 0 with hm
  have hpen := solved_penalty hs hc h1' r2 (m := m) (fun k b hb =>
    ⟨fun h => h b hb, fun h b' hb' => by rw [hb] at hb'; cases hb'; exact h⟩)
  rw [six_atId] at hpen
  obtain ⟨k1, k2⟩ := over_curtail (by have := r2.ref; exact this) r3 r4 m
  obtain ⟨e1, dd, dd0, hst, -, -, rfl⟩ := anm6_step_ok h
  obtain ⟨args1, tr1, y1, t1, -, t2, t3, t4, -⟩ := C47_reward (custom_clipping ha).1 (custom_clipping ha).2 zero_le_one (by norm_num) hst hterm
  obtain ⟨c1, c2⟩ := same_costs h1 t1
  rw [← c1, hx] at t3
  rw [← c2, hpen] at t4
  obtain ⟨⟨b1, b2⟩, -⟩ := t3 (X.notNan_fin _)
  have b3 := (t4 (X.notNan_fin _)).2 (by rw [X.zero_def, X.fin_le_fin]; positivity) (by rw [X.fin_le_fin]; linarith)
  rw [b3] at t2
  cases he : y1.eLoss with
  | fin z =>
    rw [he] at b1 b2 t2
    rw [X.fin_le_fin] at b1 b2
    rw [X.fin_add_fin, X.neg_fin] at t2
    exact ⟨_, t2, by linarith, by linarith⟩
  | nan => rw [he] at b1; exact absurd (X.le_notNan b1).2 (by simp [X.NotNan])
  | ninf => rw [he] at b1; exact absurd b1 (by simp)
  | pinf => rw [he] at b2; exact absurd b2 (by simp)

/-- **C161, episodes.** The discounted rewards of such an agent sum up to at least -425 over any number of steps. -/
theorem C161_return {o : LFOracle} (ho : ExactLF o) (hw : w.sim.pf = realPF o) (hn : FairNumpy w.np) (G : GoodSolvers w.sim (easySim : Sim ℝ))
    {ps : List (ℝ × ℝ)} {os : List (Env.StepOut ℝ)} (h : Anm6Episode (customCtx w easySim) a (ps.map fun p => curtailOnly p.1 p.2) os a')
    (ha : CustomOf w easySim a) (hy : a.env.dyn = some y) (ht : y.terminated = false) :
    ∃ rs : List ℝ, os.map (·.reward) = rs.map X.fin ∧ -425 ≤ discounted (9/10) rs := by
  suffices H : ∃ rs : List ℝ, os.map (·.reward) = rs.map X.fin ∧ ∀ r ∈ rs, -425/10 ≤ r by
    obtain ⟨rs, h1, h2⟩ := H
    refine ⟨rs, h1, ?_⟩
    have := discounted_ge (g := (9/10 : ℝ)) (by norm_num) h2 (by norm_num)
    have h3 : (0 : ℝ) ≤ (9/10) ^ rs.length := by positivity
    linarith
  generalize hu : ps.map (fun p => curtailOnly p.1 p.2) = us at h
  induction h generalizing y ps with
  | nil a => exact ⟨[], rfl, by simp⟩
  | @cons a a1 a' u us out os h1 h2 ih =>
    obtain ⟨p, qs, rfl, rfl, rfl⟩ := List.map_eq_cons_iff.1 hu
    obtain ⟨hf, r, hr, hr1, -⟩ := C161_step ho hw hn ha G hy ht h1
    obtain ⟨e, d1, d0, k2, -, -, k5⟩ := anm6_step_ok h1
    obtain ⟨y1, hy1, hy2⟩ := C46_flag k2
    obtain ⟨rs, i1, i2⟩ := ih (ha.step h1) (y := y1) (by rw [k5]; exact hy1) (by rw [← hf, ← hy2]) rfl
    exact ⟨r :: rs, by simp [hr, i1], List.forall_mem_cons.2 ⟨hr1, i2⟩⟩

/-- **C161.** In the six-bus example it is better to curtail for any number of steps than to collapse the network, with whatever action:
the discounted rewards of the former exceed the reward of the latter by 575 or more. -/
theorem C161_better {o : LFOracle} (ho : ExactLF o) (hw : w.sim.pf = realPF o) (hn : FairNumpy w.np) (G : GoodSolvers w.sim (easySim : Sim ℝ))
    {ps : List (ℝ × ℝ)} {os : List (Env.StepOut ℝ)} (h : Anm6Episode (customCtx w easySim) a (ps.map fun p => curtailOnly p.1 p.2) os a')
    (ha : CustomOf w easySim a) (hy : a.env.dyn = some y) (ht : y.terminated = false) {u : List (X ℝ)} {a1 : Anm6 ℝ ρ} {out : Env.StepOut ℝ}
    (hu : a.step (customCtx w easySim) u = .ok (a1, out)) (hf : out.terminated = true) :
    ∃ (rs : List ℝ) (r : ℝ), os.map (·.reward) = rs.map X.fin ∧ out.reward = .fin r ∧ r + 575 ≤ discounted (9/10) rs := by
  obtain ⟨rs, h1, h2⟩ := C161_return ho hw hn G h ha hy ht
  obtain ⟨e1, dd, dd0, k2, -, -, rfl⟩ := anm6_step_ok hu
  refine ⟨rs, _, h1, C47_terminating_made (c1 := some (.fin 1)) (c2 := 100) (g := 9/10) (custom_env ha) rfl rfl (by norm_num) hy ht k2 hf, ?_⟩
  norm_num
  linarith

/-! ### A case that meets the hypotheses -/

/-- After a reset, a year of full production is better than the action of C159. -/
example : ∃ (a a1 : Anm6 ℝ ℕ) (os : List (Env.StepOut ℝ)) (a' : Anm6 ℝ ℕ) (out : Env.StepOut ℝ) (rs : List ℝ) (r : ℝ),
    Anm6Episode (customCtx (exactExamples exactOracle) easySim) a (List.replicate 35040 (curtailOnly 30 50)) os a' ∧
    a.step (customCtx (exactExamples exactOracle) easySim) drain = .ok (a1, out) ∧ out.terminated = true ∧
    os.map (·.reward) = rs.map X.fin ∧ out.reward = .fin r ∧ r + 575 ≤ discounted (9/10) rs := by
  obtain ⟨a, h0⟩ := C100_custom_made (w := exactExamples exactOracle) fun _ _ => rfl
  have ha := CustomOf.make h0
  obtain ⟨a', obs, d, y, -, h, -, hd, hr, hy, hf, -⟩ :=
    C157_reset exactOracle_exact rfl fair_midReal fair_real ha (C83_solvers exactOracle _) (some 7) none
  obtain ⟨h2, h3⟩ := hr rfl
  have hdm : dayMicros = 24 * 60 * 60 * 1000000 := rfl
  obtain ⟨-, a1, out, h4, h5, -⟩ := C159_step (o := exactOracle) rfl fair_midReal (ha.reset h) (C83_solvers exactOracle _) hy hf hd h2 (by omega)
  obtain ⟨os, a2, h6, -⟩ := C158_episode exactOracle_exact rfl fair_midReal (C83_solvers exactOracle _) (List.replicate 35040 (30, 50)) (by
    intro p hp
    obtain rfl := List.eq_of_mem_replicate hp
    exact curtail_contains (by norm_num) (by norm_num)) (ha.reset h) hy hf hd h2 (by rw [List.length_replicate]; omega)
  obtain ⟨rs, r, h7⟩ := C161_better exactOracle_exact rfl fair_midReal (C83_solvers exactOracle _) h6 (ha.reset h) hy hf h4 h5
  rw [List.map_replicate] at h6
  exact ⟨a', a1, os, a2, out, rs, r, h6, h4, h5, h7⟩

end

end Anm
