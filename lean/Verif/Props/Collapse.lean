import Verif.Props.NothingCost

/-! # C127: an action that collapses ANM6Easy -/

namespace Anm

open Complex ComplexConjugate Spec

noncomputable section

/-! ### Equations of a line -/

/-- The voltage drop along a line, from the power `s` that enters it at the lower end. -/
theorem line_drop {x v z j : ℂ} (hv : v = x - z * j) :
    normSq v = normSq x - 2 * (z.re * (x * conj j).re + z.im * (x * conj j).im) + normSq z * normSq j := by
  subst hv
  simp only [normSq_apply, sub_re, sub_im, mul_re, mul_im, conj_re, conj_im]
  ring

/-- The losses of a line. -/
theorem line_loss {x v z j : ℂ} (hv : v = x - z * j) : v * conj j = x * conj j - z * normSq j := by
  subst hv
  rw [← mul_conj]
  ring

theorem power_sq (x j : ℂ) : (x * conj j).re ^ 2 + (x * conj j).im ^ 2 = normSq x * normSq j := by
  simp only [normSq_apply, mul_re, mul_im, conj_re, conj_im]
  ring

theorem line_heat {a b w l β v : ℝ} (h1 : a ^ 2 + b ^ 2 = w * l) (h2 : 0 ≤ l) (h3 : b ≤ -β) (h4 : 0 ≤ β) (h5 : w ≤ v) : β ^ 2 ≤ v * l := by
  have h6 : β ^ 2 ≤ b ^ 2 := by nlinarith
  nlinarith [mul_le_mul_of_nonneg_right h5 h2, sq_nonneg a]

/-- No voltage of bus 1 lets the transformer of ANM6 carry enough reactive power. -/
theorem no_voltage {v B T l : ℝ} (hv : 0 ≤ v) (hB : 12999/10000 + T ≤ B) (hT : 55/1000 ≤ v * T) (hq : B ^ 2 ≤ v * l)
    (hd : v + 2 * (1834/10000) * B + (1834/10000) ^ 2 * l ≤ 1 + 1/100000) : False := by
  have hw : 0 < v := by
    rcases hv.eq_or_lt with h | h
    · rw [← h] at hT
      norm_num at hT
    · exact h
  have hT0 : 0 < T := by
    by_contra h
    nlinarith [not_lt.1 h]
  have hl : 0 ≤ l := by
    by_contra h
    nlinarith [not_le.1 h, sq_nonneg B]
  have hm : v ^ 2 + 2 * (1834/10000) * B * v + ((1834/10000) * B) ^ 2 ≤ (1 + 1/100000) * v := by
    have := mul_le_mul_of_nonneg_right hd hw.le
    nlinarith
  have hp : 4 * ((1834/10000) * B) * v ≤ (1 + 1/100000) * v := by linarith [sq_nonneg (v - 1834/10000 * B)]
  have hlow : 12999/10000 * v + 55/1000 ≤ B * v := by linarith [mul_le_mul_of_nonneg_right hB hw.le]
  have hbig : 8/10 ≤ v := by linarith
  linarith

/-- **C127, load flow.** The load flow equations of ANM6 have no solution, not even up to 1e-5 p.u., if the buses 3, 4 and 5 draw
30, 50 and 50 Mvar or more, and no bus injects active power. -/
theorem C127_no_solution {V : Fin 6 → ℂ} (h0 : V 0 = 1) {s : Fin 5 → ℂ} (hre : ∀ k, (s k).re ≤ 0) (him : ∀ k, (s k).im ≤ 0)
    (h3 : (s 2).im ≤ -3/10) (h4 : (s 3).im ≤ -1/2) (h5 : (s 4).im ≤ -1/2)
    (hs : ∀ k : Fin 5, |(V k.succ * conj (NR.curr (ymat 5 easyLines) V k.succ)).re - (s k).re| ≤ 1e-5 ∧
      |(V k.succ * conj (NR.curr (ymat 5 easyLines) V k.succ)).im - (s k).im| ≤ 1e-5) : False := by
  have hz := easyZ_ne
  set j0 := (V 1 - V 0) / easyZ 0 with e0
  set j1 := (V 2 - V 1) / easyZ 1 with e1
  set j2 := (V 3 - V 1) / easyZ 2 with e2
  set j3 := (V 4 - V 2) / easyZ 3 with e3
  set j4 := (V 5 - V 2) / easyZ 4 with e4
  have f0 : V 0 = V 1 - easyZ 0 * j0 := by rw [e0, mul_div_cancel₀ _ (hz 0)]; ring
  have f1 : V 1 = V 2 - easyZ 1 * j1 := by rw [e1, mul_div_cancel₀ _ (hz 1)]; ring
  have f2 : V 1 = V 3 - easyZ 2 * j2 := by rw [e2, mul_div_cancel₀ _ (hz 2)]; ring
  have f3 : V 2 = V 4 - easyZ 3 * j3 := by rw [e3, mul_div_cancel₀ _ (hz 3)]; ring
  have f4 : V 2 = V 5 - easyZ 4 * j4 := by rw [e4, mul_div_cancel₀ _ (hz 4)]; ring
  have c1 : NR.curr (ymat 5 easyLines) V 1 = j0 - j1 - j2 := easy_currents V 1
  have c2 : NR.curr (ymat 5 easyLines) V 2 = j1 - j3 - j4 := easy_currents V 2
  have c3 : NR.curr (ymat 5 easyLines) V 3 = j2 := easy_currents V 3
  have c4 : NR.curr (ymat 5 easyLines) V 4 = j3 := easy_currents V 4
  have c5 : NR.curr (ymat 5 easyLines) V 5 = j4 := easy_currents V 5
  have g1 := hs 0
  have g2 := hs 1
  have g3 := hs 2
  have g4 := hs 3
  have g5 := hs 4
  rw [show ((0 : Fin 5).succ) = (1 : Fin 6) from rfl, c1] at g1
  rw [show ((1 : Fin 5).succ) = (2 : Fin 6) from rfl, c2] at g2
  rw [show ((2 : Fin 5).succ) = (3 : Fin 6) from rfl, c3] at g3
  rw [show ((3 : Fin 5).succ) = (4 : Fin 6) from rfl, c4] at g4
  rw [show ((4 : Fin 5).succ) = (5 : Fin 6) from rfl, c5] at g5
  have d0 := line_drop f0
  have d1 := line_drop f1
  have d2 := line_drop f2
  have d3 := line_drop f3
  have d4 := line_drop f4
  have k1 := line_loss f1
  have k2 := line_loss f2
  have k3 := line_loss f3
  have k4 := line_loss f4
  have q0 := power_sq (V 1) j0
  have q1 := power_sq (V 2) j1
  have q2 := power_sq (V 3) j2
  have q3 := power_sq (V 4) j3
  have q4 := power_sq (V 5) j4
  have b1 : V 1 * conj (j0 - j1 - j2) = V 1 * conj j0 - (V 2 * conj j1 - easyZ 1 * normSq j1) - (V 3 * conj j2 - easyZ 2 * normSq j2) := by
    rw [← k1, ← k2, map_sub, map_sub]
    ring
  have b2 : V 2 * conj (j1 - j3 - j4) = V 2 * conj j1 - (V 4 * conj j3 - easyZ 3 * normSq j3) - (V 5 * conj j4 - easyZ 4 * normSq j4) := by
    rw [← k3, ← k4, map_sub, map_sub]
    ring
  rw [b1] at g1
  rw [b2] at g2
  rw [h0] at d0
  generalize hS0 : V 1 * conj j0 = S0 at *
  generalize hS1 : V 2 * conj j1 = S1 at *
  generalize hS2 : V 3 * conj j2 = S2 at *
  generalize hS3 : V 4 * conj j3 = S3 at *
  generalize hS4 : V 5 * conj j4 = S4 at *
  have n0 := normSq_nonneg j0
  have n1 := normSq_nonneg j1
  have n2 := normSq_nonneg j2
  have n3 := normSq_nonneg j3
  have n4 := normSq_nonneg j4
  have v1 := normSq_nonneg (V 1)
  have v2 := normSq_nonneg (V 2)
  generalize normSq j0 = l0 at *
  generalize normSq j1 = l1 at *
  generalize normSq j2 = l2 at *
  generalize normSq j3 = l3 at *
  generalize normSq j4 = l4 at *
  generalize normSq (V 1) = w1 at *
  generalize normSq (V 2) = w2 at *
  generalize normSq (V 3) = w3 at *
  generalize normSq (V 4) = w4 at *
  generalize normSq (V 5) = w5 at *
  simp only [easyZ, normSq_apply, sub_re, sub_im, mul_re, mul_im, ofReal_re, ofReal_im, abs_le, one_re, one_im, mul_zero, sub_zero, zero_add, add_zero,
    Matrix.cons_val_zero, Matrix.cons_val_one, Matrix.cons_val] at g1 g2 g3 g4 g5 d0 d1 d2 d3 d4
  have r0 := hre 0
  have r1 := hre 1
  have r2 := hre 2
  have r3 := hre 3
  have r4 := hre 4
  have i0 := him 0
  have i1 := him 1
  clear hS0 hS1 hS2 hS3 hS4 b1 b2 k1 k2 k3 k4 f0 f1 f2 f3 f4 c1 c2 c3 c4 c5 hs hre him hz
  norm_num at g1 g2 g3 g4 g5 d0 d1 d2 d3 d4 h3 h4 h5
  -- the voltages fall towards the ends of the lines
  have u3 : w3 ≤ w1 := by linarith
  have u4 : w4 ≤ w2 := by linarith
  have u5 : w5 ≤ w2 := by linarith
  have u2 : w2 ≤ w1 := by linarith
  -- the losses
  have m2 := line_heat q2 n2 (β := 2999/10000) (by linarith) (by norm_num) u3
  have m3 := line_heat q3 n3 (β := 4999/10000) (by linarith) (by norm_num) (u4.trans u2)
  have m4 := line_heat q4 n4 (β := 4999/10000) (by linarith) (by norm_num) (u5.trans u2)
  have m1 := line_heat q1 n1 (β := 9999/10000) (by linarith) (by norm_num) u2
  obtain ⟨T, hT⟩ : ∃ T, T = 22/1000 * l1 + 621/10000 * l2 + 611/10000 * l3 + 502/10000 * l4 := ⟨_, rfl⟩
  have hT1 : 55/1000 ≤ w1 * T := by rw [hT]; linarith
  have hB : 12999/10000 + T ≤ -S0.im := by rw [hT]; linarith
  have hA : S0.re ≤ 1/10000 := by linarith
  obtain ⟨B, hBB⟩ : ∃ B, B = -S0.im := ⟨_, rfl⟩
  have hq : B ^ 2 ≤ w1 * l0 := by rw [hBB, neg_sq, ← q0]; exact le_add_of_nonneg_left (sq_nonneg _)
  rw [← hBB] at hB
  exact no_voltage v1 hB hT1 hq (by rw [hBB]; linarith)

/-! ### The action -/

section
variable {ρ : Type} {w : EasyWorld ℝ ρ} {s0 : Sim ℝ} {a a' : Anm6 ℝ ρ} {y : EnvDyn ℝ}

/-- The generators are curtailed and, like the storage unit, draw as much reactive power as they can. -/
def drain : List (X ℝ) := [.fin 0, .fin 0, .fin (-30), .fin (-50), .fin 0, .fin (-50)]

theorem drain_contained : easyActions.contains drain true := by
  refine ⟨by decide, rfl, ?_, ?_⟩ <;>
    simp only [drain, easyActions, boxOf, List.map_cons, List.map_nil, List.forall₂_cons, List.forall₂_nil_left_iff, and_true, X.fin_le_fin] <;>
    norm_num

theorem drain_can {m2 m4 e : ℝ} (h2 : 0 ≤ m2) (h4 : 0 ≤ m4) (he : 0 ≤ e) (he' : e ≤ 100) : CanDo m2 m4 e 0 0 (-30) (-50) 0 (-50) := by
  constructor
  · constructor <;> norm_num [easyGen2]
    positivity
  · constructor <;> norm_num [easyGen4]
    positivity
  · constructor <;> norm_num [easyDes]
    · linarith
    · positivity

/-- **C127.** Whatever the solver of the linear systems does, and with exact projections: in every state between two steps of ANM6Easy
the action [0, 0, -30, -50, 0, -50] of its action space collapses the network: the load flow does not converge, the episode ends and
the reward is -20000. -/
theorem C127_collapse {o : LFOracle} (hw : w.sim.pf = realPF o) (ha : EasyOf w s0 a) (hg : Fair w.rng)
    (G : GoodSolvers w.sim (easySim : Sim ℝ)) (hy : a.env.dyn = some y) (ht : y.terminated = false) {out : Env.StepOut ℝ}
    (h : a.step (easyCtx w s0) drain = .ok (a', out)) : out.terminated = true ∧ out.reward = .fin (-20000) := by
  have hw' : w.sim = ⟨w.sim.qp, realPF o, w.sim.pi⟩ := by rw [← hw]
  have hpf : NumericPF w.sim := by rw [hw']; exact C85_solver _ _ _
  suffices hterm : out.terminated = true by
    obtain ⟨r, hr, -, h2, -⟩ := C98_step ha hg G hpf hy h
    exact ⟨hterm, by rw [hr, h2 ht hterm]⟩
  obtain ⟨p, q, g, fl, vv, e, loss, pen, t, -, hv, -⟩ := easy_vector ha hg G hpf hy ht
  obtain ⟨l1, l3, l5, m2, m4, T⟩ := table_at (t := (t + 1) % 96) (Nat.mod_lt _ (by norm_num))
  obtain ⟨B1, B3, B5, B2, B4⟩ := table_bounds T
  obtain ⟨args, tr, c0, c1, c2, c3, c4, c5, c6, htr, hflag, I⟩ := easy_inputs ha hg G hpf hy ht hv T h
  obtain ⟨⟨E1, E2⟩, -⟩ := I.soc
  obtain ⟨args, out', d0, d1, d2, d3, d4, d5, d6, k1, k2, D, -⟩ := C109_applied ha hg G hpf hy ht hv T
    (drain_can (by exact_mod_cast B2) (by exact_mod_cast B4.1) E1 E2) h
  rw [k2]
  rw [hw'] at k1
  obtain ⟨n1, -⟩ := inject_run (envOf_simOf (easy_env ha)) (easy_sameConfig ha) k1 D
  cases hc : out'.converged with
  | false => rfl
  | true =>
    rw [hc] at n1
    obtain ⟨G', -, hG⟩ := NR.stable_spec (by unfold xtol; norm_num) (by norm_num) n1.symm
    exfalso
    have C1 : (l1 : ℝ) ≤ 0 := by exact_mod_cast B1.2
    have C3 : (l3 : ℝ) ≤ 0 := by exact_mod_cast B3.2
    have C5 : (l5 : ℝ) ≤ 0 := by exact_mod_cast B5.2
    refine C127_no_solution (V := NR.volt G') rfl (s := fun k => ⟨busInj (powers l1 0 l3 0 l5 0) k,
      busInj (powers (l1 / 5) (-30) (l3 / 5) (-50) (l5 / 5) (-50)) k⟩) (fun k => ?_) (fun k => ?_) ?_ ?_ ?_ (fun k => ?_)
    rotate_left 5
    · obtain ⟨x, z, hx, hz, hG1, hG2⟩ := hG k
      cases hx
      cases hz
      exact ⟨hG1, hG2⟩
    · fin_cases k <;> simp [busInj, powers] <;> linarith
    · fin_cases k <;> simp [busInj, powers] <;> linarith
    all_goals simp [busInj, powers]; linarith

/-- **C127, the step exists.** -/
theorem C127_step {o : LFOracle} (hw : w.sim.pf = realPF o) (ha : EasyOf w s0 a) (hg : Fair w.rng)
    (G : GoodSolvers w.sim (easySim : Sim ℝ)) (hy : a.env.dyn = some y) (ht : y.terminated = false) {d : ℤ} (hd : a.date = some d)
    (hlt : d + 15 * (60 * 1000000) < 3652059 * dayMicros) :
    easyActions.contains drain true ∧ ∃ a' out, a.step (easyCtx w s0) drain = .ok (a', out) ∧ out.terminated = true ∧ out.reward = .fin (-20000) := by
  refine ⟨drain_contained, ?_⟩
  rcases C83_step ha hg G hy drain_contained with ⟨a', out, h⟩ | ⟨-, d', hd', hlt'⟩
  · exact ⟨a', out, h, C127_collapse hw ha hg G hy ht h⟩
  · rw [hd] at hd'
    cases hd'
    omega

end

/-- C127 applies after a reset, at each time of day. -/
example {k : ℕ} (hk : k < 96) : ∃ (a : Anm6 ℝ Unit) (r : Anm6 ℝ Unit × List (X ℝ)) (a' : Anm6 ℝ Unit) (out : Env.StepOut ℝ), a.easyReset (easyCtx (exactWorld exactOracle k) easySim) (exactWorld exactOracle k).rng (some 7) none = .ok r ∧
    r.1.step (easyCtx (exactWorld exactOracle k) easySim) drain = .ok (a', out) ∧ out.terminated = true ∧ out.reward = .fin (-20000) := by
  obtain ⟨a, a', obs, ha, h, hc, he⟩ := exact_start exactOracle_exact (k := k) hk
  obtain ⟨-, -, -, y, p, q, g, hy, hf, hv⟩ := reset_vector ha (fair_play k) (C83_solvers _ _) rfl h hc he
  obtain ⟨d, hd, hlt⟩ := reset_room ha (fair_play k) h
  obtain ⟨-, a1, out, h1, h2, h3⟩ := C127_step (o := exactOracle) rfl (ha.reset h) (fair_play k) (C83_solvers _ _) hy hf hd (by omega)
  exact ⟨a, (a', obs), a1, out, h, h1, h2, h3⟩

end

end Anm
