import Verif.Props.EasyBest
import Verif.Props.EasyGoodPlan

/-!
# C113: how well an agent can do in ANM6Easy

A plan that curtails no more than the ratings of the lines call for, and discharges the storage unit no more than they call for, comes
close to the bound of `EasyBest.lean`.
-/

namespace Anm

open Spec Complex ComplexConjugate

/-! ### The losses of a solution of the load flow -/

/-- The loss of a line from its current. -/
theorem current_loss {l : LineC} {vf vt j : ℂ} (h1 : l.iFrom vf vt = -j) (h2 : l.iTo vf vt = j) (h : vt = vf + ⟨l.r, l.x⟩ * j) :
    (l.sFrom vf vt).re + (l.sTo vf vt).re = l.r * ‖j‖ ^ 2 := by
  rw [LineC.sFrom, LineC.sTo, h1, h2, h, Complex.sq_norm, Complex.normSq_apply]
  simp
  ring

/-- The losses of the lines of ANM6 from the currents. -/
theorem cur_loss (c : Cur) : (easyLines.map fun l => loss l (atId c.v)).sum = 36/10000 * ‖c.i3 + c.i4 + c.i5‖ ^ 2 + 3/100 * ‖c.i4 + c.i5‖ ^ 2 +
    307/10000 * ‖c.i3‖ ^ 2 + 303/10000 * ‖c.i4‖ ^ 2 + 159/10000 * ‖c.i5‖ ^ 2 := by
  have hcur := (easy_line_currents c).2
  obtain ⟨a0, a1, a2, a3, a4, a5⟩ := c.at_v
  unfold easyLines at hcur ⊢
  simp only [List.forall₂_cons, a0, a1, a2, a3, a4, a5] at hcur
  obtain ⟨⟨f1, g1⟩, ⟨f2, g2⟩, ⟨f3, g3⟩, ⟨f4, g4⟩, ⟨f5, g5⟩, -⟩ := hcur
  simp only [List.map_cons, List.map_nil, List.sum_cons, List.sum_nil, loss, a0, a1, a2, a3, a4, a5]
  rw [current_loss f1 g1 rfl, current_loss f2 g2 rfl, current_loss f3 g3 rfl, current_loss f4 g4 rfl, current_loss f5 g5 rfl]
  ring

theorem z_norm {r x k : ℝ} (hk : 0 ≤ k) (h : r ^ 2 + x ^ 2 ≤ k ^ 2) : ‖(⟨r, x⟩ : ℂ)‖ ≤ k := by
  refine (sq_le_sq₀ (norm_nonneg _) hk).1 ?_
  rw [Complex.sq_norm, Complex.normSq_apply]
  nlinarith

/-- Two solutions of the load flow with the same flows have the same losses. -/
theorem same_losses {s : Sim ℝ} {ls : List LineC} {V W : ℤ → ℂ} (h1 : Solved s ls V) (h2 : Solved s ls W) :
    (ls.map fun l => loss l V).sum = (ls.map fun l => loss l W).sum := by
  have key : ∀ {bs : List (Branch ℝ)} {ls : List LineC},
      List.Forall₂ (fun (b : Branch ℝ) l => b.line.finite? = some l ∧ b.flow = l.flow (V l.fBus) (V l.tBus)) bs ls →
      List.Forall₂ (fun (b : Branch ℝ) l => b.line.finite? = some l ∧ b.flow = l.flow (W l.fBus) (W l.tBus)) bs ls →
      (ls.map fun l => loss l V).sum = (ls.map fun l => loss l W).sum := by
    intro bs ls k1
    induction k1 with
    | nil => intro _; rfl
    | cons h k1 ih =>
      intro k2
      cases k2 with
      | cons h' k2 =>
        have e := h.2.symm.trans h'.2
        have e1 := congrArg Flow.pFrom e
        have e2 := congrArg Flow.pTo e
        simp only [LineC.flow, X.fin.injEq] at e1 e2
        rw [List.map_cons, List.map_cons, List.sum_cons, List.sum_cons, ih k2, loss, loss, e1, e2]
  exact key h1.flow h2.flow

/-- The losses of a solution within the limits, without reactive power at the buses. -/
theorem cur_losses {c : Cur} {p q : ℕ → ℝ} (M : Spec.Cur.Match c (busInj p) (busInj q)) (S : Spec.Cur.Safe c) (q3 : q 1 + q 2 = 0) (q4 : q 3 + q 4 = 0)
    (q5 : q 5 + q 6 = 0) :
    (easyLines.map fun l => loss l (atId c.v)).sum ≤ lossOf |(p 1 + p 2) / 100| |(p 3 + p 4) / 100| |(p 5 + p 6) / 100|
      |(p 3 + p 4 + (p 5 + p 6)) / 100| |(p 1 + p 2 + (p 3 + p 4) + (p 5 + p 6)) / 100| := by
  have m3 : |(c.v3 * conj c.i3).re - (p 1 + p 2) / 100| ≤ xtol ∧ |(c.v3 * conj c.i3).im - (q 1 + q 2) / 100| ≤ xtol := M 2
  have m4 : |(c.v4 * conj c.i4).re - (p 3 + p 4) / 100| ≤ xtol ∧ |(c.v4 * conj c.i4).im - (q 3 + q 4) / 100| ≤ xtol := M 3
  have m5 : |(c.v5 * conj c.i5).re - (p 5 + p 6) / 100| ≤ xtol ∧ |(c.v5 * conj c.i5).im - (q 5 + q 6) / 100| ≤ xtol := M 4
  have n1 : 9/10 ≤ ‖c.v1‖ := (S.v 0).1
  have n2 : 9/10 ≤ ‖c.v2‖ := (S.v 1).1
  have n3 : 9/10 ≤ ‖c.v3‖ := (S.v 2).1
  have n4 : 9/10 ≤ ‖c.v4‖ := (S.v 3).1
  have n5 : 9/10 ≤ ‖c.v5‖ := (S.v 4).1
  have hx : xtol = 1/100000 := by norm_num [xtol]
  rw [hx, q3, zero_div, sub_zero] at m3
  rw [hx, q4, zero_div, sub_zero] at m4
  rw [hx, q5, zero_div, sub_zero] at m5
  set P3 := (p 1 + p 2) / 100 with hP3
  set P4 := (p 3 + p 4) / 100 with hP4
  set P5 := (p 5 + p 6) / 100 with hP5
  rw [show (p 3 + p 4 + (p 5 + p 6)) / 100 = P4 + P5 by rw [hP4, hP5]; ring,
    show (p 1 + p 2 + (p 3 + p 4) + (p 5 + p 6)) / 100 = P3 + P4 + P5 by rw [hP3, hP4, hP5]; ring]
  set S3 := c.v3 * conj c.i3 with hS3
  set S4 := c.v4 * conj c.i4 with hS4
  set S5 := c.v5 * conj c.i5 with hS5
  have near : ∀ {s : ℂ} {x k : ℝ}, |s.re - x| ≤ k → |s.im| ≤ k → ‖s‖ ≤ |x| + 2 * k := by
    intro s x k h1 h2
    have h3 := Complex.norm_le_abs_re_add_abs_im s
    have h4 : |s.re| ≤ |x| + |s.re - x| := by
      have := abs_add_le x (s.re - x)
      rwa [add_sub_cancel] at this
    linarith
  have low : ∀ {v i : ℂ} {k : ℝ}, 9/10 ≤ ‖v‖ → ‖v * conj i‖ ≤ k → ‖i‖ ≤ k / (9/10) := by
    intro v i k h1 h2
    rw [norm_mul, RCLike.norm_conj] at h2
    rw [le_div_iff₀ (by norm_num)]
    nlinarith [norm_nonneg i]
  have b3 : ‖c.i3‖ ≤ (|P3| + 2/100000) / (9/10) := low n3 (by have := near m3.1 m3.2; linarith)
  have b4 : ‖c.i4‖ ≤ (|P4| + 2/100000) / (9/10) := low n4 (by have := near m4.1 m4.2; linarith)
  have b5 : ‖c.i5‖ ≤ (|P5| + 2/100000) / (9/10) := low n5 (by have := near m5.1 m5.2; linarith)
  have sq_le : ∀ {i : ℂ} {k : ℝ}, ‖i‖ ≤ k → ‖i‖ ^ 2 ≤ k ^ 2 := fun h => pow_le_pow_left₀ (norm_nonneg _) h 2
  have conj_sq : ∀ i : ℂ, i * conj i = ((‖i‖ ^ 2 : ℝ) : ℂ) := by
    intro i
    rw [Complex.mul_conj, Complex.normSq_eq_norm_sq]
  have znorm : ∀ {z i : ℂ} {k : ℝ}, ‖z‖ ≤ k → ‖z * (i * conj i)‖ ≤ k * ‖i‖ ^ 2 := by
    intro z i k h
    rw [conj_sq, norm_mul, Complex.norm_real, Real.norm_of_nonneg (by positivity)]
    exact mul_le_mul_of_nonneg_right h (by positivity)
  have z3 := znorm (i := c.i3) (z_norm (r := 307/10000) (x := 621/10000) (k := 693/10000) (by norm_num) (by norm_num))
  have z4 := znorm (i := c.i4) (z_norm (r := 303/10000) (x := 611/10000) (k := 683/10000) (by norm_num) (by norm_num))
  have z5 := znorm (i := c.i5) (z_norm (r := 159/10000) (x := 502/10000) (k := 527/10000) (by norm_num) (by norm_num))
  have z45 := znorm (i := c.i4 + c.i5) (z_norm (r := 3/100) (x := 22/1000) (k := 373/10000) (by norm_num) (by norm_num))
  have e45 : c.v2 * conj (c.i4 + c.i5) = S4 + S5 - (⟨303/10000, 611/10000⟩ : ℂ) * (c.i4 * conj c.i4) - (⟨159/10000, 502/10000⟩ : ℂ) * (c.i5 * conj c.i5) := by
    rw [hS4, hS5, Cur.v4, Cur.v5, map_add]
    ring
  have e345 : c.v1 * conj (c.i3 + c.i4 + c.i5) = S3 + (S4 + S5 - (⟨303/10000, 611/10000⟩ : ℂ) * (c.i4 * conj c.i4) -
      (⟨159/10000, 502/10000⟩ : ℂ) * (c.i5 * conj c.i5)) - (⟨307/10000, 621/10000⟩ : ℂ) * (c.i3 * conj c.i3) -
      (⟨3/100, 22/1000⟩ : ℂ) * ((c.i4 + c.i5) * conj (c.i4 + c.i5)) := by
    rw [← e45, hS3, Cur.v3, Cur.v2]
    simp only [map_add]
    ring
  have s45 : ‖S4 + S5‖ ≤ |P4 + P5| + 4/100000 := by
    have h1 : |(S4 + S5).re - (P4 + P5)| ≤ 2/100000 := by
      rw [Complex.add_re, show S4.re + S5.re - (P4 + P5) = (S4.re - P4) + (S5.re - P5) by ring]
      exact (abs_add_le _ _).trans (by linarith [m4.1, m5.1])
    have h2 : |(S4 + S5).im| ≤ 2/100000 := by
      rw [Complex.add_im]
      exact (abs_add_le _ _).trans (by linarith [m4.2, m5.2])
    have := near h1 h2
    linarith
  have s345 : ‖S3 + (S4 + S5)‖ ≤ |P3 + P4 + P5| + 6/100000 := by
    have h1 : |(S3 + (S4 + S5)).re - (P3 + P4 + P5)| ≤ 3/100000 := by
      rw [Complex.add_re, Complex.add_re, show S3.re + (S4.re + S5.re) - (P3 + P4 + P5) = (S3.re - P3) + ((S4.re - P4) + (S5.re - P5)) by ring]
      have h1 := abs_add_le (S3.re - P3) ((S4.re - P4) + (S5.re - P5))
      have h2 := abs_add_le (S4.re - P4) (S5.re - P5)
      linarith [m3.1, m4.1, m5.1]
    have h2 : |(S3 + (S4 + S5)).im| ≤ 3/100000 := by
      rw [Complex.add_im, Complex.add_im]
      have h1 := abs_add_le S3.im (S4.im + S5.im)
      have h2 := abs_add_le S4.im S5.im
      linarith [m3.2, m4.2, m5.2]
    have := near h1 h2
    linarith
  have c3 := sq_le b3
  have c4 := sq_le b4
  have c5 := sq_le b5
  set B3 := (|P3| + 2/100000) / (9/10) with hB3
  set B4 := (|P4| + 2/100000) / (9/10) with hB4
  set B5 := (|P5| + 2/100000) / (9/10) with hB5
  have b45 : ‖c.i4 + c.i5‖ ≤ (|P4 + P5| + 4/100000 + 683/10000 * B4 ^ 2 + 527/10000 * B5 ^ 2) / (9/10) := by
    refine low n2 ?_
    rw [e45]
    have h1 := norm_sub_le (S4 + S5 - (⟨303/10000, 611/10000⟩ : ℂ) * (c.i4 * conj c.i4)) ((⟨159/10000, 502/10000⟩ : ℂ) * (c.i5 * conj c.i5))
    have h2 := norm_sub_le (S4 + S5) ((⟨303/10000, 611/10000⟩ : ℂ) * (c.i4 * conj c.i4))
    linarith
  have c45 := sq_le b45
  set N45 := (|P4 + P5| + 4/100000 + 683/10000 * B4 ^ 2 + 527/10000 * B5 ^ 2) / (9/10) with hN45
  have b345 : ‖c.i3 + c.i4 + c.i5‖ ≤ (|P3 + P4 + P5| + 6/100000 + 693/10000 * B3 ^ 2 + 683/10000 * B4 ^ 2 + 527/10000 * B5 ^ 2 +
      373/10000 * N45 ^ 2) / (9/10) := by
    refine low n1 ?_
    rw [e345]
    set A4 := (⟨303/10000, 611/10000⟩ : ℂ) * (c.i4 * conj c.i4)
    set A5 := (⟨159/10000, 502/10000⟩ : ℂ) * (c.i5 * conj c.i5)
    set A3 := (⟨307/10000, 621/10000⟩ : ℂ) * (c.i3 * conj c.i3)
    set A45 := (⟨3/100, 22/1000⟩ : ℂ) * ((c.i4 + c.i5) * conj (c.i4 + c.i5))
    have h1 := norm_sub_le (S3 + (S4 + S5) - A4 - A5 - A3) A45
    have h2 := norm_sub_le (S3 + (S4 + S5) - A4 - A5) A3
    have h3 := norm_sub_le (S3 + (S4 + S5) - A4) A5
    have h4 := norm_sub_le (S3 + (S4 + S5)) A4
    rw [show S3 + (S4 + S5 - A4 - A5) - A3 - A45 = S3 + (S4 + S5) - A4 - A5 - A3 - A45 by ring]
    linarith
  have c345 := sq_le b345
  rw [cur_loss]
  simp only [lossOf, ← hB3, ← hB4, ← hB5, ← hN45]
  linarith

/-! ### What a step costs -/

noncomputable section

section
variable {ρ : Type} {w : EasyWorld ℝ ρ} {s0 : Sim ℝ} {a a' : Anm6 ℝ ρ} {y : EnvDyn ℝ}

/-- The reward of a step with an action that the devices can carry out and that leads to a state within the limits, without reactive power
at the buses. -/
theorem play_cost {lf : LFOracle} (hl : Steers lf) (ha : EasyOf w s0 a) (hg : Fair w.rng) (G : GoodSolvers w.sim (easySim : Sim ℝ))
    (hw : w.sim.pf = realPF lf) (hy : a.env.dyn = some y) (ht : y.terminated = false) {p q g : ℕ → ℝ} {e : ℝ} {t : ℕ} (hv : EasyVector y.state p q g e t)
    {l1 l3 l5 m2 m4 : ℚ} (T : TableAt ((t + 1) % 96) l1 l3 l5 m2 m4) {p2 p4 p6 : ℚ} {q2 q4 q6 : ℝ} (C : CanDo m2 m4 e p2 p4 q2 q4 p6 q6)
    (hcur : ∃ c, Spec.Cur.Match c (busInj (powers l1 p2 l3 p4 l5 p6)) (busInj (powers (l1 / 5) q2 (l3 / 5) q4 (l5 / 5) q6)) ∧ Spec.Cur.Roomy c)
    (hq2 : (l1 : ℝ) / 5 + q2 = 0) (hq4 : (l3 : ℝ) / 5 + q4 = 0) (hq6 : (l5 : ℝ) / 5 + q6 = 0) (k2 : p2 ≤ min m2 30) (k4 : p4 ≤ m4)
    {k : ℚ} (hmin : -1 ≤ k) (hk : stepCost l1 l3 l5 m2 m4 p2 p4 p6 ≤ k)
    {o : Env.StepOut ℝ} (h : a.step (easyCtx w s0) [.fin (p2 : ℝ), .fin (p4 : ℝ), .fin q2, .fin q4, .fin (p6 : ℝ), .fin q6] = .ok (a', o)) :
    o.terminated = false ∧ ∃ y' r, a'.env.dyn = some y' ∧ y'.terminated = false ∧ y'.penalty = 0 ∧ o.reward = .fin r ∧
      -(k : ℝ) ≤ r ∧ ∃ p q g, EasyVector y'.state p q g (after e p6) ((t + 1) % 96) := by
  obtain ⟨ho, y', hy', hf', hpen, p', q', g', hv'⟩ := play_step hl ha hg G hw hy ht hv T C hcur h
  have hw' : w.sim = ⟨w.sim.qp, realPF lf, w.sim.pi⟩ := by rw [← hw]
  have hpf : NumericPF w.sim := by rw [hw']; exact C85_solver _ _ _
  obtain ⟨args, out, d0, d1, d2, d3, d4, d5, d6, htr, hflag, J, hsoc⟩ := C109_applied ha hg G hpf hy ht hv T C h
  rw [hw'] at htr
  obtain ⟨hconv, -, W, c, hS, hM, hsafe, hW⟩ := hl (envOf_simOf (easy_env ha)) (easy_sameConfig ha) htr J hcur
  obtain ⟨V, x, hV, hx, habs⟩ := easy_energy ha hg G hw h ho hy' hv'
  rw [same_losses hV hS] at habs
  have hlo := cur_losses hM hsafe hq2 hq4 hq6
  obtain ⟨E, c0, c1, c2, c3, c4, c5, c6, D⟩ := easy_vector_devices (ha.step h) hg G hpf hy' hf' hv'
  have hds := J.list
  rw [D.list] at hds
  simp only [List.cons.injEq, and_true] at hds
  obtain ⟨rfl, rfl, rfl, rfl, rfl, rfl, rfl⟩ := hds
  have f2 := D.pq2.1.symm.trans J.pq2.1
  have f4 := D.pq4.1.symm.trans J.pq4.1
  have f6 := D.pq6.1.symm.trans J.pq6.1
  simp only [X.fin.injEq] at f2 f4 f6
  rw [f2, f4, f6] at habs
  obtain ⟨x1, x3, x5, z2, z4, t1, t2, t3, t4, t5, t6, t7⟩ := easy_vector_day ha hg G h ho hy' hv'
  have T2 := T.gens
  rw [t2] at T2
  simp only [List.cons.injEq, Option.some.injEq, and_true] at T2
  obtain ⟨rfl, rfl⟩ := T2
  have K2 : (p2 : ℝ) ≤ min (z2 : ℝ) 30 := by exact_mod_cast k2
  have K4 : (p4 : ℝ) ≤ z4 := by exact_mod_cast k4
  rw [t6, t7] at habs
  simp only [powers, List.getD_cons_zero, List.getD_cons_succ] at habs hlo
  have u2 : max 0 (min (z2 : ℝ) 30 / 100 - p2 / 100) = (min (z2 : ℝ) 30 - p2) / 100 := by
    rw [max_eq_right] <;> linarith
  have u4 : max 0 ((z4 : ℝ) / 100 - p4 / 100) = (z4 - p4) / 100 := by
    rw [max_eq_right] <;> linarith
  rw [u2, u4] at habs
  have hle : x ≤ (stepCost l1 l3 l5 z2 z4 p2 p4 p6 : ℝ) := by
    have h1 := (abs_le.1 habs).2
    unfold stepCost
    push_cast
    rw [lossOf_cast]
    push_cast
    norm_num at h1 hlo ⊢
    linarith
  refine ⟨ho, y', max (-1) (min x 1) * (-1), hy', hf', hpen, ?_, ?_, p', q', g', hv'⟩
  · rw [easy_reward h ho hy', hx, hpen, X.zero_def, X.fin_add_fin]
    simp
  · have h1 : (-1 : ℝ) ≤ k := by exact_mod_cast hmin
    have h2 : (stepCost l1 l3 l5 z2 z4 p2 p4 p6 : ℝ) ≤ k := by exact_mod_cast hk
    have h3 : max (-1) (min x 1) ≤ (k : ℝ) := max_le h1 ((min_le_left _ _).trans (hle.trans h2))
    linarith

/-- A step of the plan. -/
theorem good_step {x : ℝ} (x0 : 0 ≤ x) (x1 : x ≤ 1) {lf : LFOracle} (hl : Steers lf) (ha : EasyOf w s0 a) (hg : Fair w.rng)
    (G : GoodSolvers w.sim (easySim : Sim ℝ)) (hw : w.sim.pf = realPF lf)
    (hy : a.env.dyn = some y) (ht : y.terminated = false) {p q g : ℕ → ℝ} {t : ℕ} (ht96 : t < 96)
    (hv : EasyVector y.state p q g (goodEnergy t + x) t) {d : ℤ} (hd : a.date = some d) (hlt : d + 15 * (60 * 1000000) < 3652059 * dayMicros) :
    ∃ a' o y' r, a.step (easyCtx w s0) (actionOf (good ((t + 1) % 96))) = .ok (a', o) ∧ o.terminated = false ∧ a'.env.dyn = some y' ∧
      y'.terminated = false ∧ y'.penalty = 0 ∧ o.reward = .fin r ∧ -(goodCost ((t + 1) % 96) : ℝ) ≤ r ∧ a'.date = some (d + 15 * (60 * 1000000)) ∧
      ∃ p q g, EasyVector y'.state p q g (goodEnergy ((t + 1) % 96) + x) ((t + 1) % 96) := by
  have P := good_ok t ht96
  obtain ⟨T, C, hcur, hcon, hen⟩ := step_can (Nat.mod_lt _ (by norm_num)) x0 x1 P
  obtain ⟨j1, j2⟩ := good_cost _ (Nat.mod_lt (t + 1) (by norm_num : 96 > 0))
  rcases C83_step ha hg G hy hcon with ⟨a', o, h⟩ | ⟨-, d', hd', hlt'⟩
  · have k2 : (good ((t + 1) % 96)).1 ≤ min (potAt 0 ((t + 1) % 96)) 30 := min_le_left _ _
    have k4 : (good ((t + 1) % 96)).2.1 ≤ potAt 1 ((t + 1) % 96) := min_le_left _ _
    obtain ⟨ho, y', r, hy', hf', hpen, hr, hrle, p', q', g', hv'⟩ := play_cost hl ha hg G hw hy ht hv T C hcur (by push_cast; ring)
      (by push_cast; ring) (by push_cast; ring) k2 k4 j1 j2 h
    rw [after_cast] at hv'
    rw [show afterQ (goodEnergy t) (goodStorage ((t + 1) % 96)) = _ from hen] at hv'
    refine ⟨a', o, y', r, h, ho, hy', hf', hpen, hr, hrle, ?_, p', q', g', hv'⟩
    obtain ⟨e, dd, dd0, -, h3, -, rfl⟩ := anm6_step_ok h
    rw [hd] at h3
    cases h3
    show some (d + a.tick) = _
    rw [easy_tick ha]
  · rw [hd] at hd'
    cases hd'
    omega

/-- The plan can be followed. -/
theorem follow_good {x : ℝ} (x0 : 0 ≤ x) (x1 : x ≤ 1) {lf : LFOracle} (hl : Steers lf) (hg : Fair w.rng) (G : GoodSolvers w.sim (easySim : Sim ℝ))
    (hw : w.sim.pf = realPF lf) : ∀ (n t : ℕ) (a : Anm6 ℝ ρ) (y : EnvDyn ℝ) (d : ℤ) (p q g : ℕ → ℝ), EasyOf w s0 a →
    a.env.dyn = some y → y.terminated = false → t < 96 → a.date = some d → d + n * (15 * (60 * 1000000)) < 3652059 * dayMicros →
    EasyVector y.state p q g (goodEnergy t + x) t → ∃ us os a' rs, us.length = n ∧ Anm6Episode (easyCtx w s0) a us os a' ∧
      SafeRun (easyCtx w s0) a n a' ∧ os.map (·.reward) = rs.map X.fin ∧
      ∀ γ : ℚ, 0 ≤ γ → -(goodSum γ t n : ℝ) ≤ discounted (γ : ℝ) rs
  | 0, t, a, y, d, p, q, g, ha, hy, hf, ht, hd, hlt, hv => ⟨[], [], a, [], rfl, .nil a, .nil a, rfl, by simp [goodSum, daySum, discounted]⟩
  | n + 1, t, a, y, d, p, q, g, ha, hy, hf, ht, hd, hlt, hv => by
    obtain ⟨a1, o, y1, r, h, ho, hy1, hf1, hpen, hr, hrle, hd1, p1, q1, g1, hv1⟩ :=
      good_step x0 x1 hl ha hg G hw hy hf ht hv hd (by push_cast at hlt; nlinarith)
    obtain ⟨us, os, a', rs, i1, i2, i3, i4, i5⟩ := follow_good x0 x1 hl hg G hw n ((t + 1) % 96) a1 y1 _ p1 q1 g1 (ha.step h) hy1 hf1
      (Nat.mod_lt _ (by norm_num)) hd1 (by push_cast at hlt; linarith) hv1
    refine ⟨_ :: us, o :: os, a', r :: rs, by simp [i1], .cons h i2, .cons h ho hy1 hpen i3, by simp [hr, i4], fun γ h0 => ?_⟩
    have i5 := i5 γ h0
    have hγ : (0 : ℝ) ≤ γ := by exact_mod_cast h0
    unfold goodSum at i5 ⊢
    rw [daySum, discounted]
    push_cast
    nlinarith

end

/-- The costs of a number of days. -/
theorem daySum_days (f : ℕ → ℚ) (γ : ℚ) {s : ℕ} (hs : s < 96) : ∀ N : ℕ, daySum f γ s (96 * N) = daySum f γ s 96 * ∑ k ∈ Finset.range N, (γ ^ 96) ^ k := by
  have split : ∀ m n t, daySum f γ t (m + n) = daySum f γ t m + γ ^ m * daySum f γ ((t + m) % 96) n := by
    intro m
    induction m with
    | zero =>
      intro n t
      rw [zero_add, pow_zero, one_mul, daySum, zero_add]
      cases n with
      | zero => rfl
      | succ n => rw [daySum, daySum, show ((t + 0) % 96 + 1) % 96 = (t + 1) % 96 by omega]
    | succ m ih =>
      intro n t
      rw [show m + 1 + n = (m + n) + 1 by ring, daySum, daySum, ih, show ((t + 1) % 96 + m) % 96 = (t + (m + 1)) % 96 by omega]
      ring
  intro N
  induction N with
  | zero => rw [mul_zero, Finset.range_zero, Finset.sum_empty, mul_zero]; rfl
  | succ N ih =>
    rw [show 96 * (N + 1) = 96 * N + 96 by ring, split, ih, show (s + 96 * N) % 96 = s by omega, Finset.sum_range_succ, pow_mul]
    ring

theorem start_good : StartOk 49 :=
  ⟨-25/8, -65/4, -75/8, 323/12, 3499/120, micro 238206 21972 128124 40846 (-95941) 14405, by norm_num, ⟨by decide +kernel, by decide +kernel⟩, by norm_num,
    by decide +kernel⟩

theorem discounted_one : ∀ l : List ℝ, discounted 1 l = l.sum
  | [] => rfl
  | x :: l => by simp [discounted, discounted_one l]

theorem geom_days (N : ℕ) : (1 : ℝ) - (995/1000) ^ (96 * N) = (1 - (995/1000) ^ 96) * ∑ k ∈ Finset.range N, ((995/1000 : ℝ) ^ 96) ^ k ∧
    ∑ k ∈ Finset.range N, ((995/1000 : ℝ) ^ 96) ^ k ≤ 26185/10000 := by
  have h1 : (1 : ℝ) - (995/1000) ^ (96 * N) = (1 - (995/1000) ^ 96) * ∑ k ∈ Finset.range N, ((995/1000 : ℝ) ^ 96) ^ k := by
    rw [mul_neg_geom_sum, pow_mul]
  refine ⟨h1, ?_⟩
  have h2 : (0 : ℝ) ≤ (995/1000) ^ (96 * N) := by positivity
  have h3 : (3819/10000 : ℝ) ≤ 1 - (995/1000) ^ 96 := by norm_num
  have h4 : (0 : ℝ) ≤ ∑ k ∈ Finset.range N, ((995/1000 : ℝ) ^ 96) ^ k := by positivity
  nlinarith

theorem forcedSumQ_daySum (γ : ℚ) : ∀ n t, forcedSumQ γ t n = daySum forced γ t n
  | 0, _ => rfl
  | n + 1, t => by rw [forcedSumQ, daySum, forcedSumQ_daySum γ n]

/-- The plan and the bound of `C112_return` with discounted rewards, for the times at which the storage unit is empty under the plan. -/
theorem forced_good : ∀ t < 96, (46 ≤ t ∧ t ≤ 50) ∨ (86 ≤ t ∧ t ≤ 91) →
    goodSum (995/1000) t 96 - forcedSumQ (995/1000) t 96 ≤ 10683/100000 := by decide +kernel

section
variable {ρ : Type} {w : EasyWorld ℝ ρ} {s0 : Sim ℝ} {a : Anm6 ℝ ρ} {y : EnvDyn ℝ}

/-- The plan, and any other way to play. -/
theorem good_game {lf : LFOracle} (hl : Steers lf) (ha : EasyOf w s0 a) (hg : Fair w.rng) (G : GoodSolvers w.sim (easySim : Sim ℝ))
    (hw : w.sim.pf = realPF lf) (hy : a.env.dyn = some y) (hf : y.terminated = false) {p q g : ℕ → ℝ} {x : ℝ} {t : ℕ} (ht : t < 96)
    (htt : (46 ≤ t ∧ t ≤ 50) ∨ (86 ≤ t ∧ t ≤ 91)) (x0 : 0 ≤ x) (x1 : x ≤ 1) (hv : EasyVector y.state p q g x t) {d : ℤ} (hd : a.date = some d)
    (hlt : d + 35040 * (15 * (60 * 1000000)) < 3652059 * dayMicros) {N : ℕ} (hN : N ≤ 365) :
    ∃ us os a' rs, us.length = 96 * N ∧ Anm6Episode (easyCtx w s0) a us os a' ∧ SafeRun (easyCtx w s0) a (96 * N) a' ∧
      os.map (·.reward) = rs.map X.fin ∧ -2.138 * (N : ℝ) ≤ rs.sum ∧ -(if t ≤ 50 then 4.66 else 4.97) ≤ discounted (995/1000) rs ∧
      ∀ us' os' b, us'.length = 96 * N → Anm6Episode (easyCtx w s0) a us' os' b →
        ∃ rs' : List ℝ, os'.map (·.reward) = rs'.map X.fin ∧ rs'.sum ≤ rs.sum + 0.0603 * (N : ℝ) + x / 90 ∧
          discounted (995/1000) rs' ≤ discounted (995/1000) rs + 0.284 + x / 90 := by
  have hv' : EasyVector y.state p q g (goodEnergy t + x) t := by rw [good_empty t ht htt]; simpa using hv
  have hsum : (0 : ℝ) ≤ ∑ k ∈ Finset.range N, ((995/1000 : ℝ) ^ 96) ^ k := by positivity
  have hgeo := (geom_days N).2
  have hN0 : (0 : ℝ) ≤ N := by positivity
  obtain ⟨us, os, a', rs, i1, i2, i3, i4, i5⟩ := follow_good x0 x1 hl hg G hw (96 * N) t a y d p q g ha hy hf ht hd (by push_cast; omega) hv'
  have s1 : -2.138 * (N : ℝ) ≤ rs.sum := by
    have h1 := i5 1 (by norm_num)
    rw [goodSum, daySum_days _ _ ht] at h1
    have h2 : ((daySum goodCost 1 t 96 : ℚ) : ℝ) ≤ ((2138/1000 : ℚ) : ℝ) := by exact_mod_cast goodSum_day t ht
    push_cast at h1 h2
    rw [discounted_one] at h1
    simp only [one_pow, Finset.sum_const, Finset.card_range, nsmul_eq_mul, mul_one] at h1
    nlinarith
  have s2 := i5 (995/1000) (by norm_num)
  rw [goodSum, daySum_days _ _ ht] at s2
  push_cast at s2
  refine ⟨us, os, a', rs, i1, i2, i3, i4, s1, ?_, ?_⟩
  · have h2 := goodSum_discounted t ht htt
    split_ifs at h2 ⊢ with h50
    · have h2 : ((daySum goodCost (995/1000) t 96 : ℚ) : ℝ) ≤ ((17796/10000 : ℚ) : ℝ) := by exact_mod_cast h2
      push_cast at h2
      norm_num at s2 h2 ⊢
      nlinarith
    · have h2 : ((daySum goodCost (995/1000) t 96 : ℚ) : ℝ) ≤ ((1897/1000 : ℚ) : ℝ) := by exact_mod_cast h2
      push_cast at h2
      norm_num at s2 h2 ⊢
      nlinarith
  · intro us' os' b hlen hE
    have he : Energy a x := ⟨y, hy, by rw [hv]; rfl⟩
    have hc : Clock a.env t := ⟨y, hy, by rw [hv]; rfl⟩
    obtain ⟨rs', r1, r2⟩ := C112_return hg G hw (γ := 1) (by norm_num) le_rfl hE ha hc he hy hf (.inl (by omega))
    obtain ⟨rs2, r3, r4⟩ := C112_return hg G hw (γ := 995/1000) (by norm_num) (by norm_num) hE ha hc he hy hf (.inr le_rfl)
    have hrs : rs2 = rs' := by
      have := r3.symm.trans r1
      exact List.map_injective_iff.2 (fun _ _ h => X.fin.inj h) this
    subst hrs
    refine ⟨rs2, r1, ?_, ?_⟩
    · have hF := forcedSum_cast 1 (96 * N) t
      rw [forcedSumQ_daySum, daySum_days _ _ ht, ← forcedSumQ_daySum, forcedSum_day t ht] at hF
      push_cast at hF
      rw [hlen, discounted_one, hF] at r2
      simp only [one_pow, Finset.sum_const, Finset.card_range, nsmul_eq_mul, mul_one] at r2
      push_cast at r2
      norm_num at s1 r2 ⊢
      linarith
    · have hF := forcedSum_cast (995/1000) (96 * N) t
      rw [forcedSumQ_daySum, daySum_days _ _ ht, ← forcedSumQ_daySum] at hF
      have h2 : ((daySum goodCost (995/1000) t 96 : ℚ) : ℝ) - ((forcedSumQ (995/1000) t 96 : ℚ) : ℝ) ≤ ((10683/100000 : ℚ) : ℝ) := by
        exact_mod_cast forced_good t ht htt
      push_cast at hF h2
      rw [hlen, hF] at r4
      have hge : ∑ k ∈ Finset.range (96 * N), (995/1000 : ℝ) ^ k ≤ 200 := by
        rw [geom_sum_eq (by norm_num)]
        have : 0 ≤ (995/1000 : ℝ) ^ (96 * N) := by positivity
        rw [div_le_iff_of_neg (by norm_num)]
        linarith
      norm_num at r4 s2 h2 ⊢
      nlinarith

end

/-- **C113.** For a suitable linear solver, an environment ANM6Easy can be made, reset and played for up to a year without any penalty in
such a way that the rewards sum up to at least -2.138 a day, and to at least -4.66 if they are discounted with the factor
0.995 of ANM6Easy. No agent does better by more than 0.006 in all and 0.0603 a day, or by more than 0.29 if the rewards are discounted. -/
theorem C113_play : ∃ (a a1 : Anm6 ℝ Unit) (obs : List (X ℝ)), EasyOf (playWorld 49) easySim a ∧
    (a.easyReset (easyCtx (playWorld 49) easySim) (playWorld 49).rng (some 7) none = .ok (a1, obs)) ∧
    ∀ N ≤ 365, ∃ us os a' rs, us.length = 96 * N ∧ Anm6Episode (easyCtx (playWorld 49) easySim) a1 us os a' ∧
      SafeRun (easyCtx (playWorld 49) easySim) a1 (96 * N) a' ∧ os.map (·.reward) = rs.map X.fin ∧
      -2.138 * (N : ℝ) ≤ rs.sum ∧ -4.66 ≤ discounted (995/1000) rs ∧
      ∀ us' os' b, us'.length = 96 * N → Anm6Episode (easyCtx (playWorld 49) easySim) a1 us' os' b →
        ∃ rs' : List ℝ, os'.map (·.reward) = rs'.map X.fin ∧ rs'.sum ≤ rs.sum + 0.0603 * (N : ℝ) + 0.006 ∧
          discounted (995/1000) rs' ≤ discounted (995/1000) rs + 0.29 := by
  obtain ⟨a, a1, obs, y, d, ha, h, hy, hf, hd, hlt, p, q, g, hv⟩ := play_start start_good
  refine ⟨a, a1, obs, ha, h, fun N hN => ?_⟩
  obtain ⟨us, os, a', rs, i1, i2, i3, i4, i5, i6, i7⟩ := good_game steers_play (ha.reset h) (fair_play 49) (play_good 49) rfl hy hf (by norm_num)
    (by norm_num) (by norm_num) (by norm_num) hv hd hlt hN
  refine ⟨us, os, a', rs, i1, i2, i3, i4, i5, by simpa using i6, fun us' os' b hlen hE => ?_⟩
  obtain ⟨rs', r1, r2, r3⟩ := i7 us' os' b hlen hE
  refine ⟨rs', r1, ?_, ?_⟩
  · norm_num at r2 ⊢
    linarith
  · norm_num at r3 ⊢
    linarith

end

end Anm
