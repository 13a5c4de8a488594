import Verif.Props.EasyDoomed

/-! # Cases that meet the hypotheses of C106 to C111 -/

namespace Anm

open Spec

noncomputable section

theorem safe_head {ρ : Type} {c : EnvCtx ℝ ρ} {a a' : Anm6 ℝ ρ} {n : ℕ} (h : SafeRun c a (n + 1) a') :
    ∃ u a1 out y, a.step c u = .ok (a1, out) ∧ out.terminated = false ∧ a1.env.dyn = some y ∧ y.penalty = 0 ∧ SafeRun c a1 n a' := by
  cases h with
  | cons h1 h2 h3 h4 h5 => exact ⟨_, _, _, _, h1, h2, h3, h4, h5⟩

theorem safe_take {ρ : Type} {c : EnvCtx ℝ ρ} {a' : Anm6 ℝ ρ} : ∀ {m n : ℕ} {a : Anm6 ℝ ρ}, SafeRun c a (m + n) a' → ∃ a1, SafeRun c a m a1
  | 0, _, a, _ => ⟨a, .nil a⟩
  | m + 1, n, a, h => by
    rw [show m + 1 + n = m + n + 1 by omega] at h
    obtain ⟨u, a1, out, y, h1, h2, h3, h4, h5⟩ := safe_head h
    obtain ⟨a2, h6⟩ := safe_take h5
    exact ⟨a2, .cons h1 h2 h3 h4 h6⟩

/-- `C109_applied` and `play_step`: at any time of the day there is an environment in use, an action that its devices can
carry out, and a step with this action. -/
theorem applied_case {n : ℕ} (hn : n < 35040) : ∃ a y p q g e t l1 l3 l5 m2 m4 p2 p4 q2 q4 p6 q6 a' o, EasyOf (playWorld 52) easySim a ∧
    a.env.dyn = some y ∧ y.terminated = false ∧ t = (52 + n) % 96 ∧ EasyVector y.state p q g e t ∧ TableAt ((t + 1) % 96) l1 l3 l5 m2 m4 ∧
    CanDo m2 m4 e p2 p4 q2 q4 p6 q6 ∧
    a.step (easyCtx (playWorld 52) easySim) [.fin p2, .fin p4, .fin q2, .fin q4, .fin p6, .fin q6] = .ok (a', o) := by
  obtain ⟨a, a1, obs, y, d, ha, h, hy, hf, hd, hlt, p, q, g, hv⟩ := play_start start_noon
  have hv : EasyVector y.state p q g (planEnergy 52 + 1/2) 52 := by rw [plan_empty 52 (by norm_num) (by norm_num)]; simpa using hv
  obtain ⟨a2, y2, p2, q2, g2, R2, ha2, hd2, hy2, hf2, hv2⟩ := plan_run plan_ok (by norm_num) (by norm_num) steers_play (fair_play 52) (play_good 52) rfl
    n 52 a1 y d p q g (ha.reset h) hy hf (by norm_num) hd (by omega) hv
  have ht : (52 + n) % 96 < 96 := Nat.mod_lt _ (by norm_num)
  obtain ⟨l1, l3, l5, m2, m4, u2, u4, w2, w4, u6, w6, T, C, -, hact, -, -⟩ := plan_can plan_ok (x := 1/2) (by norm_num) (by norm_num) ht
  obtain ⟨a', o, y', h1, -⟩ := plan_step plan_ok (by norm_num) (by norm_num) steers_play ha2 (fair_play 52) (play_good 52) rfl hy2 hf2 ht hv2 hd2 (by omega)
  rw [hact] at h1
  exact ⟨a2, y2, p2, q2, g2, _, _, l1, l3, l5, m2, m4, u2, u4, w2, w4, u6, w6, a', o, ha2, hy2, hf2, rfl, hv2, T, C, h1⟩

/-- `C107_ends` to `C107_noon` and `C107_step_energy`: at any time of the day there is a step without penalty. -/
theorem safe_case {n : ℕ} (hn : n < 35039) : ∃ a u a' out y p q g e e' t, EasyOf (playWorld 52) easySim a ∧
    a.step (easyCtx (playWorld 52) easySim) u = .ok (a', out) ∧ out.terminated = false ∧ a'.env.dyn = some y ∧ y.penalty = 0 ∧
    Energy a e ∧ t = (53 + n) % 96 ∧ EasyVector y.state p q g e' t := by
  obtain ⟨a, a', y, p, q, g, ha, hy, hf, hv, R⟩ := plan_reach (n := n) (by omega)
  rw [show 35040 - n = (35039 - n) + 1 by omega] at R
  obtain ⟨u, a1, out, y1, h1, h2, h3, h4, -⟩ := safe_head R
  have hpf : NumericPF (playWorld 52).sim := C85_solver _ _ _
  have ht : y1.terminated = false := by
    obtain ⟨y0, y', args, tr, -, -, hy', ht', -⟩ := easy_step_last ha (fair_play 52) (play_good 52) h1 h2
    rw [h3] at hy'
    cases hy'
    exact ht'
  obtain ⟨p', q', g', fl, vv, e', loss, pen, t', -, hv', -⟩ := easy_vector (ha.step h1) (fair_play 52) (play_good 52) hpf h3 ht
  have hclk : Clock a.env ((52 + n) % 96) := ⟨y, hy, by rw [hv]; rfl⟩
  obtain ⟨y3, hy3, hl3⟩ := easy_next_step ha hclk h1 h2
  rw [h3] at hy3
  cases hy3
  rw [hv'] at hl3
  simp only [List.getLast?_cons_cons, List.getLast?_singleton, Option.some.injEq, X.fin.injEq, Nat.cast_inj] at hl3
  exact ⟨a, u, a1, out, y1, p', q', g', _, e', t', ha, h1, h2, h3, h4, ⟨y, hy, by rw [hv]; rfl⟩, by omega, hv'⟩

/-- Night, vehicles and noon all occur. -/
example : (53 + 40) % 96 = 93 ∧ (53 + 25) % 96 = 78 ∧ (53 + 2) % 96 = 55 := by decide

/-- `C107_energy` and `C107_reserve`: the plan gets through the charging period in the evening without penalty. -/
example : ∃ a a' e y, EasyOf (playWorld 52) easySim a ∧ SafeRun (easyCtx (playWorld 52) easySim) a 17 a' ∧ Energy a e ∧ a.env.dyn = some y ∧
    y.terminated = false ∧ Clock a.env 69 := by
  obtain ⟨a, a', y, p, q, g, ha, hy, hf, hv, R⟩ := plan_reach (n := 17) (by norm_num)
  rw [show 35040 - 17 = 17 + 35006 by norm_num] at R
  obtain ⟨a1, R1⟩ := safe_take R
  exact ⟨a, a1, _, y, ha, R1, ⟨y, hy, by rw [hv]; rfl⟩, hy, hf, y, hy, by rw [hv]; rfl⟩

theorem penalty_unclipped {x : X ℝ} (hpos : 0 ≤ x) (hclip : 0 = x.clip 0 (.fin 100)) : x = 0 := by
  by_cases h100 : x ≤ .fin 100
  · rw [X.clip_eq_self hpos h100] at hclip
    exact hclip.symm
  · rw [X.not_le_iff (X.le_notNan hpos).2 (X.notNan_fin _)] at h100
    rw [clip_eq_hi (by rw [X.zero_def, X.fin_le_fin]; norm_num) (X.le_of_lt' h100), X.zero_def, X.fin.injEq] at hclip
    norm_num at hclip

/-- `C106_leaf` and `C106_draw`: the transition of such a step, and bus 5 of ANM6 at the end of its line, with limits that
hold. -/
example : ∃ (s s' : Sim ℝ) (a : Sim.Args ℝ) (out : Sim.TransOut ℝ) (b : Bus ℝ) (br : Branch ℝ) (P : ℝ),
    CleanFile anm6Net (100 : ℝ) ∧ SimOf anm6Net (.fin (1/4)) (.fin 100) s ∧ Numbered s 5 ∧ (∃ ls, FiniteLines s ls) ∧
    s.transition ⟨exactQP, realPF playOracle, Real.pi⟩ a = .ok (s', out) ∧ out.converged = true ∧ b ∈ s'.buses ∧ b.isSlack = false ∧
    LeafOn s' b.id br ∧ WithinLimits s' ∧ br.line.rate = .fin (18/100) ∧ b.p = .fin P := by
  obtain ⟨a, u, a', out, y, p, q, g, e, e', t, ha, h, ho, hy, hpen, -, -, hv⟩ := safe_case (n := 0) (by norm_num)
  obtain ⟨y0, y', args, tr, hy0, ht0, hy', ht', L, hc, hclip⟩ := easy_step_last ha (fair_play 52) (play_good 52) h ho
  have hcfg := easy_sameConfig ha
  have h2 : a.env.sim.transition ⟨exactQP, realPF playOracle, Real.pi⟩ args = .ok (a'.env.sim, tr) := L.trans
  obtain ⟨-, hpos, hiff⟩ := C37_converged anm6_clean L.sim (by norm_num) (by norm_num) (numbered_same hcfg easy_numbered)
    (finiteLines_same hcfg easy_finiteLines) h2 hc
  obtain ⟨b3, b4, b5, c3, c4, c5, k3, k4, k5, -, -, ⟨i5, j5, l5, m5⟩, -, -, e5⟩ := easy_leaf (easy_sameConfig (ha.step h))
  obtain ⟨P, Q, -, -, hP, -⟩ := C106_leaf anm6_clean L.sim (numbered_same hcfg easy_numbered) (finiteLines_same hcfg easy_finiteLines) h2 hc k5 j5
    (br := c5) (by rw [i5]; exact m5)
  refine ⟨a.env.sim, a'.env.sim, args, tr, b5, c5, P, anm6_clean, L.sim, numbered_same hcfg easy_numbered, ⟨_, finiteLines_same hcfg easy_finiteLines⟩,
    h2, hc, k5, j5, by rw [i5]; exact m5, ?_, by rw [e5], hP⟩
  rw [hy] at hy'
  cases hy'
  exact hiff.1 (penalty_unclipped hpos (hpen ▸ hclip))

/-- A step of the plan: the buses 4 and 5 inject 17.5 MW and draw 17.5 MW. -/
theorem charging_step : ∃ (s s' : Sim ℝ) (a : Sim.Args ℝ) (out : Sim.TransOut ℝ) (b4 b5 : Bus ℝ) (c4 c5 : Branch ℝ) (ls : List LineC),
    SimOf anm6Net (.fin (1/4)) (.fin 100) s ∧ Numbered s 5 ∧ FiniteLines s ls ∧
    s.transition ⟨exactQP, realPF playOracle, Real.pi⟩ a = .ok (s', out) ∧ out.converged = true ∧ WithinLimits s' ∧
    (b4 ∈ s'.buses ∧ b4.isSlack = false ∧ LeafOn s' b4.id c4 ∧ b4.vMin = some (.fin (9/10)) ∧
      c4.line = ⟨2, 4, .fin (303/10000), .fin (611/10000), .fin 0, .fin (18/100), .fin 1, .fin 0⟩ ∧ b4.p = .fin (175/1000) ∧ b4.q = .fin 0) ∧
    (b5 ∈ s'.buses ∧ b5.isSlack = false ∧ LeafOn s' b5.id c5 ∧ c5.line.rate = .fin (18/100) ∧ b5.p = .fin (-175/1000) ∧
      c5.flow.pFrom ≠ .fin 0) := by
  obtain ⟨a0, a00, obs, y0, d0, ha0, h, hy0, hf0, hd0, hlt, p0, q0, g0, hv0⟩ := play_start start_noon
  have hv0 : EasyVector y0.state p0 q0 g0 (planEnergy 52 + 1/2) 52 := by rw [plan_empty 52 (by norm_num) (by norm_num)]; simpa using hv0
  obtain ⟨a1, y, p, q, g, -, ha, hd, hy, hf, hv⟩ := plan_run plan_ok (by norm_num) (by norm_num) steers_play (fair_play 52) (play_good 52) rfl
    7 52 a00 y0 d0 p0 q0 g0 (ha0.reset h) hy0 hf0 (by norm_num) hd0 (by omega) hv0
  rw [show (52 + 7) % 96 = 59 from rfl] at hv
  obtain ⟨l1, l3, l5, m2, m4, u2, u4, w2, w4, u6, w6, T, C, hcur, hact, -, -⟩ := plan_can plan_ok (x := 1/2) (by norm_num) (by norm_num) (t := 59) (by norm_num)
  obtain ⟨a', o, y', h1, ho, -, -, -⟩ := plan_step plan_ok (by norm_num) (by norm_num) steers_play ha (fair_play 52) (play_good 52) rfl hy hf (by norm_num) hv hd (by omega)
  rw [hact] at h1
  have hpf : NumericPF (playWorld 52).sim := C85_solver _ _ _
  obtain ⟨args, out, d0, d1, d2, d3, d4, d5, d6, htr, hflag, J, -⟩ := C109_applied ha (fair_play 52) (play_good 52) hpf hy hf hv T C h1
  have hcfg := easy_sameConfig ha
  have hsim := envOf_simOf (easy_env ha)
  have hm := numbered_same hcfg easy_numbered
  have hl := finiteLines_same hcfg easy_finiteLines
  have htr : a1.env.sim.transition ⟨exactQP, realPF playOracle, Real.pi⟩ args = .ok (a'.env.sim, out) := htr
  obtain ⟨hconv, hlim⟩ := play_transition hsim hcfg htr J (hcur.imp fun _ h => h.1)
  have hcur := hcur.imp fun _ h => (⟨h.1, h.2.safe⟩ : _ ∧ Spec.Cur.Safe _)
  obtain ⟨b3, b4, b5, c3, c4, c5, m3, k4, k5, -, ⟨i4, s4, v4, n4⟩, ⟨i5, s5, v5, n5⟩, -, e4, e5⟩ := easy_leaf (easy_sameConfig (ha.step h1))
  obtain ⟨i, j, hone⟩ := oneSlack_of_file anm6_clean anm6_documented hsim
  obtain ⟨S4, T4⟩ := C33_bus_sum_partial hone htr k4 (by rw [s4]; simp)
  obtain ⟨S5, T5⟩ := C33_bus_sum_partial hone htr k5 (by rw [s5]; simp)
  obtain ⟨f0, f1, f2, f3, f4, f5, f6⟩ := J.bus
  have A4 : devicesAt a'.env.sim b4.id = [d3, d4] := by simp [devicesAt, J.list, i4, f0, f1, f2, f3, f4, f5, f6]
  have A5 : devicesAt a'.env.sim b5.id = [d5, d6] := by simp [devicesAt, J.list, i5, f0, f1, f2, f3, f4, f5, f6]
  have two : ∀ x y : ℝ, sumX [.fin x, .fin y] = .fin (x + y) := by
    intro x y
    simp [sumX, X.zero_def]
  simp only [A4, A5, List.map_cons, List.map_nil, J.pq3.1, J.pq3.2, J.pq4.1, J.pq4.2, J.pq5.1, J.pq5.2, J.pq6.1, J.pq6.2, two] at S4 T4 S5 T5
  have T' : TableAt 60 (-2) (-20) 0 30 40 := ⟨by decide +kernel, by decide +kernel⟩
  have g1 := T.loads
  rw [show (59 + 1) % 96 = 60 from rfl, T'.loads] at g1
  simp only [List.cons.injEq, Option.some.injEq, and_true] at g1
  obtain ⟨rfl, rfl, rfl⟩ := g1
  have hpl : plan ((59 + 1) % 96) = (2, 75/2, 2/5, 4, -35/2, 0) := by decide +kernel
  simp only [actionOf, hpl, List.cons.injEq, X.fin.injEq, and_true, Rat.cast_inj] at hact
  obtain ⟨rfl, rfl, rfl, rfl, rfl, rfl⟩ := hact
  have P4 : b4.p = .fin (175/1000) := by rw [S4]; norm_num [powers]
  have Q4 : b4.q = .fin 0 := by rw [T4]; norm_num [powers]
  have P5 : b5.p = .fin (-175/1000) := by rw [S5]; norm_num [powers]
  refine ⟨a1.env.sim, a'.env.sim, args, out, b4, b5, c4, c5, _, hsim, hm, hl, htr, hconv, hlim hcur,
    ⟨k4, s4, by rw [i4]; exact n4, v4, e4, P4, Q4⟩, k5, s5, by rw [i5]; exact n5, by rw [e5], P5, ?_⟩
  obtain ⟨V, hV, hbal⟩ := C25_converged anm6_clean hsim hm hl htr hconv
  obtain ⟨x1, x2, x3⟩ := simOf_lines anm6_clean hsim hm hl
  obtain ⟨P, Q, z1, z2, b1, b2⟩ := hbal b5 k5 s5
  rw [P5] at z1
  cases z1
  obtain ⟨l, hl', r1, r2, ⟨t1, t2⟩ | ⟨t1, t2, t3⟩⟩ := leaving_leaf hV x1 n5
  · obtain ⟨q1, -⟩ := finite?_eq r1
    rw [e5] at q1
    simp only at q1
    omega
  · rw [i5, t3, ← t2] at b1
    change |(l.sTo (V l.fBus) (V l.tBus)).re - _| ≤ 1e-5 at b1
    have hpass := (C30_branch_losses (x3 l hl') (V l.fBus) (V l.tBus)).2.1
    rw [r2]
    intro h0
    have h0 : (l.sFrom (V l.fBus) (V l.tBus)).re = 0 := X.fin.inj h0
    rw [h0] at hpass
    have := (abs_le.1 b1)
    norm_num at this
    linarith

/-- `C106_rating`. -/
example : ∃ (s s' : Sim ℝ) (a : Sim.Args ℝ) (out : Sim.TransOut ℝ) (ls : List LineC) (b : Bus ℝ) (br : Branch ℝ),
    CleanFile anm6Net (100 : ℝ) ∧ SimOf anm6Net (.fin (1/4)) (.fin 100) s ∧ Numbered s 5 ∧ FiniteLines s ls ∧
    s.transition ⟨exactQP, realPF playOracle, Real.pi⟩ a = .ok (s', out) ∧ out.converged = true ∧ b ∈ s'.buses ∧ b.isSlack = false ∧
    LeafOn s' b.id br ∧ WithinLimits s' ∧ br.line.rate = .fin (18/100) ∧ br.flow.pFrom ≠ .fin 0 := by
  obtain ⟨s, s', a, out, b4, b5, c4, c5, ls, h1, h2, h3, h4, h5, h6, -, k1, k2, k3, k4, k5, k6⟩ := charging_step
  exact ⟨s, s', a, out, ls, b5, c5, anm6_clean, h1, h2, h3, h4, h5, k1, k2, k3, h6, k4, k6⟩

/-- `C106_inject`. -/
example : ∃ (s s' : Sim ℝ) (a : Sim.Args ℝ) (out : Sim.TransOut ℝ) (ls : List LineC) (b : Bus ℝ) (br : Branch ℝ) (r lo P Q : ℝ),
    SimOf anm6Net (.fin (1/4)) (.fin 100) s ∧ Numbered s 5 ∧ FiniteLines s ls ∧
    s.transition ⟨exactQP, realPF playOracle, Real.pi⟩ a = .ok (s', out) ∧ out.converged = true ∧ b ∈ s'.buses ∧ b.isSlack = false ∧
    LeafOn s' b.id br ∧ WithinLimits s' ∧ br.line.rate = .fin (18/100) ∧ br.line.r = .fin r ∧ br.line.b = .fin 0 ∧
    br.line.tapMagn = .fin 1 ∧ br.line.shiftDeg = .fin 0 ∧ b.vMin = some (.fin lo) ∧ 0 < lo ∧ b.p = .fin P ∧ b.q = .fin Q ∧
    r * ((P + 1e-5) ^ 2 + (|Q| + 1e-5) ^ 2) < (P - 1e-5) * lo ^ 2 := by
  obtain ⟨s, s', a, out, b4, b5, c4, c5, ls, h1, h2, h3, h4, h5, h6, ⟨k1, k2, k3, k4, k5, k6, k7⟩, -⟩ := charging_step
  exact ⟨s, s', a, out, ls, b4, c4, _, _, _, _, h1, h2, h3, h4, h5, k1, k2, k3, h6, by rw [k5], by rw [k5], by rw [k5], by rw [k5], by rw [k5],
    k4, by norm_num, k6, k7, by norm_num⟩

/-- `C111_doomed`: an environment is reset to 9 am. -/
theorem start_morning : StartOk 36 :=
  ⟨-5, -10, -25, 4, 11, micro (-9699) 10663 11282 20047 (-254992) 67867, by norm_num, ⟨by decide +kernel, by decide +kernel⟩, by norm_num,
    by decide +kernel⟩

example : ∃ a a' obs, EasyOf (playWorld 36) easySim a ∧ Fair (playWorld 36).rng ∧ GoodSolvers (playWorld 36).sim (easySim : Sim ℝ) ∧
    (playWorld 36).sim.pf = realPF playOracle ∧ a.easyReset (easyCtx (playWorld 36) easySim) (playWorld 36).rng (some 7) none = .ok (a', obs) ∧
    Clock a'.env 36 := by
  obtain ⟨a, a1, obs, y, d, ha, h, hy, hf, hd, hlt, p, q, g, hv⟩ := play_start start_morning
  exact ⟨a, a1, obs, ha, fair_play 36, play_good 36, rfl, h, y, hy, by rw [hv]; rfl⟩

/-- `C108_vector`: the state after the reset is the one that was drawn. -/
example : ∃ a a' obs y p q g, EasyOf (playWorld 52) easySim a ∧
    (a.easyReset (easyCtx (playWorld 52) easySim) (playWorld 52).rng (some 7) none = .ok (a', obs)) ∧ a'.env.dyn = some y ∧
    EasyVector y.state p q g (1/2) 52 ∧ p 1 = -2 ∧ p 2 = 30 ∧ p 3 = -20 ∧ p 4 = 40 := by
  obtain ⟨a, a1, obs, y, d, ha, h, hy, hf, hd, hlt, p, q, g, hv⟩ := play_start start_noon
  obtain ⟨t, q2, q4, soc, l1, l3, l5, m2, m4, v, r, r', y', p', q', g', ht, hi, hI, T, -, -, -, -, hy', -, hv', hp⟩ :=
    C108_vector ha (fair_play 52) (play_good 52) (C85_solver _ _ _) h
  rw [hy] at hy'
  cases hy'
  have e1 : t = 52 ∧ soc = 1/2 := by
    rw [hv] at hv'
    unfold EasyVector at hv'
    simp only [List.cons.injEq, X.fin.injEq, and_true, Nat.cast_inj] at hv'
    tauto
  obtain ⟨rfl, rfl⟩ := e1
  have T' : TableAt 52 (-2) (-20) 0 30 40 := ⟨by decide +kernel, by decide +kernel⟩
  have g1 := T.loads
  have g2 := T.gens
  rw [T'.loads] at g1
  rw [T'.gens] at g2
  simp only [List.cons.injEq, Option.some.injEq, and_true] at g1 g2
  obtain ⟨rfl, rfl, rfl⟩ := g1
  obtain ⟨rfl, rfl⟩ := g2
  obtain ⟨x1, x2, x3, x4, -⟩ := hp (by norm_num)
  exact ⟨a, a1, obs, y, p', q', g', ha, h, hy, hv', by rw [x1]; norm_num, by rw [x2]; norm_num, by rw [x3]; norm_num, by rw [x4]; norm_num⟩

/-- `C108_easy`, whose proof meets the hypotheses of `C108_load`, `C108_generator` and `C108_storage`. -/
example : ∃ (s s' : Sim ℝ) (v : List (X ℝ)) (b : Bool), SimOf anm6Net (.fin (1/4)) (.fin 100) s ∧ SameConfig easySim s ∧
    QPKeeps (playWorld 52).sim.qp ∧ s.reset (playWorld 52).sim v = .ok (s', b) ∧ InitialState 52 (0 : ℝ) 0 (1/2) v ∧
    TableAt 52 (-2) (-20) 0 30 40 := by
  obtain ⟨a, a1, obs, y, d, ha, h, -⟩ := play_start start_noon
  obtain ⟨s1, v, r, r', hs1, hc1, hi, hr, -⟩ := easy_reset_sim ha h
  exact ⟨s1, _, v, _, hs1, hc1, qpExact_keeps (play_good 52).exact, hr, play_init (by norm_num) hi, ⟨by decide +kernel, by decide +kernel⟩⟩

/-- `C108_counterexample`: the generator draws 12:45 pm, and a load flow that always converges. -/
def brightWorld : EasyWorld ℝ Unit := { playWorld 51 with sim := calmWorld.sim }

example : ∃ a a' obs, EasyOf brightWorld easySim a ∧ Fair brightWorld.rng ∧ GoodSolvers brightWorld.sim (easySim : Sim ℝ) ∧ NumericPF brightWorld.sim ∧
    (a.easyReset (easyCtx brightWorld easySim) brightWorld.rng (some 7) none = .ok (a', obs)) ∧ Clock a'.env 51 := by
  have hnum : NumericPF brightWorld.sim := calm_numeric
  obtain ⟨a, -, ha⟩ := C83_made (w := brightWorld) fun _ _ => rfl
  rcases C83_reset ha (fair_play 51) calm_good (some 7) none (by simp) with ⟨a1, obs, h⟩ | ⟨-, h⟩ | ⟨-, d, h, -⟩
  · refine ⟨a, a1, obs, ha, fair_play 51, calm_good, hnum, h, ?_⟩
    obtain ⟨t, q2, q4, soc, l1, l3, l5, m2, m4, v, r, r', y, p, q, g, ht, hi, hI, T, -, -, -, -, hy, hf, hv, -⟩ :=
      C108_vector ha (fair_play 51) calm_good hnum h
    obtain ⟨_, _, _, _, _, _, _, rfl⟩ := hI
    obtain ⟨_, _, _, _, _, _, _, hI⟩ := play_init (k := 51) (by norm_num) hi
    simp only [List.map_cons, List.map_nil, List.cons.injEq, X.fin.injEq, and_true, Nat.cast_inj] at hI
    have e1 : t = 51 := by tauto
    subst e1
    exact ⟨y, hy, by rw [hv]; rfl⟩
  · cases h with
    | succ _ h2 _ => exact absurd (calm_converges h2) (by simp)
  · cases h

end

end Anm
