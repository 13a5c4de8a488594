import Verif.Props.ResetEasy
import Verif.Props.EasyPlan

/-! # C110: ANM6Easy can be played without penalty; C111: from many initial states it cannot -/

namespace Anm

open Spec

noncomputable section

variable {ρ : Type} {w : EasyWorld ℝ ρ} {s0 : Sim ℝ} {a a' : Anm6 ℝ ρ} {y : EnvDyn ℝ}

/-- **C108 for ANM6Easy.** After a reset the state vector shows the state that was drawn: the demands of the tables at a time of day, a
fifth of them as reactive powers, an idle storage unit with the energy drawn, and, if the maximum production of
generator 2 does not exceed its rating, maximum production and the reactive powers drawn. -/
theorem C108_vector (ha : EasyOf w s0 a) (hg : Fair w.rng) (G : GoodSolvers w.sim (easySim : Sim ℝ)) (hpf : NumericPF w.sim)
    {seed date : Option ℤ} {obs : List (X ℝ)} (h : a.easyReset (easyCtx w s0) w.rng seed date = .ok (a', obs)) :
    ∃ (t : ℕ) (q2 q4 soc : ℝ) (l1 l3 l5 m2 m4 : ℚ) (v : List (X ℝ)) (r r' : ρ) (y : EnvDyn ℝ) (p q g : ℕ → ℝ), t < 96 ∧
      easyInit w.rng s0 r = .ok (v, r') ∧ InitialState t q2 q4 soc v ∧ TableAt t l1 l3 l5 m2 m4 ∧
      |q2| ≤ 3/10 ∧ |q4| ≤ 1/2 ∧ 0 ≤ soc ∧ soc ≤ 1 ∧ a'.env.dyn = some y ∧ y.terminated = false ∧ EasyVector y.state p q g soc t ∧
      (m2 ≤ 30 → p 1 = l1 ∧ p 2 = m2 ∧ p 3 = l3 ∧ p 4 = m4 ∧ p 5 = l5 ∧ p 6 = 0 ∧ q 1 = l1 / 5 ∧ q 2 = q2 ∧ q 3 = l3 / 5 ∧ q 4 = q4 ∧
        q 5 = l5 / 5 ∧ q 6 = 0 ∧ g 2 = m2 ∧ g 4 = m4) := by
  obtain ⟨s1, v, r, r', hs1, hc1, hi, hr, y, hy, hf, hlast⟩ := easy_reset_sim ha h
  obtain ⟨t, q2, q4, soc, ht, hI, b1, b2, b3, b4, b5, b6⟩ := C58_aux (simOf_mk (easy_sim ha)) hg hi
  obtain ⟨l1, l3, l5, m2, m4, T⟩ := table_at ht
  have ha' := ha.reset h
  have hkeep : QPKeeps w.sim.qp := qpExact_keeps G.exact
  obtain ⟨p, q, g, fl, vv, e, loss, pen, t', -, hv, -⟩ := easy_vector ha' hg G hpf hy hf
  obtain ⟨E, c0, c1, c2, c3, c4, c5, c6, D⟩ := easy_vector_devices ha' hg G hpf hy hf hv
  have n2 : |q2| ≤ 3/10 := abs_le.2 ⟨by linarith, b2⟩
  have n4 : |q4| ≤ 1/2 := abs_le.2 ⟨by linarith, b4⟩
  have hte : t' = t := by
    obtain ⟨_, _, _, _, _, _, _, rfl⟩ := hI
    rw [hv] at hlast
    simp only [List.map_cons, List.map_nil, List.getLast?_cons_cons, List.getLast?_singleton, Option.some.injEq, X.fin.injEq, Nat.cast_inj] at hlast
    exact hlast
  subst hte
  have h100 : (100 : ℝ) ≠ 0 := by norm_num
  have inj : ∀ {x z : ℝ}, X.fin (x / 100) = X.fin (z / 100) → x = z := by
    intro x z h
    rw [X.fin.injEq] at h
    field_simp at h
    exact h
  have hsoc : e = soc := by
    have hds := sameConfig_reset hr
    obtain ⟨d0, -, -, ⟨x, h1, h2⟩, -⟩ := reset_storage (k := 6) (d := c6) anm6_clean hs1 hr (by rw [D.list]; rfl) (by rw [D.m6]; rfl)
    obtain ⟨k0, k1, k2, k3, k4, k5, k6, hks, r0, r1, r2, r3, r4, r5, r6⟩ := easy_devices hc1
    have nD : s1.nDevice = 7 := by rw [Sim.nDevice, hks]; rfl
    have g6 : ((s1.devices.take 6).filter Device.isStorage).length = 0 := by
      have a0 : k0.kind = .classical := by rw [r0]; rfl
      have a1 : k1.kind = .load := by rw [r1]; rfl
      have a2 : k2.kind = .renewable := by rw [r2]; rfl
      have a3 : k3.kind = .load := by rw [r3]; rfl
      have a4 : k4.kind = .renewable := by rw [r4]; rfl
      have a5 : k5.kind = .load := by rw [r5]; rfl
      rw [hks]; simp [a0, a1, a2, a3, a4, a5, Device.isStorage]
    obtain ⟨_, _, _, _, _, _, _, rfl⟩ := hI
    rw [nD, g6] at h1
    cases h1
    have := D.soc
    rw [h2, X.fin_div_fin h100] at this
    exact (inj this).symm
  subst hsoc
  refine ⟨t', q2, q4, e, l1, l3, l5, m2, m4, v, r, r', y, p, q, g, ht, hi, hI, T, n2, n4, b5, b6, hy, hf, hv, fun hm => ?_⟩
  obtain ⟨f0, f1, f2, f3, f4, f5, f6, J, hsoc, P2, P4⟩ := C108_easy hs1 hc1 hkeep hr hI T (by linarith) (by linarith) hm
  have hl := J.list
  rw [D.list] at hl
  simp only [List.cons.injEq, and_true] at hl
  obtain ⟨rfl, rfl, rfl, rfl, rfl, rfl, rfl⟩ := hl
  have e2 := D.pot
  rw [P2, P4] at e2
  have x1 := D.pq1
  have x2 := D.pq2
  have x3 := D.pq3
  have x4 := D.pq4
  have x5 := D.pq5
  have x6 := D.pq6
  rw [J.pq1.1, J.pq1.2] at x1
  rw [J.pq2.1, J.pq2.2] at x2
  rw [J.pq3.1, J.pq3.2] at x3
  rw [J.pq4.1, J.pq4.2] at x4
  rw [J.pq5.1, J.pq5.2] at x5
  rw [J.pq6.1, J.pq6.2] at x6
  exact ⟨(inj x1.1).symm, (inj x2.1).symm, (inj x3.1).symm, (inj x4.1).symm, (inj x5.1).symm, (inj x6.1).symm, (inj x1.2).symm, (inj x2.2).symm,
    (inj x3.2).symm, (inj x4.2).symm, (inj x5.2).symm, (inj x6.2).symm, (inj e2.1).symm, (inj e2.2).symm⟩

/-- **C108, times.** The maximum production drawn for generator 2 exceeds its rating of 30 MW at 12:30, 12:45, 4:15 and 4:30 pm, at no other time. -/
theorem C108_times {t : ℕ} {l1 l3 l5 m2 m4 : ℚ} (T : TableAt t l1 l3 l5 m2 m4) : m2 ≤ 30 ↔ t ∉ [50, 51, 65, 66] := by
  have key : ∀ t < 96, ∀ m ∈ (genSeries.getD 0 [])[t]?, m ≤ 30 ↔ t ∉ [50, 51, 65, 66] := by decide +kernel
  have h := T.gens
  simp only [genSeries, List.map_cons, List.map_nil, List.cons.injEq] at h
  exact key t (table_time T.loads) m2 h.1

/-- **C108, counterexample.** When one of these times is drawn, the state after the reset is not the one drawn: it shows a maximum
production within the rating. -/
theorem C108_counterexample (ha : EasyOf w s0 a) (hg : Fair w.rng) (G : GoodSolvers w.sim (easySim : Sim ℝ)) (hpf : NumericPF w.sim)
    {seed date : Option ℤ} {obs : List (X ℝ)} (h : a.easyReset (easyCtx w s0) w.rng seed date = .ok (a', obs)) {t : ℕ} (hc : Clock a'.env t)
    (ht : t ∈ [50, 51, 65, 66]) : ∃ v r r' y x z, easyInit w.rng s0 r = .ok (v, r') ∧ a'.env.dyn = some y ∧
      v[15]? = some (.fin x) ∧ y.state[15]? = some (.fin z) ∧ z ≤ 30 ∧ 30 < x := by
  obtain ⟨t', q2, q4, soc, l1, l3, l5, m2, m4, v, r, r', y, p, q, g, ht', hi, hI, T, -, -, -, -, hy, hf, hv, -⟩ := C108_vector ha hg G hpf h
  obtain ⟨E, -⟩ := easy_vector_devices (ha.reset h) hg G hpf hy hf hv
  have htt : t' = t := by
    obtain ⟨y1, hy1, hl⟩ := hc
    rw [hy] at hy1
    cases hy1
    rw [hv] at hl
    simpa using hl
  subst htt
  refine ⟨v, r, r', y, m2, g 2, hi, hy, ?_, by rw [hv]; rfl, E.p2.2.2, ?_⟩
  · obtain ⟨p1, p3, p5, p2, p4, -, T2, rfl⟩ := hI
    rw [T.gens] at T2
    simp only [List.cons.injEq, Option.some.injEq] at T2
    rw [T2.1]
    rfl
  · have := (C108_times T).not.2 (not_not.2 ht)
    exact_mod_cast not_le.1 this

/-! ### Steps without penalty -/

/-- A step with an action that the devices can carry out causes no penalty, if the load flow has a solution within the
limits, by a small margin, for the resulting injections. -/
theorem play_step {lf : LFOracle} (hl : Steers lf) (ha : EasyOf w s0 a) (hg : Fair w.rng) (G : GoodSolvers w.sim (easySim : Sim ℝ))
    (hw : w.sim.pf = realPF lf) (hy : a.env.dyn = some y) (ht : y.terminated = false) {p q g : ℕ → ℝ} {e : ℝ} {t : ℕ} (hv : EasyVector y.state p q g e t)
    {l1 l3 l5 m2 m4 : ℚ} (T : TableAt ((t + 1) % 96) l1 l3 l5 m2 m4) {p2 p4 q2 q4 p6 q6 : ℝ} (C : CanDo m2 m4 e p2 p4 q2 q4 p6 q6)
    (hcur : ∃ c, Spec.Cur.Match c (busInj (powers l1 p2 l3 p4 l5 p6)) (busInj (powers (l1 / 5) q2 (l3 / 5) q4 (l5 / 5) q6)) ∧ Spec.Cur.Roomy c)
    {o : Env.StepOut ℝ} (h : a.step (easyCtx w s0) [.fin p2, .fin p4, .fin q2, .fin q4, .fin p6, .fin q6] = .ok (a', o)) :
    o.terminated = false ∧ ∃ y', a'.env.dyn = some y' ∧ y'.terminated = false ∧ y'.penalty = 0 ∧
      ∃ p q g, EasyVector y'.state p q g (after e p6) ((t + 1) % 96) := by
  have hw' : w.sim = ⟨w.sim.qp, realPF lf, w.sim.pi⟩ := by rw [← hw]
  have hpf : NumericPF w.sim := by rw [hw']; exact C85_solver _ _ _
  obtain ⟨args, out, d0, d1, d2, d3, d4, d5, d6, htr, hflag, J, hsoc⟩ := C109_applied ha hg G hpf hy ht hv T C h
  have htr' := htr
  rw [hw'] at htr'
  obtain ⟨hconv, hlim, -⟩ := hl (envOf_simOf (easy_env ha)) (easy_sameConfig ha) htr' J hcur
  have ho : o.terminated = false := by rw [hflag, hconv]; rfl
  refine ⟨ho, ?_⟩
  obtain ⟨y0, y', args', tr, hy0, ht0, hy', ht', L, hc, hclip⟩ := easy_step_last ha hg G h ho
  have htr2 := L.trans
  rw [hw'] at htr2
  obtain ⟨-, hpos, hiff⟩ := C37_converged anm6_clean L.sim (by norm_num) (by norm_num) (numbered_same (easy_sameConfig ha) easy_numbered)
    (finiteLines_same (easy_sameConfig ha) easy_finiteLines) htr2 hc
  have ha' := ha.step h
  obtain ⟨p', q', g', fl, vv, e', loss, pen, t', -, hv', -⟩ := easy_vector ha' hg G hpf hy' ht'
  obtain ⟨E, c0, c1, c2, c3, c4, c5, c6, D⟩ := easy_vector_devices ha' hg G hpf hy' ht' hv'
  refine ⟨y', hy', ht', ?_, p', q', g', ?_⟩
  · rw [hclip, hiff.2 hlim, X.clip_eq_self] <;> simp [X.zero_def]
  · have hl := J.list
    rw [D.list] at hl
    simp only [List.cons.injEq, and_true] at hl
    obtain ⟨rfl, rfl, rfl, rfl, rfl, rfl, rfl⟩ := hl
    have he := D.soc
    rw [hsoc, Option.getD_some, X.fin.injEq] at he
    have he : after e p6 = e' := by field_simp at he; exact he
    rw [he]
    have hclk : Clock a.env t := ⟨y, hy, by rw [hv]; rfl⟩
    obtain ⟨y3, hy3, hl3⟩ := easy_next_step ha hclk h ho
    rw [hy'] at hy3
    cases hy3
    rw [hv'] at hl3
    simp only [List.getLast?_cons_cons, List.getLast?_singleton, Option.some.injEq, X.fin.injEq, Nat.cast_inj] at hl3
    rw [← hl3]
    exact hv'

/-- An action of rational numbers. -/
def actionOf (u : ℚ × ℚ × ℚ × ℚ × ℚ × ℚ) : List (X ℝ) :=
  [.fin (u.1 : ℝ), .fin (u.2.1 : ℝ), .fin (u.2.2.1 : ℝ), .fin (u.2.2.2.1 : ℝ), .fin (u.2.2.2.2.1 : ℝ), .fin (u.2.2.2.2.2 : ℝ)]

theorem after_cast (e p : ℚ) (x : ℝ) : after ((e : ℝ) + x) (p : ℝ) = ((afterQ e p : ℚ) : ℝ) + x := by
  unfold after afterQ
  by_cases h : p ≤ 0
  · have : (p : ℝ) ≤ 0 := by exact_mod_cast h
    rw [if_pos h, if_pos this]
    push_cast
    ring
  · have : ¬ (p : ℝ) ≤ 0 := by exact_mod_cast h
    rw [if_neg h, if_neg this]
    push_cast
    ring

/-- The action can be carried out, and the load flow has a solution within the limits. -/
theorem step_can {t : ℕ} (ht : t < 96) {x : ℝ} (x0 : 0 ≤ x) (x1 : x ≤ 1) {e e' : ℚ} {u2 u4 w2 w4 u6 w6 : ℚ} {cu : QCur} (P : StepOk t e (u2, u4, w2, w4, u6, w6) cu e') :
    TableAt t (demandAt 0 t) (demandAt 1 t) (demandAt 2 t) (potAt 0 t) (potAt 1 t) ∧
    CanDo (potAt 0 t) (potAt 1 t) (e + x) u2 u4 w2 w4 u6 w6 ∧
    (∃ c, Spec.Cur.Match c (busInj (powers (demandAt 0 t : ℚ) u2 (demandAt 1 t : ℚ) u4 (demandAt 2 t : ℚ) u6))
      (busInj (powers ((demandAt 0 t : ℚ) / 5) w2 ((demandAt 1 t : ℚ) / 5) w4 ((demandAt 2 t : ℚ) / 5) w6)) ∧ Spec.Cur.Roomy c) ∧
    easyActions.contains (actionOf (u2, u4, w2, w4, u6, w6)) true ∧ afterQ e u6 = e' := by
  obtain ⟨l1, l3, l5, m2, m4, T⟩ := table_at ht
  obtain ⟨rfl, rfl, rfl, rfl, rfl⟩ := demandAt_table T
  obtain ⟨⟨a1, a2, a3⟩, ⟨b1, b2, b3⟩, ⟨c1, c2⟩, ⟨d1, d2⟩, ⟨e1, e2⟩, ⟨f1, f2⟩, g1, g2, hfit, hlim, hen⟩ := P
  simp only at a1 a2 a3 b1 b2 b3 c1 c2 d1 d2 e1 e2 f1 f2 g1 g2 hfit hen
  have cl : ∀ {x z : ℚ}, x ≤ z → (x : ℝ) ≤ z := fun h => by exact_mod_cast h
  have a1 := cl a1
  have a2 := cl a2
  have a3 := cl a3
  have b1 := cl b1
  have b2 := cl b2
  have b3 := cl b3
  have c1 := cl c1
  have c2 := cl c2
  have d1 := cl d1
  have d2 := cl d2
  have e1 := cl e1
  have e2 := cl e2
  have f1 := cl f1
  have f2 := cl f2
  have g1 := cl g1
  have g2 := cl g2
  push_cast at a1 a2 a3 b1 b2 b3 c1 c2 d1 d2 e1 e2 f1 f2 g1 g2
  have C : CanDo (potAt 0 t) (potAt 1 t) (e + x) u2 u4 w2 w4 u6 w6 := by
    refine ⟨?_, ?_, ?_⟩
    · exact easyGen2_region' (by linarith) (by linarith) (by linarith) (abs_le.2 ⟨by linarith, by linarith⟩)
    · exact easyGen4_region' (by linarith) (by linarith) (by linarith) (abs_le.2 ⟨by linarith, by linarith⟩)
    · constructor <;> simp only [easyDes, lineAt]
      · linarith
      · linarith
      · linarith
      · linarith
      · intro; norm_num; linarith
      · intro; norm_num; linarith
      · intro; norm_num; linarith
      · intro; norm_num; linarith
      · rw [div_le_iff₀ (by norm_num)]; linarith
      · rw [le_div_iff₀ (by norm_num)]; linarith
  have hcur : ∃ c, Spec.Cur.Match c (busInj (powers (demandAt 0 t : ℚ) u2 (demandAt 1 t : ℚ) u4 (demandAt 2 t : ℚ) u6))
      (busInj (powers ((demandAt 0 t : ℚ) / 5) w2 ((demandAt 1 t : ℚ) / 5) w4 ((demandAt 2 t : ℚ) / 5) w6)) ∧ Spec.Cur.Roomy c := by
    refine ⟨_, QCur.fits_match hfit ?_ ?_ ?_ ?_ ?_ ?_, QCur.limits_roomy hlim⟩ <;> simp [powers]
  have hcon : easyActions.contains (actionOf (u2, u4, w2, w4, u6, w6)) true := by
    refine ⟨by decide, rfl, ?_, ?_⟩ <;>
      simp only [actionOf, easyActions, boxOf, List.map_cons, List.map_nil, List.forall₂_cons, List.forall₂_nil_left_iff, and_true, X.fin_le_fin]
    · refine ⟨?_, ?_, ?_, ?_, ?_, ?_⟩ <;> linarith
    · refine ⟨?_, ?_, ?_, ?_, ?_, ?_⟩ <;> linarith
  exact ⟨T, C, hcur, hcon, hen⟩

/-- The plan can be carried out, and the load flow has a solution within the limits. -/
theorem plan_can {u : ℕ → ℚ × ℚ × ℚ × ℚ × ℚ × ℚ} {cu : ℕ → QCur} {en : ℕ → ℚ} (P : DayPlan u cu en) {x : ℝ} (x0 : 0 ≤ x) (x1 : x ≤ 1) {t : ℕ}
    (ht96 : t < 96) : ∃ (l1 l3 l5 m2 m4 u2 u4 w2 w4 u6 w6 : ℚ), TableAt ((t + 1) % 96) l1 l3 l5 m2 m4 ∧
    CanDo m2 m4 (en t + x) u2 u4 w2 w4 u6 w6 ∧
    (∃ c, Spec.Cur.Match c (busInj (powers l1 u2 l3 u4 l5 u6)) (busInj (powers (l1 / 5) w2 (l3 / 5) w4 (l5 / 5) w6)) ∧ Spec.Cur.Roomy c) ∧
    actionOf (u ((t + 1) % 96)) = [.fin (u2 : ℝ), .fin (u4 : ℝ), .fin (w2 : ℝ), .fin (w4 : ℝ), .fin (u6 : ℝ), .fin (w6 : ℝ)] ∧
    easyActions.contains (actionOf (u ((t + 1) % 96))) true ∧ afterQ (en t) u6 = en ((t + 1) % 96) := by
  have P := P t ht96
  obtain ⟨T, C, hcur, hcon, hen⟩ := step_can (Nat.mod_lt _ (by norm_num)) x0 x1 P
  exact ⟨_, _, _, _, _, _, _, _, _, _, _, T, C, hcur, rfl, hcon, hen⟩

/-- A step of the plan. -/
theorem plan_step {u : ℕ → ℚ × ℚ × ℚ × ℚ × ℚ × ℚ} {cu : ℕ → QCur} {en : ℕ → ℚ} (P : DayPlan u cu en) {x : ℝ} (x0 : 0 ≤ x) (x1 : x ≤ 1)
    {lf : LFOracle} (hl : Steers lf) (ha : EasyOf w s0 a) (hg : Fair w.rng) (G : GoodSolvers w.sim (easySim : Sim ℝ)) (hw : w.sim.pf = realPF lf)
    (hy : a.env.dyn = some y) (ht : y.terminated = false) {p q g : ℕ → ℝ} {t : ℕ} (ht96 : t < 96)
    (hv : EasyVector y.state p q g (en t + x) t) {d : ℤ} (hd : a.date = some d) (hlt : d + 15 * (60 * 1000000) < 3652059 * dayMicros) :
    ∃ a' o y', a.step (easyCtx w s0) (actionOf (u ((t + 1) % 96))) = .ok (a', o) ∧ o.terminated = false ∧ a'.env.dyn = some y' ∧
      y'.terminated = false ∧ y'.penalty = 0 ∧ a'.date = some (d + 15 * (60 * 1000000)) ∧
      ∃ p q g, EasyVector y'.state p q g (en ((t + 1) % 96) + x) ((t + 1) % 96) := by
  obtain ⟨l1, l3, l5, m2, m4, u2, u4, w2, w4, u6, w6, T, C, hcur, hact, hcon, hen⟩ := plan_can P x0 x1 ht96
  rcases C83_step ha hg G hy hcon with ⟨a', o, h⟩ | ⟨-, d', hd', hlt'⟩
  · rw [hact] at h
    obtain ⟨ho, y', hy', hf', hpen, p', q', g', hv'⟩ := play_step hl ha hg G hw hy ht hv T C hcur h
    rw [after_cast, hen] at hv'
    refine ⟨a', o, y', by rw [hact]; exact h, ho, hy', hf', hpen, ?_, p', q', g', hv'⟩
    obtain ⟨e, dd, dd0, -, h3, -, rfl⟩ := anm6_step_ok h
    rw [hd] at h3
    cases h3
    show some (d + a.tick) = _
    rw [easy_tick ha]
  · rw [hd] at hd'
    cases hd'
    omega

/-- A plan can be followed. -/
theorem plan_run {u : ℕ → ℚ × ℚ × ℚ × ℚ × ℚ × ℚ} {cu : ℕ → QCur} {en : ℕ → ℚ} (P : DayPlan u cu en) {x : ℝ} (x0 : 0 ≤ x) (x1 : x ≤ 1)
    {lf : LFOracle} (hl : Steers lf) (hg : Fair w.rng) (G : GoodSolvers w.sim (easySim : Sim ℝ)) (hw : w.sim.pf = realPF lf) :
    ∀ (n t : ℕ) (a : Anm6 ℝ ρ) (y : EnvDyn ℝ) (d : ℤ) (p q g : ℕ → ℝ), EasyOf w s0 a → a.env.dyn = some y →
    y.terminated = false → t < 96 → a.date = some d → d + n * (15 * (60 * 1000000)) < 3652059 * dayMicros →
    EasyVector y.state p q g (en t + x) t → ∃ a' y' p q g, SafeRun (easyCtx w s0) a n a' ∧
      EasyOf w s0 a' ∧ a'.date = some (d + n * (15 * (60 * 1000000))) ∧ a'.env.dyn = some y' ∧ y'.terminated = false ∧
      EasyVector y'.state p q g (en ((t + n) % 96) + x) ((t + n) % 96)
  | 0, t, a, y, d, p, q, g, ha, hy, hf, ht, hd, hlt, hv => ⟨a, y, p, q, g, .nil a, ha, by simpa using hd, hy, hf, by rw [Nat.add_zero, Nat.mod_eq_of_lt ht]; exact hv⟩
  | n + 1, t, a, y, d, p, q, g, ha, hy, hf, ht, hd, hlt, hv => by
    obtain ⟨a1, o, y1, h, ho, hy1, hf1, hpen, hd1, p1, q1, g1, hv1⟩ :=
      plan_step P x0 x1 hl ha hg G hw hy hf ht hv hd (by push_cast at hlt; nlinarith)
    obtain ⟨a', y', p', q', g', R, ha', hd', hy', hf', hv'⟩ := plan_run P x0 x1 hl hg G hw n ((t + 1) % 96) a1 y1 _ p1 q1 g1 (ha.step h) hy1 hf1
      (Nat.mod_lt _ (by norm_num)) hd1 (by push_cast at hlt; linarith) hv1
    refine ⟨a', y', p', q', g', .cons h ho hy1 hpen R, ha', by rw [hd']; push_cast; ring_nf, hy', hf', ?_⟩
    rw [show (t + (n + 1)) % 96 = ((t + 1) % 96 + n) % 96 by omega]
    exact hv'

/-! ### A generator that always draws the same state -/

/-- A generator that draws the integer `k` if it can, and the middle of an interval. -/
def playRng (k : ℤ) : Rng ℝ Unit where
  integers := fun r lo hi => (if lo ≤ k ∧ k < hi then k else lo, r)
  uniform := fun r lo hi => ((lo + hi) / .fin 2, r)

theorem fair_play (k : ℤ) : Fair (playRng k) where
  integers := by
    intro r lo hi h
    simp only [playRng]
    split_ifs <;> omega
  uniform := by
    intro r lo hi h
    refine ⟨(lo + hi) / 2, ?_, by linarith, by linarith⟩
    simp only [playRng, X.fin_add_fin]
    rw [X.fin_div_fin (by norm_num)]

def playWorld (k : ℕ) : EasyWorld ℝ Unit where
  sim := ⟨exactQP, realPF playOracle, Real.pi⟩
  box := fun _ _ => .ok ()
  seeded := fun _ => ()
  fresh := ()
  rng := playRng k

theorem play_good (k : ℕ) : GoodSolvers (playWorld k).sim (easySim : Sim ℝ) := C83_solvers _ _

theorem play_init {k : ℕ} (hk : k < 96) {r r' : Unit} {v : List (X ℝ)} (h : easyInit (playRng k) easySim r = .ok (v, r')) :
    InitialState k 0 0 (1/2) v := by
  obtain ⟨a, -, ha⟩ := C83_made (w := playWorld k) fun _ _ => rfl
  have hs := simOf_mk (easy_sim ha)
  obtain ⟨t, d1, d3, d5, d2, d4, d6, x1, x3, x5, x2, x4, r2, r4, r6, ht, h1, h3, h5, h2, h4, h6, hx, rfl⟩ := easyInit_ok h
  have ht : t = k := by rw [ht]; simp [playRng, hk]
  subst ht
  have hr := read_all (by omega) (by omega) hx
  rw [(easy_device hs h1).1 (by simp), (easy_device hs h3).1 (by simp), (easy_device hs h5).1 (by simp)]
  obtain ⟨e1, e2⟩ := (easy_device hs h2).2.1 rfl
  obtain ⟨e3, e4⟩ := (easy_device hs h4).2.2.1 rfl
  obtain ⟨e5, e6⟩ := (easy_device hs h6).2.2.2 rfl
  rw [e1, e2, e3, e4, e5, e6]
  simp only [loadSeries, genSeries, List.cons_append, List.nil_append, List.forall₂_cons] at hr
  obtain ⟨⟨p1, f1, rfl⟩, ⟨p3, f3, rfl⟩, ⟨p5, f5, rfl⟩, ⟨p2, f2, rfl⟩, ⟨p4, f4, rfl⟩, _⟩ := hr
  refine ⟨p1, p3, p5, p2, p4, ?_, ?_, ?_⟩
  · simp only [loadSeries, List.map_cons, List.map_nil]; rw [← f1, ← f3, ← f5]; rfl
  · simp only [genSeries, List.map_cons, List.map_nil]; rw [← f2, ← f4]; rfl
  · have m2 : (X.fin (-3/10 : ℝ) + X.fin (3/10)) / X.fin 2 = X.fin 0 := by rw [X.fin_add_fin, X.fin_div_fin (by norm_num)]; norm_num
    have m4 : (X.fin (-1/2 : ℝ) + X.fin (1/2)) / X.fin 2 = X.fin 0 := by rw [X.fin_add_fin, X.fin_div_fin (by norm_num)]; norm_num
    have m6 : (X.fin (0 : ℝ) + X.fin 1) / X.fin 2 = X.fin (1/2) := by rw [X.fin_add_fin, X.fin_div_fin (by norm_num)]; norm_num
    simp only [playRng, m2, m4, m6]
    simp [X.zero_def, X.fin_mul_fin, div_eq_mul_inv]

/-- The state drawn has a load flow solution. -/
def Spec.StartOk (k : ℕ) : Prop := ∃ (l1 l3 l5 m2 m4 : ℚ) (c : QCur), k < 96 ∧ TableAt k l1 l3 l5 m2 m4 ∧ m2 ≤ 30 ∧
  c.Fits (l1 + m2) (l1 / 5) (l3 + m4) (l3 / 5) l5 (l5 / 5)

theorem play_converges {k : ℕ} (hk : StartOk k) {s s' : Sim ℝ} {v : List (X ℝ)} {r r' : Unit} {conv : Bool}
    (hs : SimOf anm6Net (.fin (1/4)) (.fin 100) s) (hc : SameConfig easySim s) (hi : easyInit (playRng k) easySim r = .ok (v, r'))
    (h : s.reset (playWorld k).sim v = .ok (s', conv)) : conv = true := by
  obtain ⟨l1, l3, l5, m2, m4, cc, hk, T, hm, hfit⟩ := hk
  obtain ⟨d0, d1, d2, d3, d4, d5, d6, J, -⟩ := C108_easy hs hc (qpExact_keeps (play_good k).exact) h (play_init hk hi) T (by norm_num) (by norm_num) hm
  obtain ⟨s0, s1, a, out, hs0, hc0, htr, rfl, hds, -, -⟩ := reset_inside hs h
  have hcur : ∃ c, Spec.Cur.Match c (busInj (powers (l1 : ℝ) (m2 : ℝ) (l3 : ℝ) (m4 : ℝ) (l5 : ℝ) 0))
      (busInj (powers ((l1 : ℝ) / 5) 0 ((l3 : ℝ) / 5) 0 ((l5 : ℝ) / 5) 0)) := by
    refine ⟨_, QCur.fits_match hfit ?_ ?_ ?_ ?_ ?_ ?_⟩ <;> simp [powers]
  have J1 : ∃ d0 d1 d2 d3 d4 d5 d6, Injects s1 (powers (l1 : ℝ) (m2 : ℝ) (l3 : ℝ) (m4 : ℝ) (l5 : ℝ) 0)
      (powers ((l1 : ℝ) / 5) 0 ((l3 : ℝ) / 5) 0 ((l5 : ℝ) / 5) 0) d0 d1 d2 d3 d4 d5 d6 := by
    rw [J.list] at hds
    rcases hl : s1.devices with _ | ⟨e0, _ | ⟨e1, _ | ⟨e2, _ | ⟨e3, _ | ⟨e4, _ | ⟨e5, _ | ⟨e6, _ | ⟨e7, l⟩⟩⟩⟩⟩⟩⟩⟩ <;> rw [hl] at hds <;>
      simp only [List.forall₂_cons, List.forall₂_nil_left_iff, List.forall₂_nil_right_iff, reduceCtorEq, and_false, and_true] at hds
    obtain ⟨⟨_, rfl⟩, ⟨_, rfl⟩, ⟨_, rfl⟩, ⟨_, rfl⟩, ⟨_, rfl⟩, ⟨_, rfl⟩, ⟨_, rfl⟩⟩ := hds
    exact ⟨e0, e1, e2, e3, e4, e5, e6, hl, J.bus, J.pq1, J.pq2, J.pq3, J.pq4, J.pq5, J.pq6⟩
  obtain ⟨e0, e1, e2, e3, e4, e5, e6, J1⟩ := J1
  exact (play_transition hs0 (sameConfig_trans hc hc0) htr J1 hcur).1

/-- An environment is made and reset, to the given time of a day that leaves more than a year. -/
theorem play_start {k : ℕ} (hk : StartOk k) : ∃ a a1 obs y d, EasyOf (playWorld k) easySim a ∧
    (a.easyReset (easyCtx (playWorld k) easySim) (playWorld k).rng (some 7) none = .ok (a1, obs)) ∧
    a1.env.dyn = some y ∧ y.terminated = false ∧ a1.date = some d ∧ d + 35040 * (15 * (60 * 1000000)) < 3652059 * dayMicros ∧
    ∃ p q g, EasyVector y.state p q g (1/2) k := by
  obtain ⟨a, -, ha⟩ := C83_made (w := playWorld k) fun _ _ => rfl
  rcases C83_reset ha (fair_play k) (play_good k) (some 7) none (by simp) with ⟨a1, obs, h⟩ | ⟨-, h⟩ | ⟨-, d, h, -⟩
  · obtain ⟨e, d, r, y, x, t, h1, h2, h3, h4, h5, h6⟩ := easyReset_ok h
    refine ⟨a, a1, obs, y, d + t, ha, h, by rw [h6]; exact h3, ?_, by rw [h6], ?_, ?_⟩
    · obtain ⟨v, st, nw, I⟩ := env_reset_ok h1
      rw [I.result] at h3
      cases h3
      rfl
    · obtain ⟨n, hn, hc⟩ := C56_reset (fair_play k) ha h
      obtain ⟨d2, r2, r3, g1, g2, g3, g4, g5⟩ := easy_start h hc
      have g6 : a1.date = some (d + t) := by rw [h6]
      rw [g3] at g6
      rw [← Option.some.inj g6, easy_tick ha]
      obtain ⟨d', r', m, h6, h7, h8⟩ := C60_random_date (fair_play k) r2 (y := 2020) (by norm_num) (by norm_num)
      have g1 : randomDate (playRng k) r2 ((2020 : ℕ) : ℤ) = .ok (d2, r3) := g1
      rw [h6] at g1
      cases g1
      have h9 : m < 366 := lt_of_lt_of_eq h7 (by decide +kernel)
      have h10 : daysBefore 2020 = 737424 := by decide +kernel
      have hdm : dayMicros = 24 * 60 * 60 * 1000000 := rfl
      rw [h10] at h8
      omega
    · obtain ⟨t, q2, q4, soc, l1, l3, l5, m2, m4, v, r, r', y', p, q, g, ht, hi, hI, -, -, -, -, -, hy', -, hv, -⟩ :=
        C108_vector ha (fair_play k) (play_good k) (C85_solver _ _ _) h
      have hyy : a1.env.dyn = some y := by rw [h6]; exact h3
      rw [hyy] at hy'
      cases hy'
      obtain ⟨_, _, _, _, _, _, _, rfl⟩ := hI
      obtain ⟨_, _, _, _, _, _, _, hI⟩ := play_init hk.choose_spec.choose_spec.choose_spec.choose_spec.choose_spec.choose_spec.1 hi
      simp only [List.map_cons, List.map_nil, List.cons.injEq, X.fin.injEq, and_true, Nat.cast_inj] at hI
      have e1 : t = k := by tauto
      have e2 : soc = 1/2 := by tauto
      refine ⟨p, q, g, ?_⟩
      rw [← e1, ← e2]
      exact hv
  · exfalso
    cases h with
    | succ h1 h2 _ => exact absurd (play_converges hk (envOf_simOf (easy_env ha)) (easy_sameConfig ha) h1 h2) (by simp)
  · cases h

theorem start_noon : StartOk 52 :=
  ⟨-2, -20, 0, 30, 40, micro 279024 33801 195184 61492 0 0, by norm_num, ⟨by decide +kernel, by decide +kernel⟩, by norm_num, by decide +kernel⟩

/-- The environment after `n` steps of the plan. -/
theorem plan_reach {n : ℕ} (hn : n < 35040) : ∃ a a' y p q g, EasyOf (playWorld 52) easySim a ∧ a.env.dyn = some y ∧ y.terminated = false ∧
    EasyVector y.state p q g (planEnergy ((52 + n) % 96) + 1/2) ((52 + n) % 96) ∧
    SafeRun (easyCtx (playWorld 52) easySim) a (35040 - n) a' := by
  obtain ⟨a, a1, obs, y, d, ha, h, hy, hf, hd, hlt, p, q, g, hv⟩ := play_start start_noon
  have hv : EasyVector y.state p q g (planEnergy 52 + 1/2) 52 := by rw [plan_empty 52 (by norm_num) (by norm_num)]; simpa using hv
  obtain ⟨a2, y2, p2, q2, g2, R2, ha2, hd2, hy2, hf2, hv2⟩ := plan_run plan_ok (by norm_num) (by norm_num) steers_play (fair_play 52) (play_good 52) rfl
    n 52 a1 y d p q g (ha.reset h) hy hf (by norm_num) hd (by omega) hv
  obtain ⟨a', -, -, -, -, R, -⟩ := plan_run plan_ok (by norm_num) (by norm_num) steers_play (fair_play 52) (play_good 52) rfl
    (35040 - n) ((52 + n) % 96) a2 y2 _ p2 q2 g2 ha2 hy2 hf2 (Nat.mod_lt _ (by norm_num)) hd2 (by omega) hv2
  exact ⟨a2, a', y2, p2, q2, g2, ha2, hy2, hf2, hv2, R⟩

/-- **C110.** For a suitable linear solver, an environment ANM6Easy can be made, reset and played for a year without
any penalty. -/
theorem C110_playable : ∃ (a a1 : Anm6 ℝ Unit) (obs : List (X ℝ)), EasyOf (playWorld 52) easySim a ∧
    (a.easyReset (easyCtx (playWorld 52) easySim) (playWorld 52).rng (some 7) none = .ok (a1, obs)) ∧
    ∀ n ≤ 35040, ∃ a', SafeRun (easyCtx (playWorld 52) easySim) a1 n a' := by
  obtain ⟨a, a1, obs, y, d, ha, h, hy, hf, hd, hlt, p, q, g, hv⟩ := play_start start_noon
  refine ⟨a, a1, obs, ha, h, fun n hn => ?_⟩
  have hv : EasyVector y.state p q g (planEnergy 52 + 1/2) 52 := by rw [plan_empty 52 (by norm_num) (by norm_num)]; simpa using hv
  obtain ⟨a', -, -, -, -, R, -⟩ := plan_run plan_ok (by norm_num) (by norm_num) steers_play (fair_play 52) (play_good 52) rfl
    n 52 a1 y d p q g (ha.reset h) hy hf (by norm_num) hd (by omega) hv
  exact ⟨a', R⟩

end

end Anm
