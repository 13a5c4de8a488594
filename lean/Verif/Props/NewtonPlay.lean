import Verif.Props.NewtonClose
import Verif.Props.NewtonReset
import Verif.Props.EasyDoomed
import Verif.Props.EasyGood

/-!
# C118: from which initial states ANM6Easy can be played without penalty, C119: and how well

With exactly solved linear systems and projections, whatever the random generator draws.
-/

namespace Anm

open Spec

noncomputable section

variable {ρ : Type} {w : EasyWorld ℝ ρ} {s0 : Sim ℝ} {a a' : Anm6 ℝ ρ}

/-- A reset to no date draws a date that leaves more than a year. -/
theorem reset_room (ha : EasyOf w s0 a) (hg : Fair w.rng) {seed : Option ℤ} {obs : List (X ℝ)}
    (h : a.easyReset (easyCtx w s0) w.rng seed none = .ok (a', obs)) :
    ∃ d, a'.date = some d ∧ d + 35040 * (15 * (60 * 1000000)) < 3652059 * dayMicros := by
  obtain ⟨n, hn, hc⟩ := C56_reset hg ha h
  obtain ⟨d2, r2, r3, g1, g2, g3, g4, g5⟩ := easy_start h hc
  refine ⟨_, g3, ?_⟩
  rw [easy_tick ha]
  obtain ⟨d', r', m, h6, h7, h8⟩ := C60_random_date hg r2 (y := 2020) (by norm_num) (by norm_num)
  have g1 : randomDate w.rng r2 ((2020 : ℕ) : ℤ) = .ok (d2, r3) := g1
  rw [h6] at g1
  cases g1
  have h9 : m < 366 := lt_of_lt_of_eq h7 (by decide +kernel)
  have h10 : daysBefore 2020 = 737424 := by decide +kernel
  have hdm : dayMicros = 24 * 60 * 60 * 1000000 := rfl
  rw [h10] at h8
  omega

/-- The state vector after a reset. -/
theorem reset_vector (ha : EasyOf w s0 a) (hg : Fair w.rng) (G : GoodSolvers w.sim (easySim : Sim ℝ)) {o : LFOracle} (hw : w.sim.pf = realPF o)
    {seed date : Option ℤ} {obs : List (X ℝ)} (h : a.easyReset (easyCtx w s0) w.rng seed date = .ok (a', obs)) {t : ℕ} (hc : Clock a'.env t)
    {e : ℝ} (he : Energy a' e) : t < 96 ∧ 0 ≤ e ∧ e ≤ 1 ∧ ∃ y p q g, a'.env.dyn = some y ∧ y.terminated = false ∧ EasyVector y.state p q g e t := by
  have hw' : w.sim = ⟨w.sim.qp, realPF o, w.sim.pi⟩ := by rw [← hw]
  have hnum : NumericPF w.sim := by rw [hw']; exact C85_solver _ _ _
  obtain ⟨t', q2, q4, soc, l1, l3, l5, m2, m4, v, r, r', y, p, q, g, ht', hi, hI, -, -, -, h0, h1, hy, hf, hv, -⟩ := C108_vector ha hg G hnum h
  have e1 : t' = t := by
    obtain ⟨y1, hy1, hl⟩ := hc
    rw [hy] at hy1
    cases hy1
    rw [hv] at hl
    simpa using hl
  have e2 : soc = e := by
    obtain ⟨y1, hy1, hl⟩ := he
    rw [hy] at hy1
    cases hy1
    rw [hv] at hl
    simpa using hl
  subst e1 e2
  exact ⟨ht', h0, h1, y, p, q, g, hy, hf, hv⟩

theorem plan_low : planEnergy 45 ≤ 24/100 ∧ planEnergy 85 ≤ 24/100 ∧ 0 ≤ planEnergy 45 ∧ 0 ≤ planEnergy 85 := by decide +kernel

theorem needed_last : neededQ 45 1 = 749/3600 ∧ neededQ 85 1 = 749/3600 := by decide +kernel

/-- **C118.** With exactly solved linear systems and projections, whatever the random generator draws: after a reset of ANM6Easy to no
date an agent can play for a year without any penalty if the time of day is at most 4:45 am, from 11:30 am to 2:45 pm, or from 9:30 pm on,
and also at 11:15 am and 9:15 pm if the storage unit holds 0.24 MWh. -/
theorem C118_playable {o : LFOracle} (ho : ExactLF o) (hw : w.sim.pf = realPF o) (ha : EasyOf w s0 a) (hg : Fair w.rng)
    (G : GoodSolvers w.sim (easySim : Sim ℝ)) {seed : Option ℤ} {obs : List (X ℝ)} (h : a.easyReset (easyCtx w s0) w.rng seed none = .ok (a', obs))
    {t : ℕ} (hc : Clock a'.env t) {e : ℝ} (he : Energy a' e)
    (ht : t ≤ 19 ∨ (46 ≤ t ∧ t ≤ 59) ∨ 86 ≤ t ∨ (t = 45 ∨ t = 85) ∧ 24/100 ≤ e) {n : ℕ} (hn : n ≤ 35040) :
    ∃ b, SafeRun (easyCtx w s0) a' n b := by
  obtain ⟨ht', h0, h1, y, p, q, g, hy, hf, hv⟩ := reset_vector ha hg G hw h hc he
  obtain ⟨d, hd, hlt⟩ := reset_room ha hg h
  have hx : 0 ≤ e - planEnergy t ∧ e - planEnergy t ≤ 1 := by
    have cl : ∀ {x z : ℚ}, x ≤ z → (x : ℝ) ≤ z := fun h => by exact_mod_cast h
    obtain ⟨x1, x2, x3, x4⟩ := plan_low
    have x1 := cl x1
    have x2 := cl x2
    have x3 := cl x3
    have x4 := cl x4
    push_cast at x1 x2 x3 x4
    have key : t ≤ 19 ∨ (46 ≤ t ∧ t ≤ 59) ∨ 86 ≤ t → 0 ≤ e - planEnergy t ∧ e - planEnergy t ≤ 1 := by
      intro h
      rw [plan_empty t ht' h]
      push_cast
      exact ⟨by linarith, by linarith⟩
    rcases ht with h | h | h | ⟨rfl | rfl, h⟩
    · exact key (.inl h)
    · exact key (.inr (.inl h))
    · exact key (.inr (.inr h))
    · exact ⟨by linarith, by linarith⟩
    · exact ⟨by linarith, by linarith⟩
  obtain ⟨b, -, -, -, -, R, -⟩ := plan_run plan_ok hx.1 hx.2 (steers_exact ho) hg G hw n t a' y d p q g (ha.reset h) hy hf ht' hd
    (by push_cast; omega) (by rw [add_sub_cancel]; exact hv)
  exact ⟨b, R⟩

/-- **C118, the other times.** At the other times of day no agent can avoid a penalty until 11:30 am or 9:30 pm; at 11:15 am and 9:15 pm
if the storage unit holds less than 0.208 MWh. -/
theorem C118_doomed {o : LFOracle} (hw : w.sim.pf = realPF o) (ha : EasyOf w s0 a) (hg : Fair w.rng)
    (G : GoodSolvers w.sim (easySim : Sim ℝ)) {seed date : Option ℤ} {obs : List (X ℝ)} (h : a.easyReset (easyCtx w s0) w.rng seed date = .ok (a', obs))
    {t : ℕ} (hc : Clock a'.env t) {e : ℝ} (he : Energy a' e)
    (ht : ¬ (t ≤ 19 ∨ (46 ≤ t ∧ t ≤ 59) ∨ 86 ≤ t ∨ (t = 45 ∨ t = 85) ∧ 208/1000 ≤ e)) {b : Anm6 ℝ ρ} :
    ¬ SafeRun (easyCtx w s0) a' (untilEnd t) b := by
  obtain ⟨ht', h0, h1, y, p, q, g, hy, hf, hv⟩ := reset_vector ha hg G hw h hc he
  by_cases h45 : t = 45 ∨ t = 85
  · have hlo : e < 208/1000 := by
      by_contra hle
      exact ht (.inr (.inr (.inr ⟨h45, not_lt.1 hle⟩)))
    intro hr
    obtain ⟨e', -, h1, h2⟩ := C107_energy hg G hw hr (ha.reset h) hc ht' he hy hf
    rw [needed_cast] at h2
    obtain ⟨k1, k2⟩ := needed_last
    rcases h45 with rfl | rfl
    · rw [show untilEnd 45 = 1 from rfl, k1] at h2
      push_cast at h2
      linarith
    · rw [show untilEnd 85 = 1 from rfl, k2] at h2
      push_cast at h2
      linarith
  · exact C111_doomed ha hg G hw h hc (by omega)

/-- **C119.** With exactly solved linear systems and projections, whatever the random generator draws: after a reset of ANM6Easy to no date that
draws a time of day from 11:30 am to 12:30 pm or from 9:30 to 10:45 pm, one can play for up to a year without any penalty in such a way that the
rewards sum up to at least -2.138 a day, and no agent does better by more than 0.0603 a day and 0.012 in all, or by more than
0.296 if the rewards are discounted with the factor 0.995 of ANM6Easy. -/
theorem C119_good {o : LFOracle} (ho : ExactLF o) (hw : w.sim.pf = realPF o) (ha : EasyOf w s0 a) (hg : Fair w.rng)
    (G : GoodSolvers w.sim (easySim : Sim ℝ)) {seed : Option ℤ} {obs : List (X ℝ)} (h : a.easyReset (easyCtx w s0) w.rng seed none = .ok (a', obs))
    {t : ℕ} (hc : Clock a'.env t) (ht : (46 ≤ t ∧ t ≤ 50) ∨ (86 ≤ t ∧ t ≤ 91)) {N : ℕ} (hN : N ≤ 365) :
    ∃ us os b rs, us.length = 96 * N ∧ Anm6Episode (easyCtx w s0) a' us os b ∧ SafeRun (easyCtx w s0) a' (96 * N) b ∧
      os.map (·.reward) = rs.map X.fin ∧ -2.138 * (N : ℝ) ≤ rs.sum ∧ -4.97 ≤ discounted (995/1000) rs ∧
      ∀ us' os' b', us'.length = 96 * N → Anm6Episode (easyCtx w s0) a' us' os' b' →
        ∃ rs' : List ℝ, os'.map (·.reward) = rs'.map X.fin ∧ rs'.sum ≤ rs.sum + 0.0603 * (N : ℝ) + 0.012 ∧
          discounted (995/1000) rs' ≤ discounted (995/1000) rs + 0.296 := by
  have hw' : w.sim = ⟨w.sim.qp, realPF o, w.sim.pi⟩ := by rw [← hw]
  have hnum : NumericPF w.sim := by rw [hw']; exact C85_solver _ _ _
  obtain ⟨t', q2, q4, soc, l1, l3, l5, m2, m4, v, r, r', y, p, q, g, ht', hi, hI, -, -, -, h0, h1, hy, hf, hv, -⟩ := C108_vector ha hg G hnum h
  obtain ⟨h96, -, -, -⟩ := reset_vector ha hg G hw h hc (e := soc) ⟨y, hy, by rw [hv]; rfl⟩
  have e1 : t' = t := by
    obtain ⟨y1, hy1, hl⟩ := hc
    rw [hy] at hy1
    cases hy1
    rw [hv] at hl
    simpa using hl
  subst e1
  obtain ⟨d, hd, hlt⟩ := reset_room ha hg h
  obtain ⟨us, os, b, rs, i1, i2, i3, i4, i5, i6, i7⟩ := good_game (steers_exact ho) (ha.reset h) hg G hw hy hf h96 ht h0 h1 hv hd hlt hN
  refine ⟨us, os, b, rs, i1, i2, i3, i4, i5, ?_, fun us' os' b' hlen hE => ?_⟩
  · split_ifs at i6
    · linarith
    · exact i6
  · obtain ⟨rs', r1, r2, r3⟩ := i7 us' os' b' hlen hE
    refine ⟨rs', r1, ?_, ?_⟩
    · norm_num at r2 ⊢
      linarith
    · norm_num at r3 ⊢
      linarith

/-! ### Cases that meet the hypotheses -/

/-- An environment is made and reset to a given time of day. -/
theorem exact_start {o : LFOracle} (ho : ExactLF o) {k : ℕ} (hk : k < 96) : ∃ a a' obs, EasyOf (exactWorld o k) easySim a ∧
    a.easyReset (easyCtx (exactWorld o k) easySim) (exactWorld o k).rng (some 7) none = .ok (a', obs) ∧ Clock a'.env k ∧ Energy a' (1/2) := by
  obtain ⟨a, a', obs, v, r, ha, h, -, -⟩ := exact_reset ho k
  obtain ⟨t, q2, q4, soc, l1, l3, l5, m2, m4, v, r, r', y, p, q, g, ht, hi, hI, -, -, -, -, -, hy, -, hv, -⟩ :=
    C108_vector ha (fair_play k) (C83_solvers o Real.pi) (C85_solver _ _ _) h
  obtain ⟨_, _, _, _, _, _, _, rfl⟩ := hI
  obtain ⟨_, _, _, _, _, _, _, hI⟩ := play_init hk hi
  simp only [List.map_cons, List.map_nil, List.cons.injEq, X.fin.injEq, and_true, Nat.cast_inj] at hI
  have e1 : t = k := by tauto
  have e2 : soc = 1/2 := by tauto
  subst e1 e2
  exact ⟨a, a', obs, ha, h, ⟨y, hy, by rw [hv]; rfl⟩, y, hy, by rw [hv]; rfl⟩

/-- C117 applies to the first transition of the plan at noon. -/
example : ∃ (s s' : Sim ℝ) (a : Sim.Args ℝ) (out : Sim.TransOut ℝ) (p q : ℕ → ℝ) (d0 d1 d2 d3 d4 d5 d6 : Device ℝ) (c : Cur),
    SimOf anm6Net (.fin (1/4)) (.fin 100) s ∧ SameConfig easySim s ∧ s.transition (exactWorld exactOracle 48).sim a = .ok (s', out) ∧
    Injects s' p q d0 d1 d2 d3 d4 d5 d6 ∧ Spec.Cur.Match c (busInj p) (busInj q) ∧ Spec.Cur.Roomy c := by
  obtain ⟨a, a', obs, ha, h, hc, he⟩ := exact_start exactOracle_exact (k := 48) (by norm_num)
  have G : GoodSolvers (exactWorld exactOracle 48).sim (easySim : Sim ℝ) := C83_solvers _ _
  have hg : Fair (exactWorld exactOracle 48).rng := fair_play 48
  obtain ⟨-, -, -, y, p, q, g, hy, hf, hv⟩ := reset_vector ha hg G rfl h hc he
  obtain ⟨d, hd, hlt⟩ := reset_room ha hg h
  obtain ⟨l1, l3, l5, m2, m4, u2, u4, w2, w4, u6, w6, T, C, ⟨c, hm, hr⟩, hact, hcon, hen⟩ :=
    plan_can plan_ok (x := 1/2) (by norm_num) (by norm_num) (t := 48) (by norm_num)
  rw [plan_empty 48 (by norm_num) (by norm_num), Rat.cast_zero, zero_add] at C
  rcases C83_step (ha.reset h) hg G hy hcon with ⟨a2, o, h2⟩ | ⟨-, d', hd', hlt'⟩
  · rw [hact] at h2
    obtain ⟨args, out, d0, d1, d2, d3, d4, d5, d6, htr, -, J, -⟩ := C109_applied (ha.reset h) hg G (C85_solver _ _ _) hy hf hv T C h2
    exact ⟨_, _, args, out, _, _, d0, d1, d2, d3, d4, d5, d6, c, envOf_simOf (easy_env (ha.reset h)), easy_sameConfig (ha.reset h), htr, J, hm, hr⟩
  · rw [hd] at hd'
    cases hd'
    omega

/-- C118 applies: from 11:15 am ANM6Easy can be played, from 6 am it cannot. -/
example : ∃ a a' obs, EasyOf (exactWorld exactOracle 45) easySim a ∧
    (a.easyReset (easyCtx (exactWorld exactOracle 45) easySim) (exactWorld exactOracle 45).rng (some 7) none = .ok (a', obs)) ∧
    ∃ b, SafeRun (easyCtx (exactWorld exactOracle 45) easySim) a' 35040 b := by
  obtain ⟨a, a', obs, ha, h, hc, he⟩ := exact_start exactOracle_exact (k := 45) (by norm_num)
  exact ⟨a, a', obs, ha, h, C118_playable exactOracle_exact rfl ha (fair_play 45) (C83_solvers _ _) h hc he (by norm_num) le_rfl⟩

example : ∃ a a' obs, EasyOf (exactWorld exactOracle 24) easySim a ∧
    (a.easyReset (easyCtx (exactWorld exactOracle 24) easySim) (exactWorld exactOracle 24).rng (some 7) none = .ok (a', obs)) ∧
    ∀ b, ¬ SafeRun (easyCtx (exactWorld exactOracle 24) easySim) a' 22 b := by
  obtain ⟨a, a', obs, ha, h, hc, he⟩ := exact_start exactOracle_exact (k := 24) (by norm_num)
  exact ⟨a, a', obs, ha, h, fun b => C118_doomed rfl ha (fair_play 24) (C83_solvers _ _) h hc he (by norm_num)⟩

/-- C119 applies. -/
example : ∃ a a' obs, EasyOf (exactWorld exactOracle 48) easySim a ∧
    (a.easyReset (easyCtx (exactWorld exactOracle 48) easySim) (exactWorld exactOracle 48).rng (some 7) none = .ok (a', obs)) ∧
    ∃ us os b, us.length = 96 * 365 ∧ Anm6Episode (easyCtx (exactWorld exactOracle 48) easySim) a' us os b := by
  obtain ⟨a, a', obs, ha, h, hc, he⟩ := exact_start exactOracle_exact (k := 48) (by norm_num)
  obtain ⟨us, os, b, rs, i1, i2, -⟩ := C119_good exactOracle_exact rfl ha (fair_play 48) (C83_solvers _ _) h hc (by norm_num) (N := 365) le_rfl
  exact ⟨a, a', obs, ha, h, us, os, b, i1, i2⟩

end

end Anm
