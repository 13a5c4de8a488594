import Verif.Props.NewtonEasy
import Verif.Props.EasyPlay

/-!
# C116: ANM6Easy can be reset

With exactly solved linear systems the load flow converges for every initial state that ANM6Easy draws, so that every reset succeeds at
the first draw.
-/

namespace Anm

open Spec Complex ComplexConjugate Radial

noncomputable section

/-- The squares of the bounds on the powers of the buses 3, 4 and 5 at the initial state of a time of day. -/
def drawnSq (t : ℕ) : ℚ × ℚ × ℚ :=
  (((demandAt 0 t + min (potAt 0 t) 30) / 100) ^ 2 + ((|demandAt 0 t| / 5 + 3/10) / 100) ^ 2,
    ((demandAt 1 t + potAt 1 t) / 100) ^ 2 + ((|demandAt 1 t| / 5 + 1/2) / 100) ^ 2,
    (demandAt 2 t / 100) ^ 2 + (|demandAt 2 t| / 5 / 100) ^ 2)

/-- Squares of powers below the squares of three numbers. -/
def inBox (x : ℚ × ℚ × ℚ) (a b c : ℚ) : Prop := x.1 ≤ a ^ 2 ∧ x.2.1 ≤ b ^ 2 ∧ x.2.2 ≤ c ^ 2

instance (x : ℚ × ℚ × ℚ) (a b c : ℚ) : Decidable (inBox x a b c) := by unfold inBox; infer_instance

theorem drawn_ranges : ∀ t < 96, inBox (drawnSq t) (20/100) (20/100) (20/100) ∨ inBox (drawnSq t) (5/100) (40/100) (10/100) ∨
    inBox (drawnSq t) (5/100) (25/100) (26/100) ∨ inBox (drawnSq t) (30/100) (22/100) (10/100) := by decide +kernel

theorem norm_le_sq {a b c r : ℝ} (h0 : 0 ≤ r) (hb : |b| ≤ c) (h : a ^ 2 + c ^ 2 ≤ r ^ 2) : ‖(⟨a, b⟩ : ℂ)‖ ≤ r := by
  refine abs_le_of_sq_le_sq' ?_ h0 |>.2
  rw [← Complex.normSq_eq_norm_sq, Complex.normSq_mk]
  have := abs_nonneg b
  have : b ^ 2 ≤ c ^ 2 := by rw [← sq_abs b]; exact pow_le_pow_left₀ this hb 2
  linarith

/-- The powers of the buses at the initial states are in the four ranges. -/
theorem initial_ranges {t : ℕ} {l1 l3 l5 m2 m4 : ℚ} (T : TableAt t l1 l3 l5 m2 m4) {q2 q4 : ℝ} (h2 : |q2| ≤ 3/10) (h4 : |q4| ≤ 1/2) :
    PowerRanges fun k => ⟨busInj (powers l1 ((min m2 30 : ℚ) : ℝ) l3 m4 l5 0) k, busInj (powers (l1 / 5) q2 (l3 / 5) q4 (l5 / 5) 0) k⟩ := by
  have ht := table_time T.loads
  have hr := drawn_ranges t ht
  obtain ⟨e1, e3, e5, e2, e4⟩ := demandAt_table T
  have lin : ∀ {l : ℚ} {q b : ℝ}, |q| ≤ b → |((l : ℝ) / 5 + q) / 100| ≤ (|(l : ℝ)| / 5 + b) / 100 := by
    intro l q b h
    rw [abs_div, abs_of_pos (by norm_num : (0 : ℝ) < 100)]
    have := abs_add_le ((l : ℝ) / 5) q
    rw [abs_div, abs_of_pos (by norm_num : (0 : ℝ) < 5)] at this
    linarith
  have key : ∀ {a b c : ℚ}, 0 ≤ a → 0 ≤ b → 0 ≤ c → inBox (drawnSq t) a b c →
      ‖(⟨((l1 : ℝ) + ((min m2 30 : ℚ) : ℝ)) / 100, ((l1 : ℝ) / 5 + q2) / 100⟩ : ℂ)‖ ≤ a ∧
      ‖(⟨((l3 : ℝ) + (m4 : ℝ)) / 100, ((l3 : ℝ) / 5 + q4) / 100⟩ : ℂ)‖ ≤ b ∧ ‖(⟨((l5 : ℝ) + 0) / 100, ((l5 : ℝ) / 5 + 0) / 100⟩ : ℂ)‖ ≤ c := by
    intro a b c ha hb hc ⟨k1, k2, k3⟩
    simp only [drawnSq, ← e1, ← e2, ← e3, ← e4, ← e5] at k1 k2 k3
    rify at k1 k2 k3
    refine ⟨norm_le_sq (by exact_mod_cast ha) (lin h2) (by push_cast; exact k1), norm_le_sq (by exact_mod_cast hb) (lin h4) (by push_cast; exact k2),
      norm_le_sq (by exact_mod_cast hc) (lin (b := 0) (by simp)) ?_⟩
    rw [add_zero, add_zero]
    exact k3
  refine ⟨by simp [busInj, Complex.ext_iff], by simp [busInj, Complex.ext_iff], ?_⟩
  rcases hr with h | h | h | h
  · exact .inl (by simpa [busInj, powers] using key (by norm_num) (by norm_num) (by norm_num) h)
  · exact .inr (.inl (by simpa [busInj, powers] using key (by norm_num) (by norm_num) (by norm_num) h))
  · exact .inr (.inr (.inl (by simpa [busInj, powers] using key (by norm_num) (by norm_num) (by norm_num) h)))
  · exact .inr (.inr (.inr (by simpa [busInj, powers] using key (by norm_num) (by norm_num) (by norm_num) h)))

/-- The transition inside a reset to an initial state as ANM6Easy draws it. -/
theorem draw_transition {o : LFOracle} {qp : QP ℝ} (hq : QPExact qp) {pi : ℝ} {s s' : Sim ℝ} {v : List (X ℝ)} {conv : Bool}
    (hs : SimOf anm6Net (.fin (1/4)) (.fin 100) s) (hc : SameConfig easySim s) (h : s.reset ⟨qp, realPF o, pi⟩ v = .ok (s', conv))
    {t : ℕ} {q2 q4 soc : ℝ} (hv : InitialState t q2 q4 soc v) (ht : t < 96) (h2 : |q2| ≤ 3/10) (h4 : |q4| ≤ 1/2) :
    ∃ (s0 s1 : Sim ℝ) (a : Sim.Args ℝ) (out : Sim.TransOut ℝ) (p q : ℕ → ℝ) (d0 d1 d2 d3 d4 d5 d6 : Device ℝ),
      SimOf anm6Net (.fin (1/4)) (.fin 100) s0 ∧ SameConfig easySim s0 ∧ s0.transition ⟨qp, realPF o, pi⟩ a = .ok (s1, out) ∧
      conv = out.converged ∧ s'.buses = s1.buses ∧ s'.branches = s1.branches ∧ Injects s1 p q d0 d1 d2 d3 d4 d5 d6 ∧
      PowerRanges fun k => ⟨busInj p k, busInj q k⟩ := by
  obtain ⟨l1, l3, l5, m2, m4, T⟩ := table_at ht
  have hk : QPKeeps qp := qpExact_keeps hq
  obtain ⟨d0, d1, d2, d3, d4, d5, d6, J, -, -, u1, u2⟩ := easy_reset_core hs hc hk h hv T (by linarith)
  have J : Injects s' (powers l1 ((min m2 30 : ℚ) : ℝ) l3 m4 l5 0) (powers (l1 / 5) q2 (l3 / 5) q4 (l5 / 5) 0) d0 d1 d2 d3 d4 d5 d6 := by
    rcases le_total m2 30 with hm | hm
    · obtain ⟨x1, x2, -⟩ := u1 hm (by linarith)
      refine J _ _ ?_ x2
      rw [min_eq_left hm]
      exact x1
    · obtain ⟨x1, x2⟩ := u2 hq hm (by linarith)
      refine J _ _ ?_ x2
      rw [min_eq_right hm]
      push_cast
      exact x1
  obtain ⟨s0, s1, a, out, hs0, hc0, htr, hcv, hds, hb, hbr⟩ := reset_inside hs h
  have J1 : ∃ d0 d1 d2 d3 d4 d5 d6, Injects s1 (powers l1 ((min m2 30 : ℚ) : ℝ) l3 m4 l5 0) (powers (l1 / 5) q2 (l3 / 5) q4 (l5 / 5) 0)
      d0 d1 d2 d3 d4 d5 d6 := by
    rw [J.list] at hds
    rcases hl : s1.devices with _ | ⟨e0, _ | ⟨e1, _ | ⟨e2, _ | ⟨e3, _ | ⟨e4, _ | ⟨e5, _ | ⟨e6, _ | ⟨e7, l⟩⟩⟩⟩⟩⟩⟩⟩ <;> rw [hl] at hds <;>
      simp only [List.forall₂_cons, List.forall₂_nil_left_iff, List.forall₂_nil_right_iff, reduceCtorEq, and_false, and_true] at hds
    obtain ⟨⟨_, rfl⟩, ⟨_, rfl⟩, ⟨_, rfl⟩, ⟨_, rfl⟩, ⟨_, rfl⟩, ⟨_, rfl⟩, ⟨_, rfl⟩⟩ := hds
    exact ⟨e0, e1, e2, e3, e4, e5, e6, hl, J.bus, J.pq1, J.pq2, J.pq3, J.pq4, J.pq5, J.pq6⟩
  obtain ⟨c0, c1, c2, c3, c4, c5, c6, J1⟩ := J1
  exact ⟨s0, s1, a, out, _, _, c0, c1, c2, c3, c4, c5, c6, hs0, sameConfig_trans hc hc0, htr, hcv, hb, hbr, J1, initial_ranges T h2 h4⟩

/-- **C116, draws.** With exactly solved linear systems and projections, the load flow converges at every initial state as ANM6Easy draws it. -/
theorem C116_draw {o : LFOracle} (ho : ExactLF o) {qp : QP ℝ} (hq : QPExact qp) {pi : ℝ} {s s' : Sim ℝ} {v : List (X ℝ)} {conv : Bool}
    (hs : SimOf anm6Net (.fin (1/4)) (.fin 100) s) (hc : SameConfig easySim s) (h : s.reset ⟨qp, realPF o, pi⟩ v = .ok (s', conv))
    {t : ℕ} {q2 q4 soc : ℝ} (hv : InitialState t q2 q4 soc v) (ht : t < 96) (h2 : |q2| ≤ 3/10) (h4 : |q4| ≤ 1/2) :
    conv = true ∧ ∃ V : Fin 6 → ℂ, Solved s' easyLines (atId V) ∧ ∀ k : Fin 5, 41/50 ≤ ‖V k.succ‖ ∧ ‖V k.succ‖ ≤ 59/50 := by
  obtain ⟨s0, s1, a, out, p, q, c0, c1, c2, c3, c4, c5, c6, hs0, hc0, htr, rfl, hb, hbr, J, R⟩ := draw_transition hq hs hc h hv ht h2 h4
  obtain ⟨r1, V, r2, r3, -⟩ := C115_converges ho hs0 hc0 htr J R
  exact ⟨r1, V, ⟨r2.ref, hb ▸ r2.v, hb ▸ r2.i, hb ▸ r2.slack, hbr ▸ r2.flow⟩, r3⟩

variable {ρ : Type} {w : EasyWorld ℝ ρ} {s0 : Sim ℝ} {a : Anm6 ℝ ρ}

/-- **C116.** With exactly solved linear systems, every reset of ANM6Easy to no date, or to a date of years 1 to 9999 apart from the
last day of year 9999, succeeds, with the first initial state drawn. -/
theorem C116_reset {o : LFOracle} (ho : ExactLF o) (hw : w.sim.pf = realPF o) (ha : EasyOf w s0 a) (hg : Fair w.rng)
    (G : GoodSolvers w.sim (easySim : Sim ℝ)) (seed date : Option ℤ) (hdate : ∀ d, date = some d → 0 ≤ d ∧ d < 3652058 * dayMicros) :
    ∃ a' obs v r, a.easyReset (easyCtx w s0) w.rng seed date = .ok (a', obs) ∧
      easyInit w.rng s0 ((seed.map w.seeded).getD a.env.rng) = .ok (v, r) ∧ a.env.sim.reset w.sim v = .ok (a'.env.sim, true) := by
  have hw' : w.sim = ⟨w.sim.qp, realPF o, w.sim.pi⟩ := by rw [← hw]
  have first : ∀ {v : List (X ℝ)} {r r' : ρ} {s' : Sim ℝ} {ok : Bool}, easyInit w.rng s0 r = .ok (v, r') →
      a.env.sim.reset w.sim v = .ok (s', ok) → ok = true := by
    intro v r r' s' ok h1 h2
    obtain ⟨t, q2, q4, soc, ht, hI, b1, b2, b3, b4, b5, b6⟩ := C58_aux (simOf_mk (easy_sim ha)) hg h1
    rw [hw'] at h2
    exact (C116_draw ho G.exact (envOf_simOf (easy_env ha)) (easy_sameConfig ha) h2 hI ht (abs_le.2 ⟨by linarith, b2⟩)
      (abs_le.2 ⟨by linarith, b4⟩)).1
  rcases C83_reset ha hg G seed date (fun d hd => ⟨(hdate d hd).1, (hdate d hd).2.trans (by norm_num [dayMicros])⟩) with h | ⟨-, h⟩ | ⟨-, d, h, h'⟩
  · obtain ⟨a', obs, h⟩ := h
    obtain ⟨e, d, r, y, x, t, h1, -, -, -, -, h2⟩ := easyReset_ok h
    obtain ⟨v, st, nw, I⟩ := env_reset_ok h1
    obtain ⟨r', hs, -⟩ := I.search
    rw [Env.search] at hs
    simp only [bind_ok, guardE_ok] at hs
    obtain ⟨⟨v1, r1⟩, g1, -, -, ⟨s1, ok⟩, g2, g3⟩ := hs
    obtain rfl : ok = true := first g1 g2
    simp only [OfNat.ofNat_ne_zero, if_false, if_true, pure_ok, Prod.mk.injEq] at g3
    obtain ⟨rfl, rfl, rfl⟩ := g3
    exact ⟨a', obs, v1, _, h, g1, by rw [h2]; exact g2⟩
  · exfalso
    cases h with
    | succ h1 h2 _ =>
      exact absurd (first h1 h2) (by simp)
  · have := (hdate d h).2
    omega

/-! ### Cases that meet the hypotheses -/

/-- A world with exactly solved linear systems. -/
def exactWorld (o : LFOracle) (k : ℕ) : EasyWorld ℝ Unit := { playWorld k with sim := ⟨exactQP, realPF o, Real.pi⟩ }

/-- C116 applies: an environment is made and reset. -/
theorem exact_reset {o : LFOracle} (ho : ExactLF o) (k : ℕ) : ∃ a a' obs v r, EasyOf (exactWorld o k) easySim a ∧
    a.easyReset (easyCtx (exactWorld o k) easySim) (exactWorld o k).rng (some 7) none = .ok (a', obs) ∧
    easyInit (playRng k) easySim r = .ok (v, r) ∧ a.env.sim.reset (exactWorld o k).sim v = .ok (a'.env.sim, true) := by
  obtain ⟨a, -, ha⟩ := C83_made (w := exactWorld o k) fun _ _ => rfl
  obtain ⟨a', obs, v, r, h1, h2, h3⟩ := C116_reset ho rfl ha (fair_play k) (C83_solvers _ _) (some 7) none (by simp)
  exact ⟨a, a', obs, v, r, ha, h1, h2, h3⟩

example : ∃ a a' obs v r, EasyOf (exactWorld exactOracle 52) easySim a ∧
    a.easyReset (easyCtx (exactWorld exactOracle 52) easySim) (exactWorld exactOracle 52).rng (some 7) none = .ok (a', obs) ∧
    easyInit (playRng 52) easySim r = .ok (v, r) ∧ a.env.sim.reset (exactWorld exactOracle 52).sim v = .ok (a'.env.sim, true) :=
  exact_reset exactOracle_exact 52

/-- C115 applies to the transition in this reset. -/
example : ∃ (s s' : Sim ℝ) (a : Sim.Args ℝ) (out : Sim.TransOut ℝ) (p q : ℕ → ℝ) (d0 d1 d2 d3 d4 d5 d6 : Device ℝ),
    SimOf anm6Net (.fin (1/4)) (.fin 100) s ∧ SameConfig easySim s ∧ s.transition ⟨exactQP, realPF exactOracle, Real.pi⟩ a = .ok (s', out) ∧
    Injects s' p q d0 d1 d2 d3 d4 d5 d6 ∧ PowerRanges fun k => ⟨busInj p k, busInj q k⟩ := by
  obtain ⟨a, a', obs, v, r, ha, -, h1, h2⟩ := exact_reset exactOracle_exact 52
  obtain ⟨t, q2, q4, soc, ht, hI, b1, b2, b3, b4, -⟩ := C58_aux (simOf_mk (easy_sim ha)) (fair_play 52) h1
  obtain ⟨s0, s1, ar, out, p, q, c0, c1, c2, c3, c4, c5, c6, g1, g2, g3, -, -, -, g4, g5⟩ := draw_transition
    (C83_solvers exactOracle Real.pi).exact (envOf_simOf (easy_env ha)) (easy_sameConfig ha) h2 hI ht
    (abs_le.2 ⟨by linarith, b2⟩) (abs_le.2 ⟨by linarith, b4⟩)
  exact ⟨s0, s1, ar, out, p, q, c0, c1, c2, c3, c4, c5, c6, g1, g2, g3, g4, g5⟩

end

end Anm
