import Verif.Props.EasyApplied
import Verif.Props.Curtail
import Verif.Props.Scenarios

/-! # C125: doing nothing -/

namespace Anm

open Spec

section Generic

variable {K : Type} [Field K] [LinearOrder K] [IsStrictOrderedRing K] [FloorRing K] {n : Network K} {base t : K} {lam : X K} {s s' : Sim K} {c : Ctx K}
  {a : Sim.Args K} {out : Sim.TransOut K} {d : Device K}

theorem lineAt_nonneg {x0 y0 x1 y1 x : K} (h0 : x0 < x) (h1 : x ≤ x1) (hy0 : 0 ≤ y0) (hy1 : 0 ≤ y1) : 0 ≤ lineAt x0 y0 x1 y1 x := by
  have hp : 0 < x1 - x0 := by linarith
  have f1 : (x - x0) / (x1 - x0) ≤ 1 := (div_le_one hp).2 (by linarith)
  have f0 : 0 ≤ (x - x0) / (x1 - x0) := div_nonneg (by linarith) hp.le
  have e : lineAt x0 y0 x1 y1 x = y0 * (1 - (x - x0) / (x1 - x0)) + y1 * ((x - x0) / (x1 - x0)) := by unfold lineAt; ring
  rw [e]
  exact add_nonneg (mul_nonneg hy0 (by linarith)) (mul_nonneg hy1 f0)

theorem lineAt_nonpos {x0 y0 x1 y1 x : K} (h0 : x0 < x) (h1 : x ≤ x1) (hy0 : y0 ≤ 0) (hy1 : y1 ≤ 0) : lineAt x0 y0 x1 y1 x ≤ 0 := by
  have h := lineAt_nonneg (x0 := x0) (x1 := x1) (y0 := -y0) (y1 := -y1) h0 h1 (by linarith) (by linarith)
  have e : lineAt x0 (-y0) x1 (-y1) x = -lineAt x0 y0 x1 y1 x := by unfold lineAt; ring
  linarith

/-- **C125, generators.** A generator asked for its rated active power or more, and for no reactive power, produces its
potential, brought between the limits of the network file, and no reactive power, provided that the file lets it produce
no reactive power at the rated power. -/
theorem C125_generator {pot p : K} {g : GenParams K} (hn : CleanFile n base) (hs : SimOf n (.fin t) lam s)
    (hq : QPExact c.qp) (h : s.transition c a = .ok (s', out)) (hd : d ∈ s'.devices) (hg : d.isNonSlackGen = true)
    (hgp : HasGenParams d g) (h1 : a.pPot.get? d.id = some (.fin pot)) (h2 : a.pSet.get? d.id = some (.fin p))
    (h3 : a.qSet.get? d.id = some (.fin 0)) (hp : g.pmax ≤ p / base) (hz : g.qminus ≤ 0 ∧ 0 ≤ g.qplus) :
    d.p = .fin (min (max g.pmin (pot / base)) g.pmax) ∧ d.q = .fin 0 := by
  obtain ⟨O, x, y, ex, ey, ⟨hin, hmin⟩⟩ := transition_gen hn hs hq h hd hg hgp h1 h2 h3
  set m := min (max g.pmin (pot / base)) g.pmax with hm
  have hlo : g.pmin ≤ m := le_min (le_max_left _ _) (O.p1.trans O.p2)
  have hhi : m ≤ g.pmax := min_le_right _ _
  have hmem : GenRegion g m m 0 := by
    refine ⟨hlo, hhi, le_refl _, O.q1.trans hz.1, hz.2.trans O.q3, fun k => ?_, fun k => ?_⟩
    · exact lineAt_nonneg k hhi (hz.2.trans O.q3) hz.2
    · exact lineAt_nonpos k hhi (O.q1.trans hz.1) hz.1
  have k := hmin _ _ hmem
  have hx : x ≤ m := hin.pPot
  simp only [sqDist, zero_div, sub_zero] at k
  have e1 : (m - x) ^ 2 + y ^ 2 ≤ 0 := by nlinarith [mul_nonneg (sub_nonneg.2 hx) (sub_nonneg.2 (hhi.trans hp))]
  have e2 : (m - x) ^ 2 = 0 := le_antisymm (by nlinarith [sq_nonneg y]) (sq_nonneg _)
  have e3 : y ^ 2 = 0 := le_antisymm (by nlinarith [sq_nonneg (m - x)]) (sq_nonneg _)
  have e4 := pow_eq_zero_iff (n := 2) (by norm_num) |>.1 e2
  have e5 := pow_eq_zero_iff (n := 2) (by norm_num) |>.1 e3
  rw [ex, ey, e5, show x = m by linarith]
  exact ⟨rfl, rfl⟩

/-- **C125, storage units.** A storage unit asked for no power exchanges none and keeps its energy, provided that the
file lets it exchange no reactive power at both ends of its range of active powers. -/
theorem C125_storage {soc : K} {g : DesParams K} {d0 : Device K} (hn : CleanFile n base)
    (hs : SimOf n (.fin t) lam s) (ht : 0 < t) (hq : QPKeeps c.qp) (h : s.transition c a = .ok (s', out))
    (hd : d ∈ s'.devices) (hg : d.isStorage = true) (hgp : HasDesParams d g) (ho : DesParamsOk g) (he : 0 < g.eff)
    (hd0 : d0 ∈ s.devices) (hid : d0.id = d.id) (hsoc : d0.soc = some (.fin soc)) (hs1 : g.socMin ≤ soc) (hs2 : soc ≤ g.socMax)
    (h2 : a.pSet.get? d.id = some (.fin 0)) (h3 : a.qSet.get? d.id = some (.fin 0)) (hz : g.qminus ≤ 0 ∧ 0 ≤ g.qplus) :
    d.p = .fin 0 ∧ d.q = .fin 0 ∧ d.soc = some (.fin soc) := by
  have hr : DesRegion g t soc (0 / base) (0 / base) := by
    rw [zero_div]
    refine ⟨ho.p0, ho.p0', ho.q1.trans hz.1, hz.2.trans ho.q3, fun k => lineAt_nonneg k ho.p0' (hz.2.trans ho.q3) hz.2,
      fun k => lineAt_nonpos k ho.p0' (ho.q1.trans hz.1) hz.1, fun k => ?_, fun k => ?_, ?_, ?_⟩
    · have := lineAt_nonneg (x0 := -g.pminus) (x1 := -g.pmin) (x := 0) (y0 := g.qmax) (y1 := g.qplus) (by linarith) (by linarith [ho.p0])
        (hz.2.trans ho.q3) hz.2
      have e : lineAt (-g.pminus) g.qmax (-g.pmin) g.qplus 0 = lineAt g.pminus g.qmax g.pmin g.qplus 0 := by
        unfold lineAt
        rw [show (0 - -g.pminus) = -(0 - g.pminus) by ring, show -g.pmin - -g.pminus = -(g.pmin - g.pminus) by ring, neg_div_neg_eq]
      rwa [e] at this
    · have := lineAt_nonpos (x0 := -g.pminus) (x1 := -g.pmin) (x := 0) (y0 := g.qmin) (y1 := g.qminus) (by linarith) (by linarith [ho.p0])
        (ho.q1.trans hz.1) hz.1
      have e : lineAt (-g.pminus) g.qmin (-g.pmin) g.qminus 0 = lineAt g.pminus g.qmin g.pmin g.qminus 0 := by
        unfold lineAt
        rw [show (0 - -g.pminus) = -(0 - g.pminus) by ring, show -g.pmin - -g.pminus = -(g.pmin - g.pminus) by ring, neg_div_neg_eq]
      rwa [e] at this
    · exact div_nonpos_of_nonpos_of_nonneg (by linarith) (by positivity)
    · exact div_nonneg (mul_nonneg he.le (by linarith)) ht.le
  obtain ⟨e1, e2, e3⟩ := C89_storage hn hs ht hq h hd hg hgp he hd0 hid hsoc hs1 hs2 h2 h3 hr
  rw [zero_div] at e1 e2
  refine ⟨e1, e2, ?_⟩
  rw [e3, if_pos (le_refl _)]
  simp

end Generic

noncomputable section

variable {ρ : Type} {w : EasyWorld ℝ ρ} {s0 : Sim ℝ} {a a' : Anm6 ℝ ρ} {y : EnvDyn ℝ}

/-- The action that the documentation of ANM6Easy calls doing nothing (`docs/source/topics/anm6_easy.rst:48`). -/
def nothing : List (X ℝ) := [.fin 30, .fin 50, .fin 0, .fin 0, .fin 0, .fin 0]

/-- **C125, ANM6Easy.** The action [30, 50, 0, 0, 0, 0] of ANM6Easy curtails nothing, makes no generator produce
reactive power and does not use the storage unit: the solar farm produces what the tables give, up to its limit of 30 MW,
the wind farm exactly what they give, and the energy of the storage unit does not change. -/
theorem C125_easy (ha : EasyOf w s0 a) (hg : Fair w.rng) (G : GoodSolvers w.sim (easySim : Sim ℝ)) (hpf : NumericPF w.sim)
    (hy : a.env.dyn = some y) (ht : y.terminated = false) {p q g : ℕ → ℝ} {e : ℝ} {t : ℕ} (hv : EasyVector y.state p q g e t)
    {l1 l3 l5 m2 m4 : ℚ} (T : TableAt ((t + 1) % 96) l1 l3 l5 m2 m4) {o : Env.StepOut ℝ} (h : a.step (easyCtx w s0) nothing = .ok (a', o)) :
    ∃ d0 d1 d2 d3 d4 d5 d6, Injects a'.env.sim (powers l1 (min m2 30) l3 m4 l5 0) (powers (l1 / 5) 0 (l3 / 5) 0 (l5 / 5) 0) d0 d1 d2 d3 d4 d5 d6 ∧
      d6.soc = some (.fin (e / 100)) := by
  obtain ⟨B1, B3, B5, B2, B4⟩ := table_bounds T
  obtain ⟨args, out, d0, d1, d2, d3, d4, d5, d6, i2, i5, I⟩ := easy_inputs ha hg G hpf hy ht hv T h
  have hsim : SimOf anm6Net (.fin (1/4)) (.fin 100) a.env.sim := envOf_simOf (easy_env ha)
  have hkeep : QPKeeps w.sim.qp := qpExact_keeps G.exact
  have hmem : ∀ x ∈ [d0, d1, d2, d3, d4, d5, d6], x ∈ a'.env.sim.devices := fun x hx => I.list ▸ hx
  simp only [List.forall_mem_cons] at hmem
  obtain ⟨j0, j1, j2, j3, j4, j5, j6, -⟩ := hmem
  obtain ⟨e2, e4, e6⟩ := I.id
  obtain ⟨⟨E1, E2⟩, c6, hm6, hc6, hsoc⟩ := I.soc
  have b2 : (0 : ℝ) ≤ m2 := by exact_mod_cast B2
  have b4 : (0 : ℝ) ≤ m4 := by exact_mod_cast B4.1
  have b4' : (m4 : ℝ) ≤ 50 := by exact_mod_cast B4.2
  have R2 : d2.p = .fin (min (m2 : ℝ) 30 / 100) ∧ d2.q = .fin (0 / 100) := by
    have := C125_generator (g := easyGen2) (pot := (m2 : ℝ)) (p := 30) anm6_clean hsim G.exact i2 j2 I.gen2.1 I.gen2.2
      (by rw [e2]; exact I.pot2) (by rw [e2]; exact I.set2.1) (by rw [e2]; exact I.set2.2) (by norm_num [easyGen2]) (by norm_num [easyGen2])
    rw [this.1, this.2]
    refine ⟨?_, by norm_num⟩
    simp only [easyGen2]
    rw [max_eq_right (by positivity), ← min_div_div_right (by norm_num : (0 : ℝ) ≤ 100)]
    norm_num
  have R4 : d4.p = .fin ((m4 : ℝ) / 100) ∧ d4.q = .fin (0 / 100) := by
    have := C125_generator (g := easyGen4) (pot := (m4 : ℝ)) (p := 50) anm6_clean hsim G.exact i2 j4 I.gen4.1 I.gen4.2
      (by rw [e4]; exact I.pot4) (by rw [e4]; exact I.set4.1) (by rw [e4]; exact I.set4.2) (by norm_num [easyGen4]) (by norm_num [easyGen4])
    rw [this.1, this.2]
    refine ⟨?_, by norm_num⟩
    simp only [easyGen4]
    rw [max_eq_right (by positivity), min_eq_left (by linarith)]
  obtain ⟨R61, R62, R63⟩ := C125_storage (g := easyDes) (soc := e / 100) anm6_clean hsim (by norm_num) hkeep i2 j6
      I.des.1 I.des.2 (by constructor <;> norm_num [easyDes]) (by norm_num [easyDes]) hm6 (by rw [e6, hc6]) hsoc (by simp only [easyDes]; linarith)
      (by simp only [easyDes]; linarith) (by rw [e6]; exact I.set6.1) (by rw [e6]; exact I.set6.2) (by norm_num [easyDes])
  refine ⟨d0, d1, d2, d3, d4, d5, d6, ⟨I.list, I.bus, I.pq1, R2, I.pq3, R4, I.pq5, ⟨?_, ?_⟩⟩, R63⟩
  · simpa [powers] using R61
  · simpa [powers] using R62

/-- **C125, penalty.** In each of the three scenarios of ANM6Easy, a step in which nothing is done has a penalty. -/
theorem C125_penalty (ha : EasyOf w s0 a) (hg : Fair w.rng) (G : GoodSolvers w.sim (easySim : Sim ℝ)) {o' : LFOracle} (hpf : w.sim.pf = realPF o')
    {y0 : EnvDyn ℝ} (hy0 : a.env.dyn = some y0) (ht0 : y0.terminated = false) {p q g : ℕ → ℝ} {e : ℝ} {t : ℕ} (hv0 : EasyVector y0.state p q g e t)
    {o : Env.StepOut ℝ} (h : a.step (easyCtx w s0) nothing = .ok (a', o)) (ho : o.terminated = false) (hy : a'.env.dyn = some y)
    (hp : (t + 1) % 96 ≤ 24 ∨ 92 ≤ (t + 1) % 96 ∨ (32 ≤ (t + 1) % 96 ∧ (t + 1) % 96 ≤ 44) ∨ (72 ≤ (t + 1) % 96 ∧ (t + 1) % 96 ≤ 84) ∨
      (52 ≤ (t + 1) % 96 ∧ (t + 1) % 96 ≤ 64)) : 0 < y.penalty := by
  have hnum : NumericPF w.sim := by
    have hw : w.sim = ⟨w.sim.qp, realPF o', w.sim.pi⟩ := by rw [← hpf]
    rw [hw]; exact C85_solver _ _ _
  have ha' := ha.step h
  obtain ⟨y1, y', args, tr, -, -, hy', ht', L, hc, hclip⟩ := easy_step_last ha hg G h ho
  rw [hy] at hy'
  cases hy'
  have hw : w.sim = ⟨w.sim.qp, realPF o', w.sim.pi⟩ := by rw [← hpf]
  have htr := L.trans
  rw [hw] at htr
  obtain ⟨-, hpos, -⟩ := C37_converged anm6_clean L.sim (by norm_num) (by norm_num) (numbered_same (easy_sameConfig ha) easy_numbered)
    (finiteLines_same (easy_sameConfig ha) easy_finiteLines) htr hc
  have hle : 0 ≤ y.penalty := by
    rw [hclip]
    exact X.le_clip (X.le_notNan hpos).2 (by rw [X.zero_def, X.fin_le_fin]; norm_num)
  by_contra hlt
  have hpen : y.penalty = 0 := by
    rw [X.not_lt_iff (X.le_notNan hle).1 (X.le_notNan hle).2] at hlt
    exact X.le_antisymm' hlt hle
  obtain ⟨p', q', g', fl, vv, e', loss, pen, t', -, hv', -⟩ := easy_vector ha' hg G hnum hy ht'
  obtain ⟨E, c0, c1, c2, c3, c4, c5, c6, D⟩ := easy_vector_devices ha' hg G hnum hy ht' hv'
  have hclk : Clock a.env t := ⟨y0, hy0, by rw [hv0]; rfl⟩
  obtain ⟨y3, hy3, hl3⟩ := easy_next_step ha hclk h ho
  rw [hy] at hy3
  cases hy3
  rw [hv'] at hl3
  simp only [List.getLast?_cons_cons, List.getLast?_singleton, Option.some.injEq, X.fin.injEq, Nat.cast_inj] at hl3
  subst hl3
  obtain ⟨l1, l3, l5, m2, m4, T⟩ := table_at (t := (t + 1) % 96) (Nat.mod_lt _ (by norm_num))
  obtain ⟨d0, d1, d2, d3, d4, d5, d6, J, -⟩ := C125_easy ha hg G hnum hy0 ht0 hv0 T h
  have hl := J.list
  rw [D.list] at hl
  simp only [List.cons.injEq, and_true] at hl
  obtain ⟨rfl, rfl, rfl, rfl, rfl, rfl, rfl⟩ := hl
  have k4 := J.pq4.1
  have k6 := J.pq6.1
  rw [D.pq4.1] at k4
  rw [D.pq6.1] at k6
  simp only [powers, List.getD_cons_succ, List.getD_cons_zero, X.fin.injEq] at k4 k6
  have k4' : p' 4 = m4 := by linarith
  have k6' : p' 6 = 0 := by linarith
  have sc := scenario_tables (t := (t + 1) % 96) (Nat.mod_lt _ (by norm_num))
  have wind : ∀ {x : ℚ}, genSeries.map (fun s => s[(t + 1) % 96]?) = [some x, some 40] → (m4 : ℝ) = 40 := by
    intro x hx
    have := T.gens
    rw [hx] at this
    simp only [List.cons.injEq, Option.some.injEq, and_true] at this
    rw [← this.2]
    norm_num
  have veh : (32 ≤ (t + 1) % 96 ∧ (t + 1) % 96 ≤ 44) ∨ (72 ≤ (t + 1) % 96 ∧ (t + 1) % 96 ≤ 84) → False := by
    intro k
    have := (C107_vehicles ha hg G hpf h ho hy hpen hv' k).2
    rw [k6'] at this
    norm_num at this
  rcases hp with k | k | k | k | k
  · have e1 := (C107_night ha hg G hpf h ho hy hpen hv' (.inl k)).2
    rw [k4', wind (sc.1 (.inl k)).2] at e1
    norm_num at e1
  · have e1 := (C107_night ha hg G hpf h ho hy hpen hv' (.inr k)).2
    rw [k4', wind (sc.1 (.inr k)).2] at e1
    norm_num at e1
  · exact veh (.inl k)
  · exact veh (.inr k)
  · have e1 := (C107_noon ha hg G hpf h ho hy hpen hv' k).2.2.2
    rw [k4', wind (sc.2.2 k).2] at e1
    norm_num at e1

end

end Anm
