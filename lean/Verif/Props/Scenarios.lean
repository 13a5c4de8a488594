import Verif.Props.EasyState

/-!
# C107: what the scenarios of ANM6Easy demand of an agent

The documentation of ANM6Easy (`docs/source/topics/anm6_easy.rst`) describes three scenarios: at night the wind farm
must be curtailed, while vehicles are charged the storage unit must help, around noon both generators must be
curtailed.  Here these are theorems about every step without penalty, whatever the agent does.
-/

namespace Anm

open Spec Complex ComplexConjugate

section
variable {ρ : Type} {w : EasyWorld ℝ ρ} {s0 : Sim ℝ} {a a' : Anm6 ℝ ρ} {o : LFOracle} {u : List (X ℝ)} {out : Env.StepOut ℝ}

/-! ### The ends of the network -/

theorem easy_leaf {s : Sim ℝ} (h : SameConfig easySim s) :
    ∃ b3 b4 b5 c3 c4 c5, b3 ∈ s.buses ∧ b4 ∈ s.buses ∧ b5 ∈ s.buses ∧
      (b3.id = 3 ∧ b3.isSlack = false ∧ b3.vMin = some (.fin (9/10)) ∧ LeafOn s 3 c3) ∧
      (b4.id = 4 ∧ b4.isSlack = false ∧ b4.vMin = some (.fin (9/10)) ∧ LeafOn s 4 c4) ∧
      (b5.id = 5 ∧ b5.isSlack = false ∧ b5.vMin = some (.fin (9/10)) ∧ LeafOn s 5 c5) ∧
      c3.line = ⟨1, 3, .fin (307/10000), .fin (621/10000), .fin 0, .fin (18/100), .fin 1, .fin 0⟩ ∧
      c4.line = ⟨2, 4, .fin (303/10000), .fin (611/10000), .fin 0, .fin (18/100), .fin 1, .fin 0⟩ ∧
      c5.line = ⟨2, 5, .fin (159/10000), .fin (502/10000), .fin 0, .fin (18/100), .fin 1, .fin 0⟩ := by
  have hd : List.Forall₂ SameBus (([0, 1, 2, 3, 4, 5].map anm6Bus).map (busBounds anm6Devices)) s.buses := h.buses
  simp only [List.map_cons, List.map_nil] at hd
  obtain ⟨b0, l0, e0, h0, hd⟩ := forall₂_cons_inv hd
  obtain ⟨b1, l1, rfl, h1, hd⟩ := forall₂_cons_inv hd
  obtain ⟨b2, l2, rfl, h2, hd⟩ := forall₂_cons_inv hd
  obtain ⟨b3, l3, rfl, h3, hd⟩ := forall₂_cons_inv hd
  obtain ⟨b4, l4, rfl, h4, hd⟩ := forall₂_cons_inv hd
  obtain ⟨b5, l5, rfl, h5, hd⟩ := forall₂_cons_inv hd
  have hl : List.Forall₂ (fun b b' : Branch ℝ => b'.line = b.line) (anm6Lines.map (fun l => { line := l })) s.branches := h.branches
  unfold anm6Lines at hl
  simp only [List.map_cons, List.map_nil] at hl
  obtain ⟨c1, m1, e1, g1, hl⟩ := forall₂_cons_inv hl
  obtain ⟨c2, m2, rfl, g2, hl⟩ := forall₂_cons_inv hl
  obtain ⟨c3, m3, rfl, g3, hl⟩ := forall₂_cons_inv hl
  obtain ⟨c4, m4, rfl, g4, hl⟩ := forall₂_cons_inv hl
  obtain ⟨c5, m5, rfl, g5, hl⟩ := forall₂_cons_inv hl
  cases hl
  refine ⟨b3, b4, b5, c3, c4, c5, by simp [e0], by simp [e0], by simp [e0], ⟨by rw [h3]; rfl, by rw [h3]; rfl, by rw [h3]; rfl, ?_⟩,
    ⟨by rw [h4]; rfl, by rw [h4]; rfl, by rw [h4]; rfl, ?_⟩, ⟨by rw [h5]; rfl, by rw [h5]; rfl, by rw [h5]; rfl, ?_⟩, g3, g4, g5⟩
  · refine ⟨by simp [g3], [c1, c2], [c4, c5], e1, ?_⟩
    simp [g1, g2, g4, g5]
  · refine ⟨by simp [g4], [c1, c2, c3], [c5], e1, ?_⟩
    simp [g1, g2, g3, g5]
  · refine ⟨by simp [g5], [c1, c2, c3, c4], [], e1, ?_⟩
    simp [g1, g2, g3, g4]

/-- What a bus at the end of a line of ANM6 can exchange with the network without penalty. -/
theorem leaf_limit {s s' : Sim ℝ} {qp : QP ℝ} {pi : ℝ} {args : Sim.Args ℝ} {tr : Sim.TransOut ℝ}
    (hs : SimOf anm6Net (.fin (1/4)) (.fin 100) s) (h : s.transition ⟨qp, realPF o, pi⟩ args = .ok (s', tr)) (hc : tr.converged = true)
    (hw : WithinLimits s') {b : Bus ℝ} {br : Branch ℝ} {f k : ℤ} {r x P Q : ℝ} (hb : b ∈ s'.buses) (hid : b.id = k) (hbs : b.isSlack = false)
    (hv : b.vMin = some (.fin (9/10))) (hk : LeafOn s' k br) (hline : br.line = ⟨f, k, .fin r, .fin x, .fin 0, .fin (18/100), .fin 1, .fin 0⟩)
    (hP : b.p = .fin P) (hQ : b.q = .fin Q) (hr : r ≤ 307/10000) (hr0 : 0 ≤ r) (hP2 : P ≤ 1/2) (hQ2 : |Q| ≤ 56/100) : |P| ≤ 18/100 + 1e-5 := by
  obtain ⟨s1, h1, h2⟩ := id hs
  rw [anm6_mk] at h1
  cases h1
  have hm := numbered_same h2 easy_numbered
  have hl := finiteLines_same h2 easy_finiteLines
  subst hid
  have d1 := C106_draw anm6_clean hs hm hl h hc hb hbs hk hw (R := 18/100) (by rw [hline]) hP
  rw [abs_le]
  refine ⟨by linarith, ?_⟩
  by_contra hlt
  rw [not_le] at hlt
  refine absurd (C106_inject anm6_clean hs hm hl h hc hb hbs hk hw (R := 18/100) (r := r) (lo := 9/10) (by rw [hline]) (by rw [hline]) (by rw [hline])
    (by rw [hline]) (by rw [hline]) hv (by norm_num) hP hQ ?_) (not_le.2 hlt)
  have i1 : (P + 1e-5) ^ 2 ≤ (51/100) ^ 2 := pow_le_pow_left₀ (by linarith) (by linarith) 2
  have i2 : (|Q| + 1e-5) ^ 2 ≤ (57/100) ^ 2 := pow_le_pow_left₀ (by positivity) (by linarith) 2
  have i3 : r * ((P + 1e-5) ^ 2 + (|Q| + 1e-5) ^ 2) ≤ 307/10000 * ((51/100) ^ 2 + (57/100) ^ 2) :=
    mul_le_mul hr (by linarith) (by positivity) (by norm_num)
  linarith

/-- **C107, ends of the network.** After a step of ANM6Easy without penalty that does not end the episode, the sum of the
active powers of the two devices at each of the buses 3, 4 and 5 is between -18.001 and 18.001 MW, whatever the
action, the solver of the projection and the linear solver of the load flow. -/
theorem C107_ends (ha : EasyOf w s0 a) (hg : Fair w.rng) (G : GoodSolvers w.sim (easySim : Sim ℝ)) (hpf : w.sim.pf = realPF o)
    (h : a.step (easyCtx w s0) u = .ok (a', out)) (ho : out.terminated = false) {y : EnvDyn ℝ} (hy : a'.env.dyn = some y)
    (hpen : y.penalty = 0) {p q g : ℕ → ℝ} {e : ℝ} {t : ℕ} (hv : EasyVector y.state p q g e t) :
    |p 1 + p 2| ≤ 18.001 ∧ |p 3 + p 4| ≤ 18.001 ∧ |p 5 + p 6| ≤ 18.001 := by
  have hw : w.sim = ⟨w.sim.qp, realPF o, w.sim.pi⟩ := by rw [← hpf]
  have hnum : NumericPF w.sim := by rw [hw]; exact C85_solver _ _ _
  obtain ⟨y0, y', args, tr, hy0, ht0, hy', ht', L, hc, hclip⟩ := easy_step_last ha hg G h ho
  rw [hy] at hy'
  cases hy'
  have ha' := ha.step h
  have hcfg := easy_sameConfig ha'
  obtain ⟨E, d0, d1, d2, d3, d4, d5, d6, D⟩ := easy_vector_devices ha' hg G hnum hy ht' hv
  have htr := L.trans
  rw [hw] at htr
  obtain ⟨-, hpos, hiff⟩ := C37_converged anm6_clean L.sim (by norm_num) (by norm_num) (numbered_same (easy_sameConfig ha) easy_numbered)
    (finiteLines_same (easy_sameConfig ha) easy_finiteLines) htr hc
  have hwl : WithinLimits a'.env.sim := by
    rw [← hiff]
    rw [hpen] at hclip
    by_cases h100 : tr.penalty ≤ .fin 100
    · rw [X.clip_eq_self hpos h100] at hclip
      exact hclip.symm
    · rw [X.not_le_iff (X.le_notNan hpos).2 (X.notNan_fin _)] at h100
      rw [clip_eq_hi (by rw [X.zero_def, X.fin_le_fin]; norm_num) (X.le_of_lt' h100), X.zero_def, X.fin.injEq] at hclip
      norm_num at hclip
  obtain ⟨i, j, hone⟩ := oneSlack_of_file anm6_clean anm6_documented L.sim
  obtain ⟨b3, b4, b5, c3, c4, c5, m3, m4, m5, ⟨i3, s3, v3, k3⟩, ⟨i4, s4, v4, k4⟩, ⟨i5, s5, v5, k5⟩, l3, l4, l5⟩ := easy_leaf hcfg
  obtain ⟨S3, T3⟩ := C33_bus_sum_partial hone htr m3 (by rw [s3]; simp)
  obtain ⟨S4, T4⟩ := C33_bus_sum_partial hone htr m4 (by rw [s4]; simp)
  obtain ⟨S5, T5⟩ := C33_bus_sum_partial hone htr m5 (by rw [s5]; simp)
  have f0 : d0.busId = 0 := by rw [D.m0]; rfl
  have f1 : d1.busId = 3 := by rw [D.m1]; rfl
  have f2 : d2.busId = 3 := by rw [D.m2]; rfl
  have f3 : d3.busId = 4 := by rw [D.m3]; rfl
  have f4 : d4.busId = 4 := by rw [D.m4]; rfl
  have f5 : d5.busId = 5 := by rw [D.m5]; rfl
  have f6 : d6.busId = 5 := by rw [D.m6]; rfl
  have A3 : devicesAt a'.env.sim b3.id = [d1, d2] := by simp [devicesAt, D.list, i3, f0, f1, f2, f3, f4, f5, f6]
  have A4 : devicesAt a'.env.sim b4.id = [d3, d4] := by simp [devicesAt, D.list, i4, f0, f1, f2, f3, f4, f5, f6]
  have A5 : devicesAt a'.env.sim b5.id = [d5, d6] := by simp [devicesAt, D.list, i5, f0, f1, f2, f3, f4, f5, f6]
  have two : ∀ x y : ℝ, sumX [.fin x, .fin y] = .fin (x + y) := by
    intro x y
    simp [sumX, X.zero_def]
  rw [A3] at S3 T3
  rw [A4] at S4 T4
  rw [A5] at S5 T5
  simp only [List.map_cons, List.map_nil, D.pq1, D.pq2, D.pq3, D.pq4, D.pq5, D.pq6, two] at S3 T3 S4 T4 S5 T5
  have ab : ∀ {x z lo hi : ℝ}, lo ≤ x → x ≤ hi → -z ≤ lo → hi ≤ z → |x| ≤ z := fun h1 h2 h3 h4 => abs_le.2 ⟨h3.trans h1, h2.trans h4⟩
  obtain ⟨⟨p11, p12⟩, ⟨p21, p22, p23⟩, ⟨p31, p32⟩, ⟨p41, p42, p43⟩, ⟨p51, p52⟩, ⟨p61, p62⟩, ⟨q11, q12⟩, ⟨q21, q22⟩, ⟨q31, q32⟩, ⟨q41, q42⟩,
    ⟨q51, q52⟩, ⟨q61, q62⟩, -⟩ := E
  have R3 := leaf_limit L.sim htr hc hwl m3 i3 s3 v3 k3 l3 S3 T3 (by norm_num) (by norm_num) (by linarith) (abs_le.2 ⟨by linarith, by linarith⟩)
  have R4 := leaf_limit L.sim htr hc hwl m4 i4 s4 v4 k4 l4 S4 T4 (by norm_num) (by norm_num) (by linarith) (abs_le.2 ⟨by linarith, by linarith⟩)
  have R5 := leaf_limit L.sim htr hc hwl m5 i5 s5 v5 k5 l5 S5 T5 (by norm_num) (by norm_num) (by linarith) (abs_le.2 ⟨by linarith, by linarith⟩)
  rw [abs_le] at R3 R4 R5
  refine ⟨abs_le.2 ⟨?_, ?_⟩, abs_le.2 ⟨?_, ?_⟩, abs_le.2 ⟨?_, ?_⟩⟩ <;> linarith [R3.1, R3.2, R4.1, R4.2, R5.1, R5.2]

/-! ### The scenarios -/

/-- The values of the tables in the three scenarios. -/
theorem scenario_tables {t : ℕ} (ht : t < 96) :
    (t ≤ 24 ∨ 92 ≤ t → loadSeries.map (fun s => s[t]?) = [some (-1), some (-4), some 0] ∧
      genSeries.map (fun s => s[t]?) = [some 0, some 40]) ∧
    ((32 ≤ t ∧ t ≤ 44) ∨ (72 ≤ t ∧ t ≤ 84) → loadSeries.map (fun s => s[t]?) = [some (-5), some (-10), some (-25)] ∧
      genSeries.map (fun s => s[t]?) = [some 4, some 11]) ∧
    (52 ≤ t ∧ t ≤ 64 → loadSeries.map (fun s => s[t]?) = [some (-2), some (-20), some 0] ∧
      genSeries.map (fun s => s[t]?) = [some 30, some 40]) := by
  have : ∀ t ∈ List.range 96,
    (t ≤ 24 ∨ 92 ≤ t → loadSeries.map (fun s => s[t]?) = [some (-1), some (-4), some 0] ∧
      genSeries.map (fun s => s[t]?) = [some 0, some 40]) ∧
    ((32 ≤ t ∧ t ≤ 44) ∨ (72 ≤ t ∧ t ≤ 84) → loadSeries.map (fun s => s[t]?) = [some (-5), some (-10), some (-25)] ∧
      genSeries.map (fun s => s[t]?) = [some 4, some 11]) ∧
    (52 ≤ t ∧ t ≤ 64 → loadSeries.map (fun s => s[t]?) = [some (-2), some (-20), some 0] ∧
      genSeries.map (fun s => s[t]?) = [some 30, some 40]) := by decide +kernel
  exact this t (List.mem_range.2 ht)

/-- A time of day for which the tables have values. -/
theorem table_time {t : ℕ} {l1 l3 l5 : ℚ} (h : loadSeries.map (fun s => s[t]?) = [some l1, some l3, some l5]) : t < 96 := by
  simp only [loadSeries, List.map_cons, List.map_nil, List.cons.injEq] at h
  have h1 := (List.getElem?_eq_some_iff.1 h.1).1
  exact lt_of_lt_of_eq h1 (by decide +kernel)

/-- **C107, night.** At night (11 pm to 6 am) a step without penalty leaves at least 17.999 of the 40 MW of wind unused. -/
theorem C107_night (ha : EasyOf w s0 a) (hg : Fair w.rng) (G : GoodSolvers w.sim (easySim : Sim ℝ)) (hpf : w.sim.pf = realPF o)
    (h : a.step (easyCtx w s0) u = .ok (a', out)) (ho : out.terminated = false) {y : EnvDyn ℝ} (hy : a'.env.dyn = some y)
    (hpen : y.penalty = 0) {p q g : ℕ → ℝ} {e : ℝ} {t : ℕ} (hv : EasyVector y.state p q g e t) (ht : t ≤ 24 ∨ 92 ≤ t) :
    g 4 = 40 ∧ p 4 ≤ 22.001 := by
  obtain ⟨l1, l3, l5, m2, m4, h1, h2, h3, h4, h5, h6, h7⟩ := easy_vector_day ha hg G h ho hy hv
  obtain ⟨-, e2, -⟩ := C107_ends ha hg G hpf h ho hy hpen hv
  obtain ⟨g1, g2⟩ := (scenario_tables (table_time h1)).1 ht
  rw [h1] at g1
  rw [h2] at g2
  simp only [List.cons.injEq, Option.some.injEq, and_true] at g1 g2
  rw [g1.2.1] at h4
  rw [g2.2] at h7
  push_cast at h4 h7
  rw [abs_le, h4] at e2
  exact ⟨h7, by linarith [e2.2]⟩

/-- **C107, vehicles.** While the vehicles are charged (8 to 11 am and 6 to 9 pm) the storage unit supplies at least
6.999 MW in every step without penalty. -/
theorem C107_vehicles (ha : EasyOf w s0 a) (hg : Fair w.rng) (G : GoodSolvers w.sim (easySim : Sim ℝ)) (hpf : w.sim.pf = realPF o)
    (h : a.step (easyCtx w s0) u = .ok (a', out)) (ho : out.terminated = false) {y : EnvDyn ℝ} (hy : a'.env.dyn = some y)
    (hpen : y.penalty = 0) {p q g : ℕ → ℝ} {e : ℝ} {t : ℕ} (hv : EasyVector y.state p q g e t)
    (ht : (32 ≤ t ∧ t ≤ 44) ∨ (72 ≤ t ∧ t ≤ 84)) : p 5 = -25 ∧ 6.999 ≤ p 6 := by
  obtain ⟨l1, l3, l5, m2, m4, h1, h2, h3, h4, h5, h6, h7⟩ := easy_vector_day ha hg G h ho hy hv
  obtain ⟨-, -, e3⟩ := C107_ends ha hg G hpf h ho hy hpen hv
  obtain ⟨g1, g2⟩ := (scenario_tables (table_time h1)).2.1 ht
  rw [h1] at g1
  simp only [List.cons.injEq, Option.some.injEq, and_true] at g1
  rw [g1.2.2] at h5
  push_cast at h5
  rw [abs_le, h5] at e3
  exact ⟨h5, by linarith [e3.1]⟩

/-- **C107, noon.** Around noon (1 to 4 pm) a step without penalty leaves at least 9.999 of the 30 MW of sun and 1.999 of
the 40 MW of wind unused. -/
theorem C107_noon (ha : EasyOf w s0 a) (hg : Fair w.rng) (G : GoodSolvers w.sim (easySim : Sim ℝ)) (hpf : w.sim.pf = realPF o)
    (h : a.step (easyCtx w s0) u = .ok (a', out)) (ho : out.terminated = false) {y : EnvDyn ℝ} (hy : a'.env.dyn = some y)
    (hpen : y.penalty = 0) {p q g : ℕ → ℝ} {e : ℝ} {t : ℕ} (hv : EasyVector y.state p q g e t) (ht : 52 ≤ t ∧ t ≤ 64) :
    g 2 = 30 ∧ p 2 ≤ 20.001 ∧ g 4 = 40 ∧ p 4 ≤ 38.001 := by
  obtain ⟨l1, l3, l5, m2, m4, h1, h2, h3, h4, h5, h6, h7⟩ := easy_vector_day ha hg G h ho hy hv
  obtain ⟨e1, e2, -⟩ := C107_ends ha hg G hpf h ho hy hpen hv
  obtain ⟨g1, g2⟩ := (scenario_tables (table_time h1)).2.2 ht
  rw [h1] at g1
  rw [h2] at g2
  simp only [List.cons.injEq, Option.some.injEq, and_true] at g1 g2
  rw [g1.1] at h3
  rw [g1.2.1] at h4
  rw [g2.1] at h6
  rw [g2.2] at h7
  push_cast at h3 h4 h6 h7
  rw [min_self] at h6
  rw [abs_le, h3] at e1
  rw [abs_le, h4] at e2
  exact ⟨h6, by linarith [e1.2], h7, by linarith [e2.2]⟩

/-! ### Energy -/

namespace Spec

/-- `n` steps without penalty and without the end of the episode. -/
inductive SafeRun (c : EnvCtx ℝ ρ) : Anm6 ℝ ρ → ℕ → Anm6 ℝ ρ → Prop where
  | nil (a : Anm6 ℝ ρ) : SafeRun c a 0 a
  | cons {a a1 a' : Anm6 ℝ ρ} {u : List (X ℝ)} {out : Env.StepOut ℝ} {y : EnvDyn ℝ} {n : ℕ} : a.step c u = .ok (a1, out) →
      out.terminated = false → a1.env.dyn = some y → y.penalty = 0 → SafeRun c a1 n a' → SafeRun c a (n + 1) a'

/-- The energy (MWh) of the storage unit of an environment, read in its state vector. -/
def Energy (a : Anm6 ℝ ρ) (e : ℝ) : Prop := ∃ y, a.env.dyn = some y ∧ y.state[14]? = some (.fin e)

/-- The least energy taken from a storage unit with an efficiency of 90% in a quarter of an hour in which it
supplies at least `x` MW (negative: the most energy that can be added). -/
noncomputable def spent (x : ℝ) : ℝ := if 0 ≤ x then x / 4 / 0.9 else x / 4 * 0.9

/-- The least energy taken from the storage unit by `n` steps after the time of day `t`: the demand of the vehicles is
met up to the 18.001 MW that the line supplies. -/
noncomputable def needed (t : ℕ) : ℕ → ℝ
  | 0 => 0
  | n + 1 => spent (-(((loadSeries.getD 2 []).getD ((t + 1) % 96) 0 : ℚ) : ℝ) - 18.001) + needed ((t + 1) % 96) n

end Spec

theorem spent_mono {x z : ℝ} (h : x ≤ z) : spent x ≤ spent z := by
  unfold spent
  split <;> split <;> norm_num at * <;> linarith

/-- **C107, energy of a step.** -/
theorem C107_step_energy (ha : EasyOf w s0 a) (hg : Fair w.rng) (G : GoodSolvers w.sim (easySim : Sim ℝ)) (hpf : w.sim.pf = realPF o)
    (h : a.step (easyCtx w s0) u = .ok (a', out)) (ho : out.terminated = false) {p q g : ℕ → ℝ} {e e' : ℝ} {y : EnvDyn ℝ} {t : ℕ}
    (he : Energy a e) (hy : a'.env.dyn = some y) (hv : EasyVector y.state p q g e' t) : e - e' = spent (p 6) := by
  have hw : w.sim = ⟨w.sim.qp, realPF o, w.sim.pi⟩ := by rw [← hpf]
  have hnum : NumericPF w.sim := by rw [hw]; exact C85_solver _ _ _
  obtain ⟨y0, y', args, tr, hy0, ht0, hy', ht', L, hc, hclip⟩ := easy_step_last ha hg G h ho
  rw [hy] at hy'
  cases hy'
  have ha' := ha.step h
  obtain ⟨E, d0, d1, d2, d3, d4, d5, d6, D⟩ := easy_vector_devices ha' hg G hnum hy ht' hv
  obtain ⟨p', q', g', fl, v, e0, loss, pen, t0, -, hv0, -⟩ := easy_vector ha hg G hnum hy0 ht0
  obtain ⟨E', c0, c1, c2, c3, c4, c5, c6, C⟩ := easy_vector_devices ha hg G hnum hy0 ht0 hv0
  obtain ⟨y1, hy1, he⟩ := he
  rw [hy0] at hy1
  cases hy1
  unfold EasyVector at hv0
  rw [hv0] at he
  simp only [List.getElem?_cons_succ, List.getElem?_cons_zero, Option.some.injEq, X.fin.injEq] at he
  subst he
  have m6 : d6 ∈ a'.env.sim.devices := by simp [D.list]
  have n6 : d6.isStorage = true := by rw [D.m6]; rfl
  obtain ⟨x, hx, hid, soc, r, r', ef, z1, z2, z3, z4, z5, z6, z7⟩ := C21_soc_accounting anm6_clean L.sim (by norm_num) G.sound
    (finiteCapacity_of (easy_ready ha).workable) (socOk_of L.soc) L.trans m6 n6
  have h6 : d6.id = 6 := by rw [D.m6]; rfl
  have hx6 : x = c6 := by
    have := sorted_id_inj (simOf_sorted L.sim) hx (show c6 ∈ a.env.sim.devices by simp [C.list]) (by rw [hid, h6, C.m6]; rfl)
    exact this
  subst hx6
  have s1 := C.soc
  have s2 := D.soc
  rw [z1] at s1
  simp only [Option.getD_some, X.fin.injEq] at s1
  have hef : ef = 9/10 := by
    have : d6.eff = .fin (9/10) := by rw [D.m6]; rfl
    rw [z4] at this
    exact X.fin.inj this
  have hp6 : r = p 6 / 100 := by
    have := D.pq6.1
    rw [z2] at this
    exact X.fin.inj this
  unfold spent
  by_cases hpos : 0 < r
  · rw [z7 hpos] at s2
    simp only [Option.getD_some, X.fin.injEq] at s2
    rw [if_pos (by linarith), ← mul_div_cancel₀ (p 6) (show (100 : ℝ) ≠ 0 by norm_num)]
    rw [hef, hp6] at s2
    norm_num at s2 ⊢
    linarith
  · rw [z6 (not_lt.1 hpos)] at s2
    simp only [Option.getD_some, X.fin.injEq] at s2
    rw [hef, hp6] at s2
    rcases (not_lt.1 hpos).lt_or_eq with hlt | h0
    · rw [if_neg (by linarith)]
      norm_num at s2 ⊢
      linarith
    · rw [if_pos (by linarith)]
      have : p 6 = 0 := by linarith
      rw [this] at s2 ⊢
      norm_num at s2 ⊢
      linarith

/-- **C107, energy.** In steps without penalty the storage unit loses at least the energy needed to supply the vehicles
beyond 18.001 MW. -/
theorem C107_energy (hg : Fair w.rng) (G : GoodSolvers w.sim (easySim : Sim ℝ)) (hpf : w.sim.pf = realPF o) {n : ℕ}
    (hr : SafeRun (easyCtx w s0) a n a') : ∀ {t : ℕ} {e : ℝ} {y : EnvDyn ℝ}, EasyOf w s0 a → Clock a.env t → t < 96 → Energy a e →
      a.env.dyn = some y → y.terminated = false → ∃ e', Energy a' e' ∧ 0 ≤ e' ∧ e' + needed t n ≤ e := by
  have hw : w.sim = ⟨w.sim.qp, realPF o, w.sim.pi⟩ := by rw [← hpf]
  have hnum : NumericPF w.sim := by rw [hw]; exact C85_solver _ _ _
  induction hr with
  | nil a =>
    intro t e y ha hc ht he hy hf
    refine ⟨e, he, ?_, by simp [needed]⟩
    obtain ⟨p, q, g, fl, v, e0, loss, pen, t0, -, hv0, -⟩ := easy_vector ha hg G hnum hy hf
    obtain ⟨y1, hy1, he⟩ := he
    rw [hy] at hy1
    cases hy1
    have E := (easy_vector_devices ha hg G hnum hy hf hv0).1
    unfold EasyVector at hv0
    rw [hv0] at he
    simp only [List.getElem?_cons_succ, List.getElem?_cons_zero, Option.some.injEq, X.fin.injEq] at he
    rw [← he]
    exact E.e.1
  | @cons a a1 a' u out y1 n h ho hy1 hpen hrun ih =>
    intro t e y ha hc ht he hy hf
    have ha1 := ha.step h
    obtain ⟨_, y1', _, _, _, _, hy1', hf1, _⟩ := easy_step_last ha hg G h ho
    rw [hy1] at hy1'
    cases hy1'
    obtain ⟨p, q, g, fl, v, e1, loss, pen, t1, -, hv, -⟩ := easy_vector ha1 hg G hnum hy1 hf1
    have hstep := C107_step_energy ha hg G hpf h ho he hy1 hv
    have hc1 := easy_next_step ha hc h ho
    have ht1 : t1 = (t + 1) % 96 := by
      obtain ⟨y2, hy2, hl⟩ := hc1
      rw [hy1] at hy2
      cases hy2
      unfold EasyVector at hv
      rw [hv] at hl
      simp only [List.getLast?_cons_cons, List.getLast?_singleton, Option.some.injEq, X.fin.injEq, Nat.cast_inj] at hl
      exact hl
    have hE : Energy a1 e1 := by
      refine ⟨y1, hy1, ?_⟩
      unfold EasyVector at hv
      rw [hv]
      rfl
    obtain ⟨e', g1, g2, g3⟩ := ih ha1 hc1 (Nat.mod_lt _ (by norm_num)) hE hy1 hf1
    refine ⟨e', g1, g2, ?_⟩
    obtain ⟨l1, l3, l5, m2, m4, h1, h2, h3, h4, h5, h6, h7⟩ := easy_vector_day ha hg G h ho hy1 hv
    obtain ⟨-, -, e3⟩ := C107_ends ha hg G hpf h ho hy1 hpen hv
    have hl5 : (loadSeries.getD 2 []).getD ((t + 1) % 96) 0 = l5 := by
      simp only [loadSeries, List.map_cons, List.map_nil, List.cons.injEq] at h1
      rw [ht1] at h1
      simp only [loadSeries, List.getD_cons_succ, List.getD_cons_zero]
      rw [List.getD_eq_getElem?_getD, h1.2.2.1]
      rfl
    rw [needed, hl5]
    have hm := spent_mono (x := -(l5 : ℝ) - 18.001) (z := p 6) (by
      rw [abs_le, h5] at e3
      linarith [e3.1])
    linarith

/-- **C107, reserve.** An agent that gets through a charging period of the vehicles (from 7:30 to 11:30 am, or from 5:30
to 9:30 pm) without penalty has at least 27.8 MWh in the storage unit a step before its beginning. -/
theorem C107_reserve (ha : EasyOf w s0 a) (hg : Fair w.rng) (G : GoodSolvers w.sim (easySim : Sim ℝ)) (hpf : w.sim.pf = realPF o)
    (hr : SafeRun (easyCtx w s0) a 17 a') {e : ℝ} (he : Energy a e) {y : EnvDyn ℝ} (hy : a.env.dyn = some y) (hf : y.terminated = false)
    (hc : Clock a.env 29 ∨ Clock a.env 69) : 27.8 ≤ e := by
  have h30 : (loadSeries.getD 2 []).getD 30 0 = (-75/4 : ℚ) := by decide +kernel
  have h31 : (loadSeries.getD 2 []).getD 31 0 = (-175/8 : ℚ) := by decide +kernel
  have h32 : (loadSeries.getD 2 []).getD 32 0 = (-25 : ℚ) := by decide +kernel
  have h33 : (loadSeries.getD 2 []).getD 33 0 = (-25 : ℚ) := by decide +kernel
  have h34 : (loadSeries.getD 2 []).getD 34 0 = (-25 : ℚ) := by decide +kernel
  have h35 : (loadSeries.getD 2 []).getD 35 0 = (-25 : ℚ) := by decide +kernel
  have h36 : (loadSeries.getD 2 []).getD 36 0 = (-25 : ℚ) := by decide +kernel
  have h37 : (loadSeries.getD 2 []).getD 37 0 = (-25 : ℚ) := by decide +kernel
  have h38 : (loadSeries.getD 2 []).getD 38 0 = (-25 : ℚ) := by decide +kernel
  have h39 : (loadSeries.getD 2 []).getD 39 0 = (-25 : ℚ) := by decide +kernel
  have h40 : (loadSeries.getD 2 []).getD 40 0 = (-25 : ℚ) := by decide +kernel
  have h41 : (loadSeries.getD 2 []).getD 41 0 = (-25 : ℚ) := by decide +kernel
  have h42 : (loadSeries.getD 2 []).getD 42 0 = (-25 : ℚ) := by decide +kernel
  have h43 : (loadSeries.getD 2 []).getD 43 0 = (-25 : ℚ) := by decide +kernel
  have h44 : (loadSeries.getD 2 []).getD 44 0 = (-25 : ℚ) := by decide +kernel
  have h45 : (loadSeries.getD 2 []).getD 45 0 = (-175/8 : ℚ) := by decide +kernel
  have h46 : (loadSeries.getD 2 []).getD 46 0 = (-75/4 : ℚ) := by decide +kernel
  have h70 : (loadSeries.getD 2 []).getD 70 0 = (-75/4 : ℚ) := by decide +kernel
  have h71 : (loadSeries.getD 2 []).getD 71 0 = (-175/8 : ℚ) := by decide +kernel
  have h72 : (loadSeries.getD 2 []).getD 72 0 = (-25 : ℚ) := by decide +kernel
  have h73 : (loadSeries.getD 2 []).getD 73 0 = (-25 : ℚ) := by decide +kernel
  have h74 : (loadSeries.getD 2 []).getD 74 0 = (-25 : ℚ) := by decide +kernel
  have h75 : (loadSeries.getD 2 []).getD 75 0 = (-25 : ℚ) := by decide +kernel
  have h76 : (loadSeries.getD 2 []).getD 76 0 = (-25 : ℚ) := by decide +kernel
  have h77 : (loadSeries.getD 2 []).getD 77 0 = (-25 : ℚ) := by decide +kernel
  have h78 : (loadSeries.getD 2 []).getD 78 0 = (-25 : ℚ) := by decide +kernel
  have h79 : (loadSeries.getD 2 []).getD 79 0 = (-25 : ℚ) := by decide +kernel
  have h80 : (loadSeries.getD 2 []).getD 80 0 = (-25 : ℚ) := by decide +kernel
  have h81 : (loadSeries.getD 2 []).getD 81 0 = (-25 : ℚ) := by decide +kernel
  have h82 : (loadSeries.getD 2 []).getD 82 0 = (-25 : ℚ) := by decide +kernel
  have h83 : (loadSeries.getD 2 []).getD 83 0 = (-25 : ℚ) := by decide +kernel
  have h84 : (loadSeries.getD 2 []).getD 84 0 = (-25 : ℚ) := by decide +kernel
  have h85 : (loadSeries.getD 2 []).getD 85 0 = (-175/8 : ℚ) := by decide +kernel
  have h86 : (loadSeries.getD 2 []).getD 86 0 = (-75/4 : ℚ) := by decide +kernel
  rcases hc with hc | hc
  · obtain ⟨e', -, h0, h1⟩ := C107_energy hg G hpf hr ha hc (by norm_num) he hy hf
    have : 27.8 ≤ needed 29 17 := by
      simp only [needed, Nat.reduceAdd, Nat.reduceMod, h30, h31, h32, h33, h34, h35, h36, h37, h38, h39, h40, h41, h42, h43, h44, h45, h46]
      norm_num [spent]
    linarith
  · obtain ⟨e', -, h0, h1⟩ := C107_energy hg G hpf hr ha hc (by norm_num) he hy hf
    have : 27.8 ≤ needed 69 17 := by
      simp only [needed, Nat.reduceAdd, Nat.reduceMod, h70, h71, h72, h73, h74, h75, h76, h77, h78, h79, h80, h81, h82, h83, h84, h85, h86]
      norm_num [spent]
    linarith

end

end Anm
