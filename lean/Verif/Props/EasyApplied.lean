import Verif.Props.MpcApplied
import Verif.Props.PlayTransition

/-! # C109: ANM6Easy carries out every feasible action exactly -/

namespace Anm

open Spec

noncomputable section

variable {ρ : Type} {w : EasyWorld ℝ ρ} {s0 : Sim ℝ} {a a' : Anm6 ℝ ρ} {y : EnvDyn ℝ}

/-- The reactive power of a load after a transition. -/
theorem load_ratio {K : Type} [Field K] [LinearOrder K] [IsStrictOrderedRing K] [FloorRing K] {c : Ctx K} {s s' : Sim K} {args : Sim.Args K} {out : Sim.TransOut K}
    {d : Device K} (h : s.transition c args = .ok (s', out)) (hd : d ∈ s'.devices) (hl : d.isLoad = true) (hs : d.isSlack = false) :
    d.q = d.p * d.qpRatio := by
  obtain ⟨d0, -, hr⟩ := transition_device h hd hs
  obtain ⟨-, e2, -⟩ := hr.same.classes
  cases hr with
  | load x => rfl
  | gen _ _ _ _ _ _ h => rw [e2, h] at hl; cases hl
  | storage _ _ _ _ _ _ _ _ h => rw [e2, h] at hl; cases hl
  | slack h => rw [e2, h] at hl; cases hl
  | none h => rw [e2, h] at hl; cases hl

/-- The transition made by a step, with its inputs and the flag returned. -/
theorem step_transition {c : EnvCtx ℝ ρ} {b : EnvArgs ℝ} {e e' : Env ℝ ρ} (he : EnvOf c b e) {act : List (X ℝ)} {out : Env.StepOut ℝ}
    (h : e.step c act = .ok (e', out)) (hy : e.dyn = some y) (hlive : y.terminated = false) :
    ∃ vars args o, c.nextVars y.state e.rng = .ok (vars, e'.rng) ∧ e.sim.transition c.sim args = .ok (e'.sim, o) ∧
      out.terminated = !o.converged ∧ Distributed e.sim vars args.pLoad args.pPot ∧ Applied e.sim act args.pSet args.qSet := by
  obtain ⟨hcon, y1, hy1, ⟨ht1, _⟩ | ⟨hf, h⟩⟩ := step_ok h
  · rw [hy] at hy1; cases hy1; rw [hlive] at ht1; cases ht1
  rw [hy] at hy1; cases hy1
  obtain ⟨vars, args, o, y', I⟩ := advance_ok h
  obtain ⟨r, h1, h2⟩ := distributed_of (simOf_sorted (envOf_simOf he)) I.size
  rw [I.dicts] at h1
  cases h1
  refine ⟨vars, args, o, I.next, I.trans, I.flag, h2, ?_⟩
  have hb := (C45_actions he).1.1
  have hl : act.length = (slots e.sim).length := by
    have := hcon.2.1
    rw [hb] at this
    simpa using this
  have := decode_applied (simOf_sorted (envOf_simOf he)) hl
  rw [I.decode] at this
  exact this

namespace Spec

/-- The demands (MW) of the loads 1, 3 and 5 and the maximum productions (MW) of the generators 2 and 4 at the time of
day `t`. -/
structure TableAt (t : ℕ) (l1 l3 l5 m2 m4 : ℚ) : Prop where
  loads : loadSeries.map (fun s => s[t]?) = [some l1, some l3, some l5]
  gens : genSeries.map (fun s => s[t]?) = [some m2, some m4]

/-- The devices can carry out the action: the generators with the maximum productions `m2` and `m4`, the storage unit with
the energy `e` (MWh). -/
structure CanDo (m2 m4 e p2 p4 q2 q4 p6 q6 : ℝ) : Prop where
  gen2 : GenRegion easyGen2 (m2 / 100) (p2 / 100) (q2 / 100)
  gen4 : GenRegion easyGen4 (m4 / 100) (p4 / 100) (q4 / 100)
  des : DesRegion easyDes (1/4) (e / 100) (p6 / 100) (q6 / 100)

/-- The powers of the devices 0 to 6. -/
def powers (x1 x2 x3 x4 x5 x6 : ℝ) : ℕ → ℝ := fun k => [0, x1, x2, x3, x4, x5, x6].getD k 0

/-- The energy after a quarter of an hour, from the energy before it and the active power of the storage unit. -/
def after (e p : ℝ) : ℝ := if p ≤ 0 then e - p / 4 * 0.9 else e - p / 4 / 0.9

end Spec

theorem table_at {t : ℕ} (h : t < 96) : ∃ l1 l3 l5 m2 m4, TableAt t l1 l3 l5 m2 m4 := by
  have h1 := fun s hs => series_length s (List.mem_append_left genSeries hs)
  have h2 := fun s hs => series_length s (List.mem_append_right loadSeries hs)
  have g : ∀ s : List ℚ, s.length = 96 → ∃ q, s[t]? = some q := fun s hs => ⟨s[t]'(by omega), by simp⟩
  simp only [loadSeries, genSeries, List.forall_mem_cons] at h1 h2
  obtain ⟨l1, e1⟩ := g _ h1.1
  obtain ⟨l3, e3⟩ := g _ h1.2.1
  obtain ⟨l5, e5⟩ := g _ h1.2.2.1
  obtain ⟨m2, e2⟩ := g _ h2.1
  obtain ⟨m4, e4⟩ := g _ h2.2.1
  exact ⟨l1, l3, l5, m2, m4, by simp only [loadSeries, List.map_cons, List.map_nil, e1, e3, e5],
    by simp only [genSeries, List.map_cons, List.map_nil, e2, e4]⟩

theorem table_bounds {t : ℕ} {l1 l3 l5 m2 m4 : ℚ} (T : TableAt t l1 l3 l5 m2 m4) :
    (-10 ≤ l1 ∧ l1 ≤ 0) ∧ (-30 ≤ l3 ∧ l3 ≤ 0) ∧ (-30 ≤ l5 ∧ l5 ≤ 0) ∧ 0 ≤ m2 ∧ (0 ≤ m4 ∧ m4 ≤ 50) := by
  obtain ⟨h1, h2⟩ := T
  simp only [loadSeries, genSeries, List.map_cons, List.map_nil, List.cons.injEq, and_true] at h1 h2
  obtain ⟨n1, n3, n5⟩ := h1
  obtain ⟨n2, n4⟩ := h2
  have bnd : (∀ x ∈ dayOf (-1) (-5) (-2) (linspace (-1.5) (-4.5) 7) (linspace (-4.625) (-2.375) 7), -10 ≤ x ∧ x ≤ 0) ∧
      (∀ x ∈ dayOf (-4) (-10) (-20) (linspace (-4.75) (-9.25) 7) (linspace (-11.25) (-18.75) 7), -30 ≤ x ∧ x ≤ 0) ∧
      (∀ x ∈ dayOf 0 (-25) 0 (linspace (-3.125) (-21.875) 7) (linspace (-21.875) (-3.125) 7), -30 ≤ x ∧ x ≤ 0) ∧
      (∀ x ∈ dayOf 0 4 30 (linspace 0.5 3.5 7) (linspace 7.25 36.75 7), 0 ≤ x) ∧
      (∀ x ∈ dayOf 40 11 40 (linspace 36.375 14.625 7) (linspace 14.725 36.375 7), 0 ≤ x ∧ x ≤ 50) := by
    refine ⟨?_, ?_, ?_, ?_, ?_⟩ <;> decide +kernel
  obtain ⟨B1, B3, B5, B2, B4⟩ := bnd
  exact ⟨B1 l1 (List.mem_of_getElem? n1), B3 l3 (List.mem_of_getElem? n3), B5 l5 (List.mem_of_getElem? n5), B2 m2 (List.mem_of_getElem? n2),
    B4 m4 (List.mem_of_getElem? n4)⟩

/-- What a step of ANM6Easy hands to the simulator, and the devices after it. -/
structure EasyInputs (s s' : Sim ℝ) (args : Sim.Args ℝ) (e p2 p4 q2 q4 p6 q6 : ℝ) (l1 l3 l5 m2 m4 : ℚ) (d0 d1 d2 d3 d4 d5 d6 : Device ℝ) : Prop where
  list : s'.devices = [d0, d1, d2, d3, d4, d5, d6]
  bus : d0.busId = 0 ∧ d1.busId = 3 ∧ d2.busId = 3 ∧ d3.busId = 4 ∧ d4.busId = 4 ∧ d5.busId = 5 ∧ d6.busId = 5
  id : d2.id = 2 ∧ d4.id = 4 ∧ d6.id = 6
  gen2 : d2.isNonSlackGen = true ∧ HasGenParams d2 easyGen2
  gen4 : d4.isNonSlackGen = true ∧ HasGenParams d4 easyGen4
  des : d6.isStorage = true ∧ HasDesParams d6 easyDes
  pq1 : d1.p = .fin ((l1 : ℝ) / 100) ∧ d1.q = .fin ((l1 : ℝ) / 5 / 100)
  pq3 : d3.p = .fin ((l3 : ℝ) / 100) ∧ d3.q = .fin ((l3 : ℝ) / 5 / 100)
  pq5 : d5.p = .fin ((l5 : ℝ) / 100) ∧ d5.q = .fin ((l5 : ℝ) / 5 / 100)
  pot2 : args.pPot.get? 2 = some (.fin (m2 : ℝ))
  pot4 : args.pPot.get? 4 = some (.fin (m4 : ℝ))
  set2 : args.pSet.get? 2 = some (.fin p2) ∧ args.qSet.get? 2 = some (.fin q2)
  set4 : args.pSet.get? 4 = some (.fin p4) ∧ args.qSet.get? 4 = some (.fin q4)
  set6 : args.pSet.get? 6 = some (.fin p6) ∧ args.qSet.get? 6 = some (.fin q6)
  soc : (0 ≤ e ∧ e ≤ 100) ∧ ∃ c ∈ s.devices, c.id = 6 ∧ c.soc = some (.fin (e / 100))

/-- The inputs of the transition made by a step of ANM6Easy. -/
theorem easy_inputs (ha : EasyOf w s0 a) (hg : Fair w.rng) (G : GoodSolvers w.sim (easySim : Sim ℝ)) (hpf : NumericPF w.sim)
    (hy : a.env.dyn = some y) (ht : y.terminated = false) {p q g : ℕ → ℝ} {e : ℝ} {t : ℕ} (hv : EasyVector y.state p q g e t)
    {l1 l3 l5 m2 m4 : ℚ} (T : TableAt ((t + 1) % 96) l1 l3 l5 m2 m4) {p2 p4 q2 q4 p6 q6 : ℝ}
    {o : Env.StepOut ℝ} (h : a.step (easyCtx w s0) [.fin p2, .fin p4, .fin q2, .fin q4, .fin p6, .fin q6] = .ok (a', o)) :
    ∃ args out d0 d1 d2 d3 d4 d5 d6, a.env.sim.transition w.sim args = .ok (a'.env.sim, out) ∧ o.terminated = !out.converged ∧
      EasyInputs a.env.sim a'.env.sim args e p2 p4 q2 q4 p6 q6 l1 l3 l5 m2 m4 d0 d1 d2 d3 d4 d5 d6 := by
  obtain ⟨E, c0, c1, c2, c3, c4, c5, c6, D⟩ := easy_vector_devices ha hg G hpf hy ht hv
  obtain ⟨B1, B3, B5, B2, B4⟩ := table_bounds T
  obtain ⟨T1, T2⟩ := T
  have ha' := ha.step h
  obtain ⟨e1, dd, dd0, h2, h3, h4, rfl⟩ := anm6_step_ok h
  obtain ⟨vars, args, out, i1, i2, i5, i3, i4⟩ := step_transition (easy_env ha) h2 hy ht
  have hsim : SimOf anm6Net (.fin (1/4)) (.fin 100) a.env.sim := envOf_simOf (easy_env ha)
  have hkeep : QPKeeps w.sim.qp := qpExact_keeps G.exact
  have hlast : y.state.getLast? = some (.fin (t : ℝ)) := by rw [hv]; rfl
  obtain ⟨v, hv1, xs, rfl, hx⟩ := easyNext_clock hlast
  simp only [easyCtx, hv1, Except.map, Except.ok.injEq, Prod.mk.injEq] at i1
  obtain ⟨rfl, -⟩ := i1
  simp only [loadSeries, genSeries, List.map_cons, List.map_nil, List.cons.injEq, and_true] at T1 T2
  obtain ⟨t1, t3, t5⟩ := T1
  obtain ⟨t2, t4⟩ := T2
  simp only [loadSeries, genSeries, List.cons_append, List.nil_append] at hx
  obtain ⟨x1, r1, hxs, ⟨l1', n1, o1⟩, hx1⟩ := forall₂_cons_inv hx
  obtain ⟨x3, r3, rfl, ⟨l3', n3, o3⟩, hx2⟩ := forall₂_cons_inv hx1
  obtain ⟨x5, r5, rfl, ⟨l5', n5, o5⟩, hx3⟩ := forall₂_cons_inv hx2
  obtain ⟨x2, r2, rfl, ⟨m2', n2, o2⟩, hx4⟩ := forall₂_cons_inv hx3
  obtain ⟨x4, r4, rfl, ⟨m4', n4, o4⟩, hx5⟩ := forall₂_cons_inv hx4
  cases hx5
  subst hxs o1 o2 o3 o4 o5
  rw [t1] at n1
  rw [t2] at n2
  rw [t3] at n3
  rw [t4] at n4
  rw [t5] at n5
  cases n1
  cases n2
  cases n3
  cases n4
  cases n5
  -- the devices before the step
  have a0 : c0.isSlack = true ∧ c0.kind = .classical := by rw [D.m0]; exact ⟨rfl, rfl⟩
  have a1 : c1.isSlack = false ∧ c1.kind = .load ∧ c1.id = 1 := by rw [D.m1]; exact ⟨rfl, rfl, rfl⟩
  have a2 : c2.isSlack = false ∧ c2.kind = .renewable ∧ c2.id = 2 := by rw [D.m2]; exact ⟨rfl, rfl, rfl⟩
  have a3 : c3.isSlack = false ∧ c3.kind = .load ∧ c3.id = 3 := by rw [D.m3]; exact ⟨rfl, rfl, rfl⟩
  have a4 : c4.isSlack = false ∧ c4.kind = .renewable ∧ c4.id = 4 := by rw [D.m4]; exact ⟨rfl, rfl, rfl⟩
  have a5 : c5.isSlack = false ∧ c5.kind = .load ∧ c5.id = 5 := by rw [D.m5]; exact ⟨rfl, rfl, rfl⟩
  have a6 : c6.isSlack = false ∧ c6.kind = .storage ∧ c6.id = 6 := by rw [D.m6]; exact ⟨rfl, rfl, rfl⟩
  have fl' : a.env.sim.devices.filter Device.isLoad = [c1, c3, c5] := by
    simp [D.list, a0, a1, a2, a3, a4, a5, a6, Device.isLoad]
  have fg' : a.env.sim.devices.filter Device.isNonSlackGen = [c2, c4] := by
    simp [D.list, a0, a1, a2, a3, a4, a5, a6, Device.isNonSlackGen, Device.isGen]
  have fs' : a.env.sim.devices.filter Device.isStorage = [c6] := by
    simp [D.list, a0, a1, a2, a3, a4, a5, a6, Device.isStorage]
  obtain ⟨D1, D2, -⟩ := i3
  simp only [fl', fg', List.cons_append, List.nil_append] at D1 D2
  obtain ⟨A, -⟩ := i4
  have hsl : slots a.env.sim = [(c2, true), (c4, true), (c2, false), (c4, false), (c6, true), (c6, false)] := by
    simp [slots, fg', fs']
  rw [hsl] at A
  have L1 : args.pLoad.get? 1 = some (.fin (l1 : ℝ)) := by
    obtain ⟨v, e1, e2⟩ := D1 0 c1 rfl; cases e1; rw [← a1.2.2]; exact e2
  have L3 : args.pLoad.get? 3 = some (.fin (l3 : ℝ)) := by
    obtain ⟨v, e1, e2⟩ := D1 1 c3 rfl; cases e1; rw [← a3.2.2]; exact e2
  have L5 : args.pLoad.get? 5 = some (.fin (l5 : ℝ)) := by
    obtain ⟨v, e1, e2⟩ := D1 2 c5 rfl; cases e1; rw [← a5.2.2]; exact e2
  have O2 : args.pPot.get? 2 = some (.fin (m2 : ℝ)) := by
    obtain ⟨v, e1, e2⟩ := D2 0 c2 rfl; cases e1; rw [← a2.2.2]; exact e2
  have O4 : args.pPot.get? 4 = some (.fin (m4 : ℝ)) := by
    obtain ⟨v, e1, e2⟩ := D2 1 c4 rfl; cases e1; rw [← a4.2.2]; exact e2
  have S2 : args.pSet.get? 2 = some (.fin p2) := by
    obtain ⟨v, e1, e2⟩ := A 0 c2 true rfl; cases e1; rw [← a2.2.2]; exact e2
  have S4 : args.pSet.get? 4 = some (.fin p4) := by
    obtain ⟨v, e1, e2⟩ := A 1 c4 true rfl; cases e1; rw [← a4.2.2]; exact e2
  have Q2 : args.qSet.get? 2 = some (.fin q2) := by
    obtain ⟨v, e1, e2⟩ := A 2 c2 false rfl; cases e1; rw [← a2.2.2]; exact e2
  have Q4 : args.qSet.get? 4 = some (.fin q4) := by
    obtain ⟨v, e1, e2⟩ := A 3 c4 false rfl; cases e1; rw [← a4.2.2]; exact e2
  have S6 : args.pSet.get? 6 = some (.fin p6) := by
    obtain ⟨v, e1, e2⟩ := A 4 c6 true rfl; cases e1; rw [← a6.2.2]; exact e2
  have Q6 : args.qSet.get? 6 = some (.fin q6) := by
    obtain ⟨v, e1, e2⟩ := A 5 c6 false rfl; cases e1; rw [← a6.2.2]; exact e2
  -- the devices after the step
  have hc' : SameConfig easySim e1.sim := easy_sameConfig ha'
  obtain ⟨f0, f1, f2, f3, f4, f5, f6, hfs, k0, k1, k2, k3, k4, k5, k6⟩ := easy_devices hc'
  have hmem : ∀ x ∈ [f0, f1, f2, f3, f4, f5, f6], x ∈ e1.sim.devices := fun x hx => hfs ▸ hx
  simp only [List.forall_mem_cons] at hmem
  obtain ⟨j0, j1, j2, j3, j4, j5, j6, -⟩ := hmem
  have h100 : (100 : ℝ) ≠ 0 := by norm_num
  have load : ∀ {f : Device ℝ} {i : ℤ} {l : ℚ} {lo : ℝ}, f ∈ e1.sim.devices → f.isLoad = true → f.isSlack = false → f.id = i →
      f.qpRatio = .fin (1/5) → args.pLoad.get? i = some (.fin (l : ℝ)) → f.pMin = .fin lo → f.pMax = .fin 0 → lo ≤ l / 100 → (l : ℝ) / 100 ≤ 0 →
      f.p = .fin ((l : ℝ) / 100) ∧ f.q = .fin ((l : ℝ) / 5 / 100) := by
    intro f i l lo hf h1 h0 h2 hr h3 h4 h5 h6 h7
    obtain ⟨v, ratio, c1, -, -, -, c2⟩ := C18_load_clip anm6_clean hsim i2 hf h1
    rw [h2, h3] at c1
    cases c1
    rw [X.fin_div_fin h100, h4, h5] at c2
    have e1 := c2 h6 h7
    refine ⟨e1, ?_⟩
    rw [load_ratio i2 hf h1 h0, e1, hr, X.fin_mul_fin]
    congr 1
    ring
  have cast : ∀ {x : ℚ} {lo : ℤ}, (lo : ℚ) ≤ x → (lo : ℝ) ≤ x := fun h => by exact_mod_cast h
  have cast' : ∀ {x : ℚ}, x ≤ 0 → (x : ℝ) / 100 ≤ 0 := fun {x} h => by
    have : (x : ℝ) ≤ 0 := by exact_mod_cast h
    linarith
  have u1 : (-10 : ℝ) ≤ l1 := by exact_mod_cast B1.1
  have u3 : (-30 : ℝ) ≤ l3 := by exact_mod_cast B3.1
  have u5 : (-30 : ℝ) ≤ l5 := by exact_mod_cast B5.1
  have R1 := load j1 (by rw [k1]; rfl) (by rw [k1]; rfl) (by rw [k1]; rfl) (by rw [k1]; rfl) L1 (by rw [k1]; rfl) (by rw [k1]; rfl)
    (by linarith) (cast' B1.2)
  have R3 := load j3 (by rw [k3]; rfl) (by rw [k3]; rfl) (by rw [k3]; rfl) (by rw [k3]; rfl) L3 (by rw [k3]; rfl) (by rw [k3]; rfl)
    (by linarith) (cast' B3.2)
  have R5 := load j5 (by rw [k5]; rfl) (by rw [k5]; rfl) (by rw [k5]; rfl) (by rw [k5]; rfl) L5 (by rw [k5]; rfl) (by rw [k5]; rfl)
    (by linarith) (cast' B5.2)
  have hsoc : c6.soc = some (.fin (e / 100)) := by
    have := D.soc
    cases hc : c6.soc with
    | none => rw [hc] at this; cases this
    | some x => rw [hc] at this; rw [← this]; rfl
  have hm6 : c6 ∈ a.env.sim.devices := by rw [D.list]; simp
  refine ⟨args, out, f0, f1, f2, f3, f4, f5, f6, i2, i5, hfs, ?_, ⟨by rw [k2]; rfl, by rw [k4]; rfl, by rw [k6]; rfl⟩,
    ⟨by rw [k2]; rfl, by rw [k2]; exact ⟨rfl, rfl, rfl, rfl, rfl, rfl, rfl⟩⟩,
    ⟨by rw [k4]; rfl, by rw [k4]; exact ⟨rfl, rfl, rfl, rfl, rfl, rfl, rfl⟩⟩,
    ⟨by rw [k6]; rfl, by rw [k6]; exact ⟨rfl, rfl, rfl, rfl, rfl, rfl, rfl, rfl, rfl, rfl, rfl⟩⟩, R1, R3, R5, O2, O4, ⟨S2, Q2⟩, ⟨S4, Q4⟩,
    ⟨S6, Q6⟩, ⟨E.e.1, E.e.2⟩, c6, hm6, a6.2.2, hsoc⟩
  rw [k0, k1, k2, k3, k4, k5, k6]
  exact ⟨rfl, rfl, rfl, rfl, rfl, rfl, rfl⟩

/-- **C109.** A step of ANM6Easy with an action that the devices can carry out gives the generators and the storage unit
exactly the requested powers, the loads the demands of the tables and a fifth of them as reactive powers; the energy of
the storage unit changes by the energy exchanged, whether or not the load flow converges. -/
theorem C109_applied (ha : EasyOf w s0 a) (hg : Fair w.rng) (G : GoodSolvers w.sim (easySim : Sim ℝ)) (hpf : NumericPF w.sim)
    (hy : a.env.dyn = some y) (ht : y.terminated = false) {p q g : ℕ → ℝ} {e : ℝ} {t : ℕ} (hv : EasyVector y.state p q g e t)
    {l1 l3 l5 m2 m4 : ℚ} (T : TableAt ((t + 1) % 96) l1 l3 l5 m2 m4) {p2 p4 q2 q4 p6 q6 : ℝ} (C : CanDo m2 m4 e p2 p4 q2 q4 p6 q6)
    {o : Env.StepOut ℝ} (h : a.step (easyCtx w s0) [.fin p2, .fin p4, .fin q2, .fin q4, .fin p6, .fin q6] = .ok (a', o)) :
    ∃ args out d0 d1 d2 d3 d4 d5 d6, a.env.sim.transition w.sim args = .ok (a'.env.sim, out) ∧ o.terminated = !out.converged ∧
      Injects a'.env.sim (powers l1 p2 l3 p4 l5 p6) (powers (l1 / 5) q2 (l3 / 5) q4 (l5 / 5) q6) d0 d1 d2 d3 d4 d5 d6 ∧
      d6.soc = some (.fin (after e p6 / 100)) := by
  obtain ⟨args, out, d0, d1, d2, d3, d4, d5, d6, i2, i5, I⟩ := easy_inputs ha hg G hpf hy ht hv T h
  have hsim : SimOf anm6Net (.fin (1/4)) (.fin 100) a.env.sim := envOf_simOf (easy_env ha)
  have hkeep : QPKeeps w.sim.qp := qpExact_keeps G.exact
  have hmem : ∀ x ∈ [d0, d1, d2, d3, d4, d5, d6], x ∈ a'.env.sim.devices := fun x hx => I.list ▸ hx
  simp only [List.forall_mem_cons] at hmem
  obtain ⟨j0, j1, j2, j3, j4, j5, j6, -⟩ := hmem
  obtain ⟨e2, e4, e6⟩ := I.id
  obtain ⟨⟨E1, E2⟩, c6, hm6, hc6, hsoc⟩ := I.soc
  have R2 : d2.p = .fin (p2 / 100) ∧ d2.q = .fin (q2 / 100) :=
    C89_generator (g := easyGen2) (pot := (m2 : ℝ)) (p := p2) (q := q2) anm6_clean hsim hkeep i2 j2 I.gen2.1 I.gen2.2
      (by rw [e2]; exact I.pot2) (by rw [e2]; exact I.set2.1) (by rw [e2]; exact I.set2.2) C.gen2
  have R4 : d4.p = .fin (p4 / 100) ∧ d4.q = .fin (q4 / 100) :=
    C89_generator (g := easyGen4) (pot := (m4 : ℝ)) (p := p4) (q := q4) anm6_clean hsim hkeep i2 j4 I.gen4.1 I.gen4.2
      (by rw [e4]; exact I.pot4) (by rw [e4]; exact I.set4.1) (by rw [e4]; exact I.set4.2) C.gen4
  obtain ⟨R61, R62, R63⟩ := C89_storage (g := easyDes) (p := p6) (q := q6) (soc := e / 100) anm6_clean hsim (by norm_num) hkeep i2 j6
      I.des.1 I.des.2 (by norm_num [easyDes]) hm6 (by rw [e6, hc6]) hsoc (by simp only [easyDes]; linarith) (by simp only [easyDes]; linarith)
      (by rw [e6]; exact I.set6.1) (by rw [e6]; exact I.set6.2) C.des
  refine ⟨args, out, d0, d1, d2, d3, d4, d5, d6, i2, i5, ⟨I.list, I.bus, I.pq1, R2, I.pq3, R4, I.pq5, ⟨R61, R62⟩⟩, ?_⟩
  rw [R63]
  simp only [easyDes, after]
  congr 2
  split <;> norm_num <;> ring

end

end Anm
