import Verif.Props.Kept
import Verif.Props.EnvMade
import Verif.Props.MpcEasy

/-! # C90: the environment carries out the plans of the MPC agent with perfect forecasts -/

set_option linter.unusedSectionVars false

namespace Anm

open Spec

noncomputable section

variable {ρ : Type} {w : EasyWorld ℝ ρ} {s0 : Sim ℝ} {a a' : Anm6 ℝ ρ} {y : EnvDyn ℝ} {cv : Cvx ℝ} {m : Mpc ℝ}

/-- The demands and potentials of the next step are 100 times the first perfect forecasts. -/
theorem forecast_next (ha : EasyOf w s0 a) (hg : Fair w.rng) (G : GoodSolvers w.sim (easySim : Sim ℝ))
    (hy : a.env.dyn = some y) (ht : y.terminated = false) {Y : ℕ → ℕ → ℝ}
    (hm : AgentOf (easyCtx w s0) easyArgs cv Y m a.env) (hN : 0 < m.steps) :
    ∃ (r1 r3 r5 r2 r4 : List (X ℝ)) (l1 l3 l5 g2 g4 : ℝ) (t' : X ℝ), m.perfectForecast y.state = .ok ([r1, r3, r5], [r2, r4]) ∧
      r1[0]? = some (.fin l1) ∧ r3[0]? = some (.fin l3) ∧ r5[0]? = some (.fin l5) ∧ r2[0]? = some (.fin g2) ∧
      r4[0]? = some (.fin g4) ∧ -1/10 ≤ l1 ∧ l1 ≤ 0 ∧ -3/10 ≤ l3 ∧ l3 ≤ 0 ∧ -3/10 ≤ l5 ∧ l5 ≤ 0 ∧
      easyNext y.state = .ok [.fin (100 * l1), .fin (100 * l3), .fin (100 * l5), .fin (100 * g2), .fin (100 * g4), t'] := by
  obtain ⟨t, -, y', hy', hst⟩ := ((easy_live ha hg G).2 y hy).2.1 ht
  rw [hy] at hy'
  cases hy'
  obtain ⟨he, γ, β, n, I⟩ := agentOf_inv hm
  have hbase : m.baseMVA = .fin 100 := by rw [I.base, (simOf_base (envOf_simOf he)).1]; rfl
  obtain ⟨l, g, f1, f2⟩ := perfect_series hbase (by norm_num) hst
  obtain ⟨l', g', l1, l3, l5, g2, g4, f3, F⟩ := easy_perfect ha hg G hy hm
  rw [f1] at f3
  cases f3
  obtain ⟨v, hv, xs, rfl, hex⟩ := easyNext_clock hst
  have hL := f2 loadSeries l (.inl ⟨rfl, rfl⟩)
  have hG := f2 genSeries g (.inr ⟨rfl, rfl⟩)
  rw [F.load] at hL
  rw [F.gen] at hG
  have hA := List.rel_append hL hG
  have key : ∀ {A : List (List ℚ)} {rows : List (List (X ℝ))} {xs : List (X ℝ)},
      List.Forall₂ (fun (s : List ℚ) row => row.length = m.steps ∧ ∀ j < m.steps, ∃ q : ℚ, s[(t + 1 + j) % 96]? = some q ∧
        row[j]? = some (.fin ((q : ℝ) / 100))) A rows →
      List.Forall₂ (fun s x => ∃ q : ℚ, s[(t + 1) % 96]? = some q ∧ x = .fin (q : ℝ)) A xs →
      List.Forall₂ (fun (row : List (X ℝ)) x => ∀ f : ℝ, row[0]? = some (.fin f) → x = .fin (100 * f)) rows xs := by
    intro A rows xs h1 h2
    induction h1 generalizing xs with
    | nil => cases h2; exact .nil
    | cons e1 _ ih =>
      cases h2 with
      | cons e2 h2 =>
        refine .cons (fun f hf => ?_) (ih h2)
        obtain ⟨q, i1, i2⟩ := e1.2 0 hN
        obtain ⟨q', i3, rfl⟩ := e2
        rw [Nat.add_zero, i3] at i1
        cases i1
        rw [hf] at i2
        simp only [Option.some.injEq, X.fin.injEq] at i2
        rw [i2]; congr 1; ring
  have hB := key hA hex
  simp only [List.cons_append, List.nil_append] at hB
  have h0 : ∀ f : ℕ → ℝ, ((List.range m.steps).map fun k => X.fin (f k))[0]? = some (.fin (f 0)) :=
    fun f => getElem?_range_map hN
  obtain ⟨x1, m1, rfl, b1, hB1⟩ := forall₂_cons_inv hB
  obtain ⟨x3, m3, rfl, b3, hB3⟩ := forall₂_cons_inv hB1
  obtain ⟨x5, m5, rfl, b5, hB5⟩ := forall₂_cons_inv hB3
  obtain ⟨x2, m2, rfl, b2, hB2⟩ := forall₂_cons_inv hB5
  obtain ⟨x4, m4, rfl, b4, hB4⟩ := forall₂_cons_inv hB2
  cases hB4
  rw [b1 _ (h0 l1), b3 _ (h0 l3), b5 _ (h0 l5), b2 _ (h0 g2), b4 _ (h0 g4)] at hv
  exact ⟨_, _, _, _, _, l1 0, l3 0, l5 0, g2 0, g4 0, _, by rw [f1, F.load, F.gen], h0 l1, h0 l3, h0 l5, h0 g2, h0 g4,
    (F.l1 0 hN).1, (F.l1 0 hN).2, (F.l3 0 hN).1, (F.l3 0 hN).2, (F.l5 0 hN).1, (F.l5 0 hN).2, hv⟩

/-- The limits of generator 2, generator 4 and the storage unit of ANM6. -/
def easyGen2 : GenParams ℝ := ⟨0, 3/10, -(3/10), 3/10, 1/5, 3/20, -(3/20)⟩
def easyGen4 : GenParams ℝ := ⟨0, 1/2, -(1/2), 1/2, 7/20, 1/5, -(1/5)⟩
def easyDes : DesParams ℝ := ⟨-1/2, 1/2, -1/2, 1/2, 3/10, -3/10, 1/4, -1/4, 0, 1, 9/10⟩

theorem easyGen2_region {pot p : ℝ} (h1 : 0 ≤ p) (h2 : p ≤ 3/10) (h3 : p ≤ pot) : GenRegion easyGen2 pot p 0 := by
  constructor <;> (try simp only [easyGen2, lineAt])
  · exact h1
  · exact h2
  · exact h3
  · norm_num
  · norm_num
  · intro; norm_num; linarith
  · intro; norm_num; linarith

theorem easyGen4_region {pot p : ℝ} (h1 : 0 ≤ p) (h2 : p ≤ 1/2) (h3 : p ≤ pot) : GenRegion easyGen4 pot p 0 := by
  constructor <;> (try simp only [easyGen4, lineAt])
  · exact h1
  · exact h2
  · exact h3
  · norm_num
  · norm_num
  · intro; norm_num; linarith
  · intro; norm_num; linarith

theorem easyDes_region {z p : ℝ} (h1 : -1/2 ≤ p) (h2 : p ≤ 1/2) (h3 : z - 1 ≤ p * (1/4 * (9/10))) (h4 : p * (1/4) ≤ 9/10 * z) :
    DesRegion easyDes (1/4) z p 0 := by
  constructor <;> simp only [easyDes, lineAt]
  · exact h1
  · exact h2
  · norm_num
  · norm_num
  · intro; norm_num; linarith
  · intro; norm_num; linarith
  · intro; norm_num; linarith
  · intro; norm_num; linarith
  · rw [div_le_iff₀ (by norm_num)]; exact h3
  · rw [le_div_iff₀ (by norm_num), sub_zero]; exact h4

set_option maxHeartbeats 1000000 in
/-- **C90.** In a state of ANM6Easy that is not terminal, the agent with perfect forecasts plans, and `step`
with its action carries out the first stage of that plan.  The loads and the generators other than the slack
get exactly the planned active powers, and the generators no reactive power.  So does the storage unit,
if the plan does not ask it to charge and discharge at the same time; its state of charge is then the planned
one. -/
theorem C90_applied (ha : EasyOf w s0 a) (hg : Fair w.rng) (G : GoodSolvers w.sim (easySim : Sim ℝ))
    (hy : a.env.dyn = some y) (ht : y.terminated = false) (hm : AgentOf (easyCtx w s0) easyArgs cv (bBus easyLines) m a.env)
    (hN : 0 < m.steps) (hcv : SolvesPlans cv 7 3 2 1 m.steps) :
    ∃ fc z x u, forecastOf m true a y = .ok fc ∧ m.socs a.env.sim = .ok [.fin z] ∧
      (∀ k < m.steps, PlanAt a.env.sim easyLines (1/4) fc.1 fc.2 [z] x k) ∧ m.act cv Real.pi a.env.sim fc = .ok u ∧
      ∀ a' o, a.step (easyCtx w s0) u = .ok (a', o) → ∀ (j : ℕ) (d : Device ℝ), a'.env.sim.devices[j]? = some d →
        (d.kind = .load → d.p = .fin (power x 0 j)) ∧
        (d.kind = .classical ∨ d.kind = .renewable → d.isSlack = false → d.p = .fin (power x 0 j) ∧ d.q = .fin 0) ∧
        (d.kind = .storage → 0 ≤ power x 0 j ∨ (x 0).dis 0 = 0 → d.p = .fin (power x 0 j) ∧ d.q = .fin 0) ∧
        (d.kind = .storage → (x 0).ch 0 = 0 ∨ (x 0).dis 0 = 0 → d.soc = some (.fin (plannedSoc x 0 (1/4) (9/10) z 1))) := by
  obtain ⟨fc, z, x, u, hf, hz, hplan, hact, -, hu⟩ := C88_act ha hg G hy hm hN hcv true
  refine ⟨fc, z, x, u, hf, hz, hplan, hact, fun a' o hstep => ?_⟩
  obtain ⟨r1, r3, r5, r2, r4, l1, l3, l5, g2, g4, t', hfc, q1, q3, q5, q2, q4, b11, b12, b31, b32, b51, b52, hnext⟩ :=
    forecast_next ha hg G hy ht hm hN
  have hf' : m.perfectForecast y.state = .ok fc := hf
  rw [hfc] at hf'
  cases hf'
  obtain ⟨z', hz', z1, z2, dz, hdz, hdz1, hdz2⟩ := easy_soc ha hg G hy hm
  rw [hz] at hz'
  cases hz'
  obtain ⟨e, dd, dd0, h1, _, _, rfl⟩ := anm6_step_ok hstep
  obtain ⟨vars, args, out, i1, i2, i3, i4⟩ := step_inputs (easy_env ha) h1 hy ht
  have hv : vars = [.fin (100 * l1), .fin (100 * l3), .fin (100 * l5), .fin (100 * g2), .fin (100 * g4), t'] := by
    simp only [easyCtx, hnext, Except.map] at i1
    exact (Prod.mk.inj (Except.ok.inj i1)).1.symm
  have hsim : SimOf anm6Net (.fin (1/4)) (.fin 100) a.env.sim := envOf_simOf (easy_env ha)
  have hkeep : QPKeeps w.sim.qp := qpExact_keeps G.exact
  -- the devices before the step
  obtain ⟨d0, d1, d2, d3, d4, d5, d6, hds, k0, k1, k2, k3, k4, k5, k6⟩ := easy_devices (easy_sameConfig ha)
  have a0 : d0.isSlack = true ∧ d0.kind = .classical := by rw [k0]; exact ⟨rfl, rfl⟩
  have a1 : d1.isSlack = false ∧ d1.kind = .load ∧ d1.id = 1 := by rw [k1]; exact ⟨rfl, rfl, rfl⟩
  have a2 : d2.isSlack = false ∧ d2.kind = .renewable ∧ d2.id = 2 := by rw [k2]; exact ⟨rfl, rfl, rfl⟩
  have a3 : d3.isSlack = false ∧ d3.kind = .load ∧ d3.id = 3 := by rw [k3]; exact ⟨rfl, rfl, rfl⟩
  have a4 : d4.isSlack = false ∧ d4.kind = .renewable ∧ d4.id = 4 := by rw [k4]; exact ⟨rfl, rfl, rfl⟩
  have a5 : d5.isSlack = false ∧ d5.kind = .load ∧ d5.id = 5 := by rw [k5]; exact ⟨rfl, rfl, rfl⟩
  have a6 : d6.isSlack = false ∧ d6.kind = .storage ∧ d6.id = 6 := by rw [k6]; exact ⟨rfl, rfl, rfl⟩
  have fl : (a.env.sim.devices.filter fun d => d.kind = .load) = [d1, d3, d5] := by
    simp [hds, a0, a1, a2, a3, a4, a5, a6]
  have fg : (a.env.sim.devices.filter fun d => (d.kind = .classical ∨ d.kind = .renewable) ∧ d.isSlack = false) = [d2, d4] := by
    simp [hds, a0, a1, a2, a3, a4, a5, a6]
  have fs : (a.env.sim.devices.filter fun d => d.kind = .storage) = [d6] := by
    simp [hds, a0, a1, a2, a3, a4, a5, a6]
  have fl' : a.env.sim.devices.filter Device.isLoad = [d1, d3, d5] := by
    simp [hds, a0, a1, a2, a3, a4, a5, a6, Device.isLoad]
  have fg' : a.env.sim.devices.filter Device.isNonSlackGen = [d2, d4] := by
    simp [hds, a0, a1, a2, a3, a4, a5, a6, Device.isNonSlackGen, Device.isGen]
  have fs' : a.env.sim.devices.filter Device.isStorage = [d6] := by
    simp [hds, a0, a1, a2, a3, a4, a5, a6, Device.isStorage]
  -- the plan
  have P0 := hplan 0 hN
  have p1 := P0.load 0 1 d1 r1 _ (by rw [fl]; rfl) (by rw [hds]; rfl) rfl q1
  have p3 := P0.load 1 3 d3 r3 _ (by rw [fl]; rfl) (by rw [hds]; rfl) rfl q3
  have p5 := P0.load 2 5 d5 r5 _ (by rw [fl]; rfl) (by rw [hds]; rfl) rfl q5
  simp only [X.fin.injEq] at p1 p3 p5
  obtain ⟨p21, p22, p23⟩ := P0.gen 0 2 d2 r2 _ (by rw [fg]; rfl) (by rw [hds]; rfl) rfl q2
  obtain ⟨p41, p42, p43⟩ := P0.gen 1 4 d4 r4 _ (by rw [fg]; rfl) (by rw [hds]; rfl) rfl q4
  obtain ⟨p61, p62, pch, pdis, pnet⟩ := P0.des 0 6 d6 (by rw [fs]; rfl) (by rw [hds]; rfl)
  obtain ⟨ps1, ps2⟩ := P0.soc 0 d6 z (9/10) (by rw [fs]; rfl) rfl (by rw [k6]; rfl)
  rw [show d2.pMin = .fin 0 by rw [k2]; rfl, X.fin_le_fin] at p21
  rw [show d2.pMax = .fin (3/10) by rw [k2]; rfl, X.fin_le_fin] at p22
  rw [show d4.pMin = .fin 0 by rw [k4]; rfl, X.fin_le_fin] at p41
  rw [show d4.pMax = .fin (1/2) by rw [k4]; rfl, X.fin_le_fin] at p42
  rw [X.fin_le_fin] at p23 p43
  rw [show d6.pMin = .fin (-1/2) by rw [k6]; rfl, X.fin_le_fin] at p61
  rw [show d6.pMax = .fin (1/2) by rw [k6]; rfl, X.fin_le_fin] at p62
  rw [show d6.socMin = .fin 0 by rw [k6]; rfl, X.fin_le_fin] at ps1
  rw [show d6.socMax = .fin 1 by rw [k6]; rfl, X.fin_le_fin] at ps2
  simp only [plannedSoc] at ps1 ps2
  -- the inputs of the transition
  obtain ⟨D1, D2, -⟩ := i3
  simp only [fl', fg', hv] at D1 D2
  obtain ⟨A, -⟩ := i4
  have hsl : slots a.env.sim = [(d2, true), (d4, true), (d2, false), (d4, false), (d6, true), (d6, false)] := by
    simp [slots, fg', fs']
  rw [hsl, hu] at A
  have L1 : args.pLoad.get? 1 = some (.fin (100 * l1)) := by
    obtain ⟨v, e1, e2⟩ := D1 0 d1 rfl; cases e1; rw [← a1.2.2]; exact e2
  have L3 : args.pLoad.get? 3 = some (.fin (100 * l3)) := by
    obtain ⟨v, e1, e2⟩ := D1 1 d3 rfl; cases e1; rw [← a3.2.2]; exact e2
  have L5 : args.pLoad.get? 5 = some (.fin (100 * l5)) := by
    obtain ⟨v, e1, e2⟩ := D1 2 d5 rfl; cases e1; rw [← a5.2.2]; exact e2
  have O2 : args.pPot.get? 2 = some (.fin (100 * g2)) := by
    obtain ⟨v, e1, e2⟩ := D2 0 d2 rfl; cases e1; rw [← a2.2.2]; exact e2
  have O4 : args.pPot.get? 4 = some (.fin (100 * g4)) := by
    obtain ⟨v, e1, e2⟩ := D2 1 d4 rfl; cases e1; rw [← a4.2.2]; exact e2
  have S2 : args.pSet.get? 2 = some (.fin (100 * power x 0 2)) := by
    obtain ⟨v, e1, e2⟩ := A 0 d2 true rfl; cases e1; rw [← a2.2.2]; exact e2
  have S4 : args.pSet.get? 4 = some (.fin (100 * power x 0 4)) := by
    obtain ⟨v, e1, e2⟩ := A 1 d4 true rfl; cases e1; rw [← a4.2.2]; exact e2
  have Q2 : args.qSet.get? 2 = some (.fin 0) := by
    obtain ⟨v, e1, e2⟩ := A 2 d2 false rfl; cases e1; rw [← a2.2.2]; exact e2
  have Q4 : args.qSet.get? 4 = some (.fin 0) := by
    obtain ⟨v, e1, e2⟩ := A 3 d4 false rfl; cases e1; rw [← a4.2.2]; exact e2
  have S6 : args.pSet.get? 6 = some (.fin (100 * power x 0 6)) := by
    obtain ⟨v, e1, e2⟩ := A 4 d6 true rfl; cases e1; rw [← a6.2.2]; exact e2
  have Q6 : args.qSet.get? 6 = some (.fin 0) := by
    obtain ⟨v, e1, e2⟩ := A 5 d6 false rfl; cases e1; rw [← a6.2.2]; exact e2
  -- the devices after the step
  have hc' : SameConfig easySim e.sim := easy_sameConfig (ha.step hstep)
  obtain ⟨f0, f1, f2, f3, f4, f5, f6, hfs, m0, m1, m2, m3, m4, m5, m6⟩ := easy_devices hc'
  have hmem : ∀ x ∈ [f0, f1, f2, f3, f4, f5, f6], x ∈ e.sim.devices := fun x hx => hfs ▸ hx
  simp only [List.forall_mem_cons] at hmem
  obtain ⟨n0, n1, n2, n3, n4, n5, n6, -⟩ := hmem
  have h100 : (100 : ℝ) ≠ 0 := by norm_num
  have hdiv : ∀ v : ℝ, (X.fin (100 * v) / X.fin 100 : X ℝ) = .fin v := by
    intro v; rw [X.fin_div_fin h100]; congr 1; field_simp
  have hdiv' : ∀ v : ℝ, 100 * v / 100 = v := fun v => by field_simp
  have load : ∀ {f : Device ℝ} {i : ℤ} {l lo : ℝ}, f ∈ e.sim.devices → f.isLoad = true → f.id = i →
      args.pLoad.get? i = some (.fin (100 * l)) → f.pMin = .fin lo → f.pMax = .fin 0 → lo ≤ l → l ≤ 0 → f.p = .fin l := by
    intro f i l lo hf h1 h2 h3 h4 h5 h6 h7
    obtain ⟨v, ratio, c1, -, -, -, c2⟩ := C18_load_clip anm6_clean hsim i2 hf h1
    rw [h2, h3] at c1
    cases c1
    rw [hdiv, h4, h5] at c2
    exact c2 h6 h7
  have R1 : f1.p = .fin l1 := load n1 (by rw [m1]; rfl) (by rw [m1]; rfl) L1 (by rw [m1]; rfl) (by rw [m1]; rfl) b11 b12
  have R3 : f3.p = .fin l3 := load n3 (by rw [m3]; rfl) (by rw [m3]; rfl) L3 (by rw [m3]; rfl) (by rw [m3]; rfl) b31 b32
  have R5 : f5.p = .fin l5 := load n5 (by rw [m5]; rfl) (by rw [m5]; rfl) L5 (by rw [m5]; rfl) (by rw [m5]; rfl) b51 b52
  have R2 : f2.p = .fin (power x 0 2) ∧ f2.q = .fin 0 := by
    have e2 : f2.id = 2 := by rw [m2]; rfl
    have := C89_generator (g := easyGen2) (pot := 100 * g2) (p := 100 * power x 0 2) (q := 0) anm6_clean hsim hkeep i2 n2
      (by rw [m2]; rfl) (by rw [m2]; exact ⟨rfl, rfl, rfl, rfl, rfl, rfl, rfl⟩) (by rw [e2]; exact O2) (by rw [e2]; exact S2)
      (by rw [e2]; exact Q2) (by rw [hdiv', hdiv', zero_div]; exact easyGen2_region p21 p22 p23)
    rwa [hdiv', zero_div] at this
  have R4 : f4.p = .fin (power x 0 4) ∧ f4.q = .fin 0 := by
    have e4 : f4.id = 4 := by rw [m4]; rfl
    have := C89_generator (g := easyGen4) (pot := 100 * g4) (p := 100 * power x 0 4) (q := 0) anm6_clean hsim hkeep i2 n4
      (by rw [m4]; rfl) (by rw [m4]; exact ⟨rfl, rfl, rfl, rfl, rfl, rfl, rfl⟩) (by rw [e4]; exact O4) (by rw [e4]; exact S4)
      (by rw [e4]; exact Q4) (by rw [hdiv', hdiv', zero_div]; exact easyGen4_region p41 p42 p43)
    rwa [hdiv', zero_div] at this
  have hdz6 : dz = d6 := by
    have : dz ∈ a.env.sim.devices.filter Device.isStorage := List.mem_filter.2 ⟨hdz, hdz1⟩
    rw [fs'] at this
    simpa using this
  subst hdz6
  have R6 : 0 ≤ power x 0 6 ∨ (x 0).dis 0 = 0 → f6.p = .fin (power x 0 6) ∧ f6.q = .fin 0 ∧
      f6.soc = some (.fin (if power x 0 6 ≤ 0 then z - 1/4 * (9/10) * power x 0 6 else z - 1/4 * power x 0 6 / (9/10))) := by
    intro hor
    have e6 : f6.id = 6 := by rw [m6]; rfl
    have := C89_storage (g := easyDes) (p := 100 * power x 0 6) (q := 0) (soc := z) anm6_clean hsim (by norm_num) hkeep i2 n6
      (by rw [m6]; rfl) (by rw [m6]; exact ⟨rfl, rfl, rfl, rfl, rfl, rfl, rfl, rfl, rfl, rfl, rfl⟩) (by norm_num [easyDes]) hdz
      (by rw [e6, a6.2.2]) hdz2 z1 z2 (by rw [e6]; exact S6) (by rw [e6]; exact Q6) (by
        rw [hdiv', zero_div]
        refine easyDes_region p61 p62 ?_ (by linarith)
        rcases hor with h | h
        · linarith
        · rw [h] at pnet ps2
          linarith)
    rw [hdiv', zero_div] at this
    obtain ⟨c1, c2, c3⟩ := this
    refine ⟨c1, c2, ?_⟩
    rw [c3]
    have : 100 * power x 0 6 ≤ 0 ↔ power x 0 6 ≤ 0 := by constructor <;> intro <;> linarith
    simp only [this, easyDes]
  intro j d hj
  have hj : e.sim.devices[j]? = some d := hj
  have b0 : f0.isSlack = true ∧ f0.kind = .classical := by rw [m0]; exact ⟨rfl, rfl⟩
  have b1 : f1.kind = .load := by rw [m1]; rfl
  have b2 : f2.kind = .renewable := by rw [m2]; rfl
  have b3 : f3.kind = .load := by rw [m3]; rfl
  have b4 : f4.kind = .renewable := by rw [m4]; rfl
  have b5 : f5.kind = .load := by rw [m5]; rfl
  have b6 : f6.kind = .storage := by rw [m6]; rfl
  rw [hfs] at hj
  match j, hj with
  | 0, hj => cases hj; simp [b0]
  | 1, hj => cases hj; simp [b1, R1, p1]
  | 2, hj => cases hj; simp [b2, R2]
  | 3, hj => cases hj; simp [b3, R3, p3]
  | 4, hj => cases hj; simp [b4, R4]
  | 5, hj => cases hj; simp [b5, R5, p5]
  | 6, hj =>
    cases hj
    refine ⟨by simp [b6], by simp [b6], fun _ h => ⟨(R6 h).1, (R6 h).2.1⟩, fun _ h => ?_⟩
    have h' : 0 ≤ power x 0 6 ∨ (x 0).dis 0 = 0 := by
      rcases h with h | h
      · left; rw [pnet, h]; linarith
      · exact .inr h
    rw [(R6 h').2.2]
    simp only [plannedSoc]
    congr 2
    rcases h with h | h
    · rw [h] at pnet ⊢
      split_ifs with h0
      · have : power x 0 6 = 0 := le_antisymm h0 (by linarith)
        rw [this] at pnet ⊢
        have : (x 0).dis 0 = 0 := by linarith
        rw [this]; ring
      · rw [pnet]; ring
    · rw [h] at pnet ⊢
      rw [if_pos (by linarith), pnet]; ring
  | j + 7, hj => simp at hj

/-- C90 in a case that meets all hypotheses: the agent acts after a reset, the environment accepts the action and
carries out the plan. -/
example : ∃ (m : Mpc ℝ) (a a' : Anm6 ℝ ℕ) (x : Plan ℝ) (u : List (X ℝ)) (o : Env.StepOut ℝ) (d2 d5 : Device ℝ), m.steps = 10 ∧
    a.step (easyCtx calmWorld easySim) u = .ok (a', o) ∧ a'.env.sim.devices[2]? = some d2 ∧
    a'.env.sim.devices[5]? = some d5 ∧ d2.p = .fin (power x 0 2) ∧ d5.p = .fin (power x 0 5) := by
  obtain ⟨a, a1, obs, y, d, ha, h, hy, ht, hd, hlt⟩ := calm_start
  obtain ⟨m, -, hs, hm⟩ := C88_agent (ha.reset h) (exactCvx 7) (bBus easyLines) (.fin 1) (.fin (9/10)) (N := 10) (by norm_num)
  have hN : 0 < m.steps := by rw [hs]; norm_num
  obtain ⟨fc, z, x, u, h1, h2, h3, h4, h5⟩ := C90_applied (ha.reset h) fair_real calm_good hy ht hm hN (exactCvx_solves 7 3 2 1 m.steps)
  obtain ⟨fc', z', x', u', g1, -, -, g4, g5, -⟩ :=
    C88_act (ha.reset h) fair_real calm_good hy hm hN (exactCvx_solves 7 3 2 1 m.steps) true
  rw [h1] at g1
  cases g1
  rw [h4] at g4
  cases g4
  rcases C83_step (ha.reset h) fair_real calm_good hy g5 with ⟨a', o, hst⟩ | ⟨-, dd, e1, e2⟩
  · obtain ⟨f0, f1, f2, f3, f4, f5, f6, hfs, m0, m1, m2, m3, m4, m5, m6⟩ := easy_devices (easy_sameConfig ((ha.reset h).step hst))
    have r2 := (h5 a' o hst 2 f2 (by rw [hfs]; rfl)).2.1 (.inr (by rw [m2]; rfl)) (by rw [m2]; rfl)
    have r5 := (h5 a' o hst 5 f5 (by rw [hfs]; rfl)).1 (by rw [m5]; rfl)
    exact ⟨m, a1, a', x, u, o, f2, f5, hs, hst, by rw [hfs]; rfl, by rw [hfs]; rfl, r2.1, r5⟩
  · rw [hd] at e1
    cases e1
    omega

end

end Anm
