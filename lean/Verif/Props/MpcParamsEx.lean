import Verif.Props.MpcParams
import Verif.Props.MpcEasy
import Verif.Props.MpcDemo

/-! # Cases of C137 and C138 -/

set_option linter.unusedSectionVars false

namespace Anm
open Spec

/-- The demo network over two stages and over one: the hypotheses of `C137_horizon` and `C137_feasible`. -/
example : ∃ (s : Sim ℚ) (m m1 m2 : Mpc ℚ), mkMpc (fixedCvx none) s demoY demoBox (.fin (99/100)) (.fin (9/10)) 2 = .ok m ∧
    mkMpc (fixedCvx none) s demoY demoBox (.fin (1/2)) (.fin (8/10)) 1 = .ok m1 ∧
    mkMpc (fixedCvx none) s demoY demoBox (.fin (1/2)) (.fin (8/10)) 2 = .ok m2 ∧
    FeasiblePlan (22/7) m demoLoads demoGens [.fin (1/2)] demoPlan ∧ FeasiblePlan (22/7) m2 demoLoads demoGens [.fin (1/2)] demoPlan ∧
    FeasiblePlan (22/7) m1 [[.fin (-5/100)]] [[.fin (1/5)]] [.fin (1/2)] demoPlan := by
  obtain ⟨s, m, h1, h2, h3, h4, h5, h6, h7, h8⟩ := demoPlan_ok
  have mk : ∀ N, 0 < N → ∃ m', mkMpc (fixedCvx none) s demoY demoBox (.fin (1/2)) (.fin (8/10)) N = .ok m' := by
    intro N hN
    have h := h4
    unfold mkMpc at h ⊢
    simp only [bind_ok, guardE_ok, pure_ok] at h ⊢
    obtain ⟨i, k1, _, k2, -⟩ := h
    exact ⟨_, i, k1, (), .inl rfl, rfl⟩
  obtain ⟨m1, hm1⟩ := mk 1 (by norm_num)
  obtain ⟨m2, hm2⟩ := mk 2 (by norm_num)
  exact ⟨s, m, m1, m2, h4, hm1, hm2, h7, (C137_feasible h4 hm2).1 h7, C137_horizon hm1 h4 (by norm_num) (by norm_num) h7⟩

/-- A forecast of more power: the hypothesis of `C137_potential`. -/
example : ∃ m : Mpc ℚ, FeasiblePlan (22/7) m demoLoads [[.fin (1/5), .fin (1/4)]] [.fin (1/2)] demoPlan := by
  obtain ⟨s, m, h1, h2, h3, h4, h5, h6, h7, h8⟩ := demoPlan_ok
  refine ⟨m, C137_potential (.cons (.cons ?_ (.cons ?_ .nil)) .nil) h7⟩ <;> rw [X.fin_le_fin] <;> norm_num

/-- The solar farm of ANM6 serves a part `g` of the demand next to it. -/
noncomputable def sunnyPlan (l1 l3 l5 g : ℕ → ℝ) : Plan ℝ := fun k =>
  { idlePlan (fun k => l1 k + g k) l3 l5 k with
    p := fun j => if j = 1 then l1 k else if j = 2 then g k else (idlePlan (fun k => l1 k + g k) l3 l5 k).p j }

theorem sunnyPlan_at {s : Sim ℝ} (hc : SameConfig easySim s) {N : ℕ} {load gen : List (List (X ℝ))} {l1 l3 l5 g2 g4 g : ℕ → ℝ}
    (hf : EasyForecast N load gen l1 l3 l5 g2 g4) (hg : ∀ k < N, 0 ≤ g k ∧ g k ≤ g2 k ∧ l1 k + g k ≤ 0) {z : ℝ} (hz : 0 ≤ z ∧ z ≤ 1) {k : ℕ} (hk : k < N) :
    PlanAt s easyLines (1/4) load gen [z] (sunnyPlan l1 l3 l5 g) k := by
  have I := idlePlan_at hc (N := N) (l1 := fun k => l1 k + g k) (l3 := l3) (l5 := l5) (g2 := g2) (g4 := g4) ⟨rfl, hf.gen,
    fun k hk => ⟨by linarith [(hf.l1 k hk).1, (hg k hk).1], (hg k hk).2.2⟩, hf.l3, hf.l5, hf.g2, hf.g4⟩ hz hk
  obtain ⟨d0, d1, d2, d3, d4, d5, d6, hds, k0, k1, k2, k3, k4, k5, k6⟩ := easy_devices hc
  have a0 : d0.id = 0 ∧ d0.busId = 0 ∧ d0.kind = .classical ∧ d0.isSlack = true := by rw [k0]; exact ⟨rfl, rfl, rfl, rfl⟩
  have a1 : d1.id = 1 ∧ d1.busId = 3 ∧ d1.kind = .load ∧ d1.isSlack = false := by rw [k1]; exact ⟨rfl, rfl, rfl, rfl⟩
  have a2 : d2.id = 2 ∧ d2.busId = 3 ∧ d2.kind = .renewable ∧ d2.isSlack = false := by rw [k2]; exact ⟨rfl, rfl, rfl, rfl⟩
  have a3 : d3.id = 3 ∧ d3.busId = 4 ∧ d3.kind = .load ∧ d3.isSlack = false := by rw [k3]; exact ⟨rfl, rfl, rfl, rfl⟩
  have a4 : d4.id = 4 ∧ d4.busId = 4 ∧ d4.kind = .renewable ∧ d4.isSlack = false := by rw [k4]; exact ⟨rfl, rfl, rfl, rfl⟩
  have a5 : d5.id = 5 ∧ d5.busId = 5 ∧ d5.kind = .load ∧ d5.isSlack = false := by rw [k5]; exact ⟨rfl, rfl, rfl, rfl⟩
  have a6 : d6.id = 6 ∧ d6.busId = 5 ∧ d6.kind = .storage ∧ d6.isSlack = false := by rw [k6]; exact ⟨rfl, rfl, rfl, rfl⟩
  have t2 : d2.pMin = .fin 0 ∧ d2.pMax = .fin (3/10) := by rw [k2]; exact ⟨rfl, rfl⟩
  have fl : (s.devices.filter fun d => d.kind = .load) = [d1, d3, d5] := by
    simp [hds, a0, a1, a2, a3, a4, a5, a6]
  have fg : (s.devices.filter fun d => (d.kind = .classical ∨ d.kind = .renewable) ∧ d.isSlack = false) = [d2, d4] := by
    simp [hds, a0, a1, a2, a3, a4, a5, a6]
  have fs : (s.devices.filter fun d => d.kind = .storage) = [d6] := by
    simp [hds, a0, a1, a2, a3, a4, a5, a6]
  have idx : ∀ (j : ℕ) (d : Device ℝ), s.devices[j]? = some d → d.id = j := by
    intro j d h
    rw [hds] at h
    match j with
    | 0 => cases h; exact a0.1
    | 1 => cases h; exact a1.1
    | 2 => cases h; exact a2.1
    | 3 => cases h; exact a3.1
    | 4 => cases h; exact a4.1
    | 5 => cases h; exact a5.1
    | 6 => cases h; exact a6.1
    | n + 7 => simp at h
  have same : ∀ j, j ≠ 1 → j ≠ 2 → power (sunnyPlan l1 l3 l5 g) k j = power (idlePlan (fun k => l1 k + g k) l3 l5) k j := by
    intro j h1 h2
    simp [power, sunnyPlan, h1, h2]
  refine ⟨?_, ?_, ?_, ?_, ?_, I.ang, I.ref⟩
  · intro b hb
    have := I.flow b hb
    refine Eq.trans ?_ this
    unfold busInjection
    rw [hds]
    simp only [List.length_cons, List.length_nil, Finset.sum_range_succ, Finset.sum_range_zero, List.getElem?_cons_zero,
      List.getElem?_cons_succ, Option.map_some, Option.some.injEq, a0.2.1, a1.2.1, a2.2.1, a3.2.1, a4.2.1, a5.2.1, a6.2.1]
    rw [same 0 (by norm_num) (by norm_num), same 3 (by norm_num) (by norm_num), same 4 (by norm_num) (by norm_num), same 5 (by norm_num) (by norm_num),
      same 6 (by norm_num) (by norm_num)]
    have e1 : power (sunnyPlan l1 l3 l5 g) k 1 = l1 k := rfl
    have e2 : power (sunnyPlan l1 l3 l5 g) k 2 = g k := rfl
    have e3 : power (idlePlan (fun k => l1 k + g k) l3 l5) k 1 = l1 k + g k := rfl
    have e4 : power (idlePlan (fun k => l1 k + g k) l3 l5) k 2 = 0 := rfl
    rw [e1, e2, e3, e4]
    split_ifs <;> ring
  · intro i j d row v h1 h2 h3 h4
    rw [fl] at h1
    rw [hf.load] at h3
    have hj := idx j d h2
    match i with
    | 0 =>
      cases h1; cases h3
      rw [getElem?_range_map hk] at h4
      cases h4
      have : j = 1 := by rw [a1.1] at hj; omega
      subst this; rfl
    | 1 =>
      cases h1; cases h3
      rw [getElem?_range_map hk] at h4
      cases h4
      have : j = 3 := by rw [a3.1] at hj; omega
      subst this; rfl
    | 2 =>
      cases h1; cases h3
      rw [getElem?_range_map hk] at h4
      cases h4
      have : j = 5 := by rw [a5.1] at hj; omega
      subst this; rfl
    | n + 3 => simp at h1
  · intro i j d row v h1 h2 h3 h4
    have hj := idx j d h2
    by_cases h : j = 2
    · subst h
      have hi : d = d2 := by rw [hds] at h2; exact (Option.some.inj h2).symm
      subst hi
      rw [fg] at h1
      match i with
      | 0 =>
        rw [hf.gen] at h3
        cases h3
        rw [getElem?_range_map hk] at h4
        cases h4
        obtain ⟨w1, w2, w3⟩ := hg k hk
        rw [t2.1, t2.2]
        have e2 : power (sunnyPlan l1 l3 l5 g) k 2 = g k := rfl
        rw [e2]
        simp only [X.fin_le_fin]
        exact ⟨w1, by linarith [(hf.l1 k hk).1], w2⟩
      | 1 =>
        rw [show ([d, d4] : List (Device ℝ))[1]? = some d4 from rfl] at h1
        cases h1
        have := a4.1
        rw [hj] at this
        norm_num at this
      | n + 2 => simp at h1
    · have h' : j ≠ 1 := by
        rintro rfl
        have hi : d = d1 := by rw [hds] at h2; exact (Option.some.inj h2).symm
        subst hi
        have := (List.mem_filter.1 (List.mem_of_getElem? h1)).2
        simp [a1] at this
      rw [same j h' h]
      exact I.gen i j d row v h1 h2 h3 h4
  · intro i j d h1 h2
    have hj := idx j d h2
    have hd : d = d6 := by
      have := List.mem_of_getElem? h1
      rw [fs] at this
      simpa using this
    subst hd
    have h6 : j = 6 := by rw [a6.1] at hj; omega
    subst h6
    rw [same 6 (by norm_num) (by norm_num)]
    exact I.des i 6 d h1 h2
  · intro i d z' η h1 h2 h3
    have e : ∀ n, plannedSoc (sunnyPlan l1 l3 l5 g) i (1/4) η z' n = plannedSoc (idlePlan (fun k => l1 k + g k) l3 l5) i (1/4) η z' n := by
      intro n
      induction n with
      | zero => rfl
      | succ n ih => rw [plannedSoc, plannedSoc, ih]; rfl
    rw [e]
    exact I.soc i d z' η h1 h2 h3

/-- The ratings of the lines of ANM6. -/
noncomputable def easyRate (l : LineC) : Option ℝ := if l.tBus = 1 then some (32/100) else if l.tBus = 2 then some (25/100) else some (18/100)

/-- One stage in ANM6Easy with an empty battery: demands of 5 MW at each load, 5 MW of sun, no wind. -/
noncomputable def easyLoads : List (List (X ℝ)) := [[.fin (-1/20)], [.fin (-1/20)], [.fin (-1/20)]]
noncomputable def easyGens : List (List (X ℝ)) := [[.fin (1/20)], [.fin 0]]

theorem easy_forecast : EasyForecast 1 easyLoads easyGens (fun _ => -1/20) (fun _ => -1/20) (fun _ => -1/20) (fun _ => 1/20) (fun _ => 0) :=
  ⟨rfl, rfl, fun _ _ => by norm_num, fun _ _ => by norm_num, fun _ _ => by norm_num, fun _ _ => by norm_num, fun _ _ => le_rfl⟩

theorem easy_mpc (β : X ℝ) : ∃ m, mkMpc (exactCvx 7) easySim (bBus easyLines) easyActions (.fin 1) β 1 = .ok m := by
  have h1 : List.map Device.id (easySim : Sim ℝ).devices = [0, 1, 2, 3, 4, 5, 6] := rfl
  have h2 : List.map Device.id (List.filter Device.isStorage (easySim : Sim ℝ).devices) = [6] := rfl
  have h3 : List.map Device.id (List.filter Device.isNonSlackGen (easySim : Sim ℝ).devices) = [2, 4] := rfl
  have h4 : List.map Device.id (List.filter Device.isLoad (easySim : Sim ℝ).devices) = [1, 3, 5] := rfl
  simp only [mkMpc, h1, h2, h3, h4]
  simp [firstE, guardE, Bind.bind, Except.bind, pure, Except.pure]

theorem easy_simOf : SimOf (anm6Net (K := ℝ)) (.fin (1/4)) (.fin 100) easySim := ⟨_, anm6_mk _ _, sameConfig_refl _⟩

theorem easy_rates : List.Forall₂ (fun (br : Branch ℝ) l => br.line.rate = (easyRate l).elim .pinf .fin) (easySim : Sim ℝ).branches easyLines := by
  refine .cons ?_ (.cons ?_ (.cons ?_ (.cons ?_ (.cons ?_ .nil)))) <;> simp [easyRate, anm6Lines]

theorem easy_eff : ∀ d ∈ (easySim : Sim ℝ).devices, d.kind = .storage → ∃ η, d.eff = .fin η ∧ η ≠ 0 := by
  intro d hd hk
  have : d = anm6Devices[6] := by
    have : d ∈ (easySim : Sim ℝ).devices.filter fun d => decide (d.kind = .storage) := List.mem_filter.2 ⟨hd, by simpa using hk⟩
    rw [show ((easySim : Sim ℝ).devices.filter fun d => decide (d.kind = .storage)) = [anm6Devices[6]] from rfl] at this
    simpa using this
  rw [this]
  exact ⟨9/10, rfl, by norm_num⟩

theorem easy_key {β : X ℝ} {m : Mpc ℝ} (hm : mkMpc (exactCvx 7) easySim (bBus easyLines) easyActions (.fin 1) β 1 = .ok m) (x : Plan ℝ) :
    FeasiblePlan Real.pi m easyLoads easyGens [.fin 0] x ↔ ∀ k < 1, PlanAt easySim easyLines (1/4) easyLoads easyGens [0] x k := by
  refine C81_feasible_iff (soc := [0]) anm6_clean anm6_documented easy_simOf easy_numbered easy_finiteLines (by simp [easyLines]) hm one_pos
    (j0 := 0) (d0 := anm6Devices[0]) rfl rfl (by simp [anm6Sim]) (by simp [easyLoads]) rfl (by simp [easyGens]) rfl easy_eff x

/-- The solar farm serves `g` of the demand of load 1. -/
noncomputable def easySunny (g : ℝ) : Plan ℝ := sunnyPlan (fun _ => -1/20) (fun _ => -1/20) (fun _ => -1/20) (fun _ => g)

theorem easySunny_at {g : ℝ} (h0 : 0 ≤ g) (h1 : g ≤ 1/20) : ∀ k < 1, PlanAt easySim easyLines (1/4) easyLoads easyGens [0] (easySunny g) k :=
  fun _ hk => sunnyPlan_at (sameConfig_refl _) easy_forecast (fun _ _ => ⟨h0, h1, by linarith⟩) ⟨le_rfl, zero_le_one⟩ hk

theorem easy_classical : ∀ j, ((easySim : Sim ℝ).devices[j]?).map Device.kind = some .classical ↔ j = 0 := by
  intro j
  match j with
  | 0 => exact ⟨fun _ => rfl, fun _ => rfl⟩
  | 1 => exact ⟨(fun h => by cases h), (fun h => by cases h)⟩
  | 2 => exact ⟨(fun h => by cases h), (fun h => by cases h)⟩
  | 3 => exact ⟨(fun h => by cases h), (fun h => by cases h)⟩
  | 4 => exact ⟨(fun h => by cases h), (fun h => by cases h)⟩
  | 5 => exact ⟨(fun h => by cases h), (fun h => by cases h)⟩
  | 6 => exact ⟨(fun h => by cases h), (fun h => by cases h)⟩
  | n + 7 => exact ⟨(fun h => by simp [anm6Sim, anm6Devices] at h), (fun h => by cases h)⟩

theorem easySunny_cost {g b : ℝ} (h0 : 0 ≤ g) (h1 : g ≤ 1/20) (hb : 9/10 ≤ b) :
    ∑ k ∈ Finset.range 1, (1:ℝ) ^ k * stageCost easySim easyLines 100 b easyRate (easySunny g) k = 3/20 - g := by
  have hz : ∀ (a r : ℝ), |a| ≤ 3/20 → 17/100 < r → max 0 (|a| - b * r) = 0 := by
    intro a r ha hr
    exact max_eq_left (by nlinarith)
  have n2 : Int.toNat 2 = 2 := rfl
  have n3 : Int.toNat 3 = 3 := rfl
  have n4 : Int.toNat 4 = 4 := rfl
  have n5 : Int.toNat 5 = 5 := rfl
  have e1 : (∑ j ∈ Finset.range (easySim : Sim ℝ).devices.length, if ((easySim : Sim ℝ).devices[j]?).map Device.kind = some .classical then power (easySunny g) 0 j else 0) = 3/20 - g := by
    simp only [easy_classical]
    rw [show (easySim : Sim ℝ).devices.length = 7 from rfl, Finset.sum_ite_eq' (Finset.range 7) 0]
    simp [power, easySunny, sunnyPlan, idlePlan]
    ring
  rw [Finset.sum_range_one, pow_zero, one_mul, stageCost, e1]
  have e2 : (easyLines.map fun l => (easyRate l).elim 0 fun r =>
      max 0 (|dcLine l (angle (easySunny g) 0 l.fBus.toNat - angle (easySunny g) 0 l.tBus.toNat)| - b * r)).sum = 0 := by
    have f : ∀ l ∈ easyLines, ((easyRate l).elim 0 fun r =>
        max 0 (|dcLine l (angle (easySunny g) 0 l.fBus.toNat - angle (easySunny g) 0 l.tBus.toNat)| - b * r)) = 0 := by
      have case : ∀ (l : LineC) (r v : ℝ), easyRate l = some r → 17/100 < r → |v| ≤ 3/20 →
          dcLine l (angle (easySunny g) 0 l.fBus.toNat - angle (easySunny g) 0 l.tBus.toNat) = v →
          ((easyRate l).elim 0 fun r => max 0 (|dcLine l (angle (easySunny g) 0 l.fBus.toNat - angle (easySunny g) 0 l.tBus.toNat)| - b * r)) = 0 := by
        intro l r v h1 h2 h3 h4
        rw [h1, h4]
        exact hz v r h3 h2
      intro l hl
      simp only [easyLines, List.mem_cons, List.not_mem_nil, or_false] at hl
      rcases hl with rfl | rfl | rfl | rfl | rfl
      · refine case _ (32/100) (3/20 - g) (by simp [easyRate]) (by norm_num) (by rw [abs_le]; constructor <;> linarith) ?_
        norm_num [dcLine, angle, easySunny, sunnyPlan, idlePlan]; try ring
      · refine case _ (25/100) (1/10) (by simp [easyRate]) (by norm_num) (by norm_num [abs_le]) ?_
        norm_num [dcLine, angle, easySunny, sunnyPlan, idlePlan, n2]; try ring
      · refine case _ (18/100) (1/20 - g) (by simp [easyRate]) (by norm_num) (by rw [abs_le]; constructor <;> linarith) ?_
        norm_num [dcLine, angle, easySunny, sunnyPlan, idlePlan, n3]; try ring
      · refine case _ (18/100) (1/20) (by simp [easyRate]) (by norm_num) (by norm_num [abs_le]) ?_
        norm_num [dcLine, angle, easySunny, sunnyPlan, idlePlan, n2, n4]; try ring
      · refine case _ (18/100) (1/20) (by simp [easyRate]) (by norm_num) (by norm_num [abs_le]) ?_
        norm_num [dcLine, angle, easySunny, sunnyPlan, idlePlan, n2, n5]; try ring
    rw [List.map_congr_left f]
    simp
  rw [e2]
  ring

/-- An optimal plan: all of the sun is used. -/
theorem easySunny_optimal {b : ℝ} (hb : 9/10 ≤ b) {m : Mpc ℝ} (hm : mkMpc (exactCvx 7) easySim (bBus easyLines) easyActions (.fin 1) (.fin b) 1 = .ok m) :
    OptimalPlan Real.pi m easyLoads easyGens [.fin 0] (easySunny (1/20)) (1/10) := by
  obtain ⟨cs, obj, h1, h2⟩ := (easy_key hm _).2 (easySunny_at (g := 1/20) (by norm_num) le_rfl)
  have cost := C80_objective anm6_clean easy_simOf easy_numbered easy_finiteLines (by simp [easyLines]) hm (by linarith) easyRate easy_rates h1
  refine ⟨cs, obj, h1, h2, ?_, fun y hy => ?_⟩
  · refine (cost _).trans (congrArg X.fin ?_)
    refine (easySunny_cost (g := 1/20) (by norm_num) le_rfl hb).trans (by norm_num)
  · refine le_of_le_of_eq ?_ (cost y).symm
    rw [X.fin_le_fin, Finset.sum_range_one, pow_zero, one_mul]
    have P := (easy_key hm y).1 ⟨cs, obj, h1, hy⟩ 0 one_pos
    have bal := C67_balance easy_simOf hm (by simp [easyLines]) ⟨cs, obj, h1, hy⟩ (k := 0) (by rw [(mkMpc_ok hm).steps]; exact one_pos)
    rw [show (easySim : Sim ℝ).devices.length = 7 from rfl] at bal
    simp only [Finset.sum_range_succ, Finset.sum_range_zero] at bal
    have p1 : power y 0 1 = -1/20 := (X.fin.inj (P.load 0 1 _ _ _ rfl rfl rfl rfl)).symm
    have p3 : power y 0 3 = -1/20 := (X.fin.inj (P.load 1 3 _ _ _ rfl rfl rfl rfl)).symm
    have p5 : power y 0 5 = -1/20 := (X.fin.inj (P.load 2 5 _ _ _ rfl rfl rfl rfl)).symm
    have p2 := (P.gen 0 2 _ _ _ rfl rfl rfl rfl).2.2
    have p4 := (P.gen 1 4 _ _ _ rfl rfl rfl rfl).2.2
    obtain ⟨-, -, q1, q2, p6⟩ := P.des 0 6 _ rfl rfl
    have q3 := (P.soc 0 _ 0 (9/10) rfl rfl rfl).1
    rw [show (anm6Des : Device ℝ).socMin = .fin 0 from rfl] at q3
    rw [X.fin_le_fin] at p2 p4 q3
    simp only [plannedSoc] at q3
    have lower : power y 0 0 ≤ stageCost easySim easyLines 100 b easyRate y 0 := by
      have e1 : (∑ j ∈ Finset.range (easySim : Sim ℝ).devices.length,
          if ((easySim : Sim ℝ).devices[j]?).map Device.kind = some .classical then power y 0 j else 0) = power y 0 0 := by
        simp only [easy_classical]
        rw [show (easySim : Sim ℝ).devices.length = 7 from rfl, Finset.sum_ite_eq' (Finset.range 7) 0]
        simp
      unfold stageCost
      rw [e1]
      have : 0 ≤ (easyLines.map fun l => (easyRate l).elim 0 fun r =>
          max 0 (|dcLine l (angle y 0 l.fBus.toNat - angle y 0 l.tBus.toNat)| - b * r)).sum := by
        refine List.sum_nonneg fun v hv => ?_
        obtain ⟨l, -, rfl⟩ := List.mem_map.1 hv
        cases easyRate l with
        | none => exact le_rfl
        | some r => exact le_max_left _ _
      linarith
    refine le_trans ?_ lower
    linarith

/-- The hypotheses of `C137_margin`: two agents with different margins. -/
example : ∃ (m m' : Mpc ℝ) (v v' : ℝ), mkMpc (exactCvx 7) easySim (bBus easyLines) easyActions (.fin 1) (.fin (9/10)) 1 = .ok m ∧
    mkMpc (exactCvx 7) easySim (bBus easyLines) easyActions (.fin 1) (.fin 1) 1 = .ok m' ∧
    OptimalPlan Real.pi m easyLoads easyGens [.fin 0] (easySunny (1/20)) v ∧ OptimalPlan Real.pi m' easyLoads easyGens [.fin 0] (easySunny (1/20)) v' ∧
    v' ≤ v := by
  obtain ⟨m, hm⟩ := easy_mpc (.fin (9/10))
  obtain ⟨m', hm'⟩ := easy_mpc (.fin 1)
  have h1 := easySunny_optimal le_rfl hm
  have h2 := easySunny_optimal (by norm_num) hm'
  refine ⟨m, m', _, _, hm, hm', h1, h2, C137_margin anm6_clean easy_simOf easy_numbered easy_finiteLines (by simp [easyLines]) hm hm' (by norm_num) (by norm_num)
    zero_le_one (by norm_num) easyRate easy_rates ?_ h1 h2⟩
  intro l _ r hr
  unfold easyRate at hr
  split_ifs at hr <;> cases hr <;> norm_num

/-- The hypotheses of `C138_no_local`: on the way from the plan that leaves the sun unused to the optimal one. -/
example : ∃ (m : Mpc ℝ) (cs : List (Constr ℝ)) (obj : Expr ℝ), m.problem Real.pi easyLoads easyGens [.fin 0] = .ok (cs, obj) ∧
    ∃ u w, obj (easySunny 0) = .fin u ∧ (∀ c ∈ cs, c (betweenPlans (1/2) (easySunny 0) (easySunny (1/20))) = true) ∧
      obj (betweenPlans (1/2) (easySunny 0) (easySunny (1/20))) = .fin w ∧ w < u := by
  obtain ⟨m, hm⟩ := easy_mpc (.fin 1)
  obtain ⟨cs, obj, h1, h2⟩ := (easy_key hm _).2 (easySunny_at (g := 1/20) (by norm_num) le_rfl)
  obtain ⟨cs', obj', h1', h3⟩ := (easy_key hm _).2 (easySunny_at (g := 0) le_rfl (by norm_num))
  rw [h1] at h1'
  cases h1'
  have cost := C80_objective anm6_clean easy_simOf easy_numbered easy_finiteLines (by simp [easyLines]) hm one_pos easyRate easy_rates h1
  have u1 := (cost _).trans (congrArg X.fin (easySunny_cost (g := 0) (b := 1) le_rfl (by norm_num) (by norm_num)))
  have u2 := (cost _).trans (congrArg X.fin (easySunny_cost (g := 1/20) (b := 1) (by norm_num) le_rfl (by norm_num)))
  have heff : ∀ d ∈ (easySim : Sim ℝ).devices, d.kind = .storage → ∃ η, d.eff = .fin η ∧ η ≠ 0 := easy_eff
  obtain ⟨k1, w, k2, k3⟩ := C138_no_local (soc := [0]) anm6_clean anm6_documented easy_simOf easy_numbered easy_finiteLines (by simp [easyLines]) hm one_pos one_pos
    zero_le_one (by norm_num) (j0 := 0) (d0 := anm6Devices[0]) rfl rfl (by simp [anm6Sim]) (by simp [easyLoads]) rfl (by simp [easyGens]) rfl heff
    easyRate easy_rates h1 h3 h2 u1 u2 (by norm_num) (r := 1/2) (by norm_num) (by norm_num)
  exact ⟨m, cs, obj, h1, _, w, u1, k1, k2, k3⟩

end Anm
