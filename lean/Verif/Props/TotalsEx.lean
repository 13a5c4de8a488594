import Verif.Props.SplitLoad
import Verif.Props.RealDemo

/-! # C139: the devices at the slack bus, and a concrete case -/

set_option linter.unusedSectionVars false

namespace Anm

open Spec

/-! ### The solver of the code -/

section
variable {n m : Network ℝ} {dt lam lam₂ : X ℝ} {s s' u u' : Sim ℝ} {a a₂ : Sim.Args ℝ} {out out₂ : Sim.TransOut ℝ} {o : LFOracle} {qp qp₂ : QP ℝ}
variable {pi : ℝ} {k : ℕ} {ls : List LineC}

/-- At every bus but the slack bus, the devices together inject the same active and reactive power. -/
def Spec.SameTotalsOff (s u : Sim ℝ) : Prop :=
  ∀ b ∈ s.buses, b.isSlack = false → totalAt u Device.p b.id = totalAt s Device.p b.id ∧ totalAt u Device.q b.id = totalAt s Device.q b.id

theorem solved_input {ds : List (Device ℝ)} {po : PFOut ℝ} (hm : Numbered s k) (hl : FiniteLines s ls)
    (I : TransInv ⟨qp, realPF o, pi⟩ s a ds po s' out) :
    ∃ (inp : PFIn ℝ) (pq : Fin k → X ℝ × X ℝ), po = solveFinite o inp k pq ls ∧
      ∀ (i : Fin k) b, s.buses[i.1 + 1]? = some b → pq i = ((Sim.busInjections ds b).p, (Sim.busInjections ds b).q) := by
  have P := I.solve.pf
  set s1 : Sim ℝ := { s with devices := ds, buses := s.buses.map (Sim.busInjections ds) } with hs1
  have hids : s1.pfIn.buses.map (·.1) = (List.range (k + 1)).map Int.ofNat := by
    rw [← hm.ids]
    simp [hs1, Sim.pfIn, Sim.busInjections, Function.comp_def]
  have hsl : ∀ b ∈ s1.pfIn.buses, b.2.1 = true ↔ b.1 = 0 := by
    intro b hb
    obtain ⟨b0, hb0, rfl⟩ := List.mem_map.1 hb
    obtain ⟨b1, hb1, rfl⟩ := List.mem_map.1 hb0
    exact hm.slack b1 hb1
  have hlin : mapO Line.finite? s1.pfIn.lines = some ls := by
    rw [mapO_forall₂]
    exact List.forall₂_map_left_iff.2 hl
  obtain ⟨pq, hpf, hpq⟩ := realPF_numbered o hids hm.pos hsl hlin
  have P' : realPF o s1.pfIn = .ok po := P
  rw [hpf] at P'
  injection P' with P'
  refine ⟨s1.pfIn, pq, P'.symm, fun i b hb => ?_⟩
  refine (hpq i (b.id, b.isSlack, (Sim.busInjections ds b).p, (Sim.busInjections ds b).q) ?_).trans rfl
  simp only [Sim.pfIn, hs1, List.getElem?_map, hb, Option.map_some]
  rfl

/-- **C139, the slack bus.** With the solver of the code, what the devices at the slack bus inject does not even matter: if at every other bus the
totals are the same and the load flow converges, all that is reported about buses and branches is the same, and so is the penalty. -/
theorem C139_slack_bus (hs : SimOf n dt lam s) (hu : SimOf m dt lam₂ u) (hm : Numbered s k) (hl : FiniteLines s ls) (hg : SameGrid s u)
    (h : s.transition ⟨qp, realPF o, pi⟩ a = .ok (s', out)) (h₂ : u.transition ⟨qp₂, realPF o, pi⟩ a₂ = .ok (u', out₂)) (ht : SameTotalsOff s' u')
    (hc : out.converged = true) :
    SameGrid s' u' ∧ out₂.converged = true ∧ out₂.penalty = out.penalty ∧
      ∃ st st', s'.state = some st ∧ u'.state = some st' ∧ SameGridReadings st st' := by
  have hids : u.buses.map Bus.id = s.buses.map Bus.id := by
    have := hg.buses
    generalize s.buses = l at this
    generalize u.buses = l' at this
    induction this with
    | nil => rfl
    | cons h _ ih => rw [List.map_cons, List.map_cons, h.1, ih]
  have hm₂ : Numbered u k := by
    refine ⟨hids.trans hm.ids, hm.pos, fun b hb => ?_⟩
    obtain ⟨b0, hb0, e1, e2, -⟩ := forall₂_mem_right hg.buses hb
    rw [e1, e2]
    exact hm.slack b0 hb0
  have hl₂ : FiniteLines u ls := by
    have h1 := hg.branches
    unfold FiniteLines at hl ⊢
    generalize s.branches = l at h1 hl
    generalize u.branches = l' at h1
    induction h1 generalizing ls with
    | nil => cases hl; exact .nil
    | cons h _ ih =>
      cases hl with
      | cons g gs => exact .cons (by rw [h]; exact g) (ih gs)
  obtain ⟨ds, po, I⟩ := transition_ok h
  obtain ⟨ds₂, po₂, I₂⟩ := transition_ok h₂
  obtain ⟨inp, pq, e1, e2⟩ := solved_input hm hl I
  obtain ⟨inp₂, pq₂, e3, e4⟩ := solved_input hm₂ hl₂ I₂
  have hin : List.Forall₂ (fun b b' : Bus ℝ => b.isSlack = false → (Sim.busInjections ds₂ b').p = (Sim.busInjections ds b).p ∧
      (Sim.busInjections ds₂ b').q = (Sim.busInjections ds b).q) s.buses u.buses := by
    refine forall₂_mono_mem hg.buses fun b hb b' hbb hsl => ?_
    obtain ⟨b1, hb1, e⟩ := forall₂_mem_left (sameConfig_transition h).buses hb
    have ei : b1.id = b.id := by rw [e]
    have es : b1.isSlack = false := by rw [← hsl, e]
    obtain ⟨k1, k2⟩ := injected_total hs I b
    obtain ⟨k3, k4⟩ := injected_total hu I₂ b'
    obtain ⟨t1, t2⟩ := ht b1 hb1 es
    rw [k1, k2, k3, k4, hbb.1, ← ei]
    exact ⟨t1, t2⟩
  have hpq : pq₂ = pq := by
    funext i
    have hlen := length_of_ids hm.ids
    have hlen₂ := length_of_ids hm₂.ids
    have hb := List.getElem?_eq_getElem (l := s.buses) (i := i.1 + 1) (by omega)
    have hb₂ := List.getElem?_eq_getElem (l := u.buses) (i := i.1 + 1) (by omega)
    have hR := (List.forall₂_iff_get.1 hin).2 (i.1 + 1) (by omega) (by omega)
    rw [e2 i _ hb, e4 i _ hb₂]
    have hid := (get_id hm.ids hb).1
    have hsl : (s.buses[i.1 + 1]).isSlack = false := by
      by_contra hc
      have := (hm.slack _ (List.getElem_mem _)).1 (by simpa using hc)
      rw [this] at hid
      push_cast at hid
      omega
    obtain ⟨q1, q2⟩ := hR hsl
    simp only [List.get_eq_getElem] at q1 q2
    rw [q1, q2]
  subst hpq
  have hpo : po₂ = po := by
    have hst : po.stable = true := by rw [← I.converged]; exact hc
    rw [e3, e1]
    rw [e1] at hst
    unfold solveFinite at hst ⊢
    set st := NR.run o (ymat k ls) (fun i => (pq₂ i).1) (fun i => (pq₂ i).2) xtol with hst'
    cases hgu : st.guess with
    | some g => simp only [hgu]
    | none =>
      exfalso
      simp only [hgu] at hst
      obtain ⟨g, hg', _⟩ := NR.stable_spec (by unfold xtol; norm_num) hm.pos hst
      rw [← hst', hgu] at hg'
      simp at hg'
  subst hpo
  have E := sameElec_of_input hg I I₂ hin
  have d1 : u'.deltaT = s'.deltaT := by rw [I.solve.apply.dt, I₂.solve.apply.dt]; exact hg.dt
  have d2 : u'.lamb = s'.lamb := by rw [I.solve.apply.lamb, I₂.solve.apply.lamb]; exact hg.lamb
  obtain ⟨st, g1, g2⟩ := I.state
  obtain ⟨st', g3, g4⟩ := I₂.state
  exact ⟨sameGrid_of E d1 d2, by rw [I₂.converged, ← I.converged]; exact hc, sameElec_penalty E d1 d2 I.reward I₂.reward, st, st', g2, g4,
    sameElec_readings E g1 g3⟩

end

/-! ### A concrete case -/

/-- The demo network with the load 1 split into the loads 1 and 7. -/
def twoLoadsNet : Network ℚ := Network.ofLists (.fin 100)
  [[num 0, num 0, num 132, num 1, num 1], [num 1, num 1, num 33, num (11/10), num (9/10)],
   [num 2, num 1, num 33, num (11/10), num (9/10)]]
  [[num 0, num 1, num (1/100), num (1/10), num 0, num 32, num 1, num 0],
   [num 1, num 2, num (1/50), num (3/10), none, num 25, none, none]]
  [[num 0, num 0, num 0, none, num 200, num (-200), num 200, num (-200), none, none, none, none, none, none, none],
   [num 1, num 1, num (-1), num (1/5), num 0, num (-4), none, none, none, none, none, none, none, none, none],
   [num 7, num 1, num (-1), num (1/5), num 0, num (-6), none, none, none, none, none, none, none, none, none],
   [num 2, num 1, num 2, none, num 30, num 0, num 30, num (-30), num 20, none, num 15, num (-15), none, none, none],
   [num 3, num 2, num 3, none, num 50, num (-50), num 50, num (-50), num 30, num (-30), num 25, num (-25), num 100, num 0,
    num (9/10)]]

/-- A solver in whose results all the power that it is given shows. -/
def sumPF : PF ℚ := fun inp =>
  let p := inp.buses.foldl (fun x b => x + b.2.2.1) 0
  let q := inp.buses.foldl (fun x b => x + b.2.2.2) 0
  .ok { v := fun k => ⟨1, p, 1 + .fin k / .fin 100, q⟩, i := fun _ => ⟨p, q, p, 0⟩, slackP := -p, slackQ := -q,
        flow := fun _ => ⟨⟨p, q, p, 0⟩, ⟨p, q, p, 0⟩, p, q, p, q, p⟩, stable := true }

def sumCtx : Ctx ℚ := ⟨demoQP, sumPF, 22/7⟩

/-- The reset vectors: a load of 5 MW, or of 2 and 3 MW. -/
def splitInit : List (X ℚ) :=
  [0, .fin (-2), .fin 10, .fin (-20), .fin (-3), 0, 0, .fin 0, .fin 0, 0, .fin 50, .fin 20]

/-- Demands of 2 MW and 3 MW instead of 5 MW. -/
def splitArgs : Sim.Args ℚ :=
  ⟨[(1, .fin (-2)), (7, .fin (-3))], [(2, .fin 20)], [(2, .fin 15), (3, .fin (-40))], [(2, .fin 5), (3, .fin 0)]⟩

def splitRun : Except PyErr ((Sim ℚ × Sim ℚ × Sim.TransOut ℚ) × Sim ℚ × Sim ℚ × Sim.TransOut ℚ) := do
  let s0 ← mkSim demoNet (.fin (1/4)) (.fin 100)
  let (s1, _) ← s0.reset sumCtx demoInit
  let (s2, o) ← s1.transition sumCtx (demoArgs (-40))
  let u0 ← mkSim twoLoadsNet (.fin (1/4)) (.fin 100)
  let (u1, _) ← u0.reset sumCtx splitInit
  let (u2, o') ← u1.transition sumCtx splitArgs
  pure ((s1, s2, o), u1, u2, o')

/-- The data of a bus that do not come from its devices. -/
def Bus.bare (b : Bus ℚ) : Bus ℚ := { id := b.id, isSlack := b.isSlack, baseKV := b.baseKV, vMin := b.vMin, vMax := b.vMax }

/-- All that has to be compared about two simulators with four and five devices. -/
def splitCheck (s u : Sim ℚ) : Bool :=
  match s.devices, u.devices with
  | [x0, x1, x2, x3], [y0, y1, y2, y3, y4] =>
    decide (u.baseMVA = s.baseMVA) && (decide (u.deltaT = s.deltaT) && (decide (u.lamb = s.lamb) &&
    (decide (u.buses.map Bus.bare = s.buses.map Bus.bare) &&
    (decide (u.branches.map (·.line) = s.branches.map (·.line)) &&
    (decide ([x1.id, y1.id, y4.id] = [1, 1, 7]) && (decide ([x0.id, x2.id, x3.id, y0.id, y2.id, y3.id] = [0, 2, 3, 0, 2, 3]) &&
    (x1.isLoad && (y1.isLoad && (y4.isLoad &&
    (decide ([y1.busId, y4.busId] = [x1.busId, x1.busId]) && (decide ([x1.qpRatio, y1.qpRatio, y4.qpRatio] = [.fin (1/5), .fin (1/5), .fin (1/5)]) &&
    (decide ([x1.pMin, y1.pMin, y4.pMin] = [.fin (-1/10), .fin (-1/25), .fin (-3/50)]) && (decide ([x1.pMax, y1.pMax, y4.pMax] = [0, 0, 0]) &&
    (decide (y0 = { x0 with p := y0.p, q := y0.q, pPot := y0.pPot }) && (decide (y2 = { x2 with p := y2.p, q := y2.q, pPot := y2.pPot }) &&
    decide (y3 = { x3 with p := y3.p, q := y3.q, pPot := y3.pPot }))))))))))))))))
  | _, _ => false

theorem splitCheck_spec {s u : Sim ℚ} (h : splitCheck s u = true) : SplitLoad 1 1 7 s u ∧ SplitArgs 1 1 7 s u 100 (demoArgs (-40)) splitArgs := by
  unfold splitCheck at h
  split at h
  · rename_i x0 x1 x2 x3 y0 y1 y2 y3 y4 hs hu
    simp only [Bool.and_eq_true, decide_eq_true_eq] at h
    obtain ⟨h1, h2, h3, h4, h5, h6, h7, h8, h9, h10, h11, h12, h13, h14, h15, h16, h17⟩ := h
    simp only [List.cons.injEq, and_true] at h6 h7 h11 h12 h13 h14
    have sm : ∀ {x y : Device ℚ}, y = { x with p := y.p, q := y.q, pPot := y.pPot } → SameMachine x y ∧ y.soc = x.soc := by
      intro x y h
      have e := congrArg Device.soc h
      refine ⟨?_, e⟩
      unfold SameMachine
      rw [e]
      exact h
    refine ⟨⟨⟨h1, h2, h3, ?_, ?_⟩, x1, y1, y4, [x0, x2, x3], [y0, y2, y3], ?_, ?_, h6, ⟨h8, h9, h10⟩, h11, ⟨_, h12⟩,
      .cons (sm h15) (.cons (sm h16) (.cons (sm h17) .nil))⟩, ?_, -2, -3, ?_, ?_, ?_, ?_, ?_, ?_⟩
    · rw [← List.forall₂_eq_eq_eq, List.forall₂_map_left_iff, List.forall₂_map_right_iff] at h4
      refine h4.flip.imp fun b b' h => ?_
      unfold Bus.bare at h
      rw [Bus.mk.injEq] at h
      exact ⟨h.1, h.2.1, h.2.2.1, h.2.2.2.2.1, h.2.2.2.1⟩
    · rw [← List.forall₂_eq_eq_eq, List.forall₂_map_left_iff, List.forall₂_map_right_iff] at h5
      exact h5.flip
    · rw [hs]; exact List.Perm.swap _ _ _
    · rw [hu]
      refine (List.Perm.swap _ _ _).trans (.cons _ ?_)
      exact List.perm_middle (l₁ := [y0, y2, y3]) (l₂ := [])
    · intro i i1 _ i7
      refine ⟨?_, rfl, rfl, rfl⟩
      simp [splitArgs, demoArgs, Dict.get?, i1.symm, i7.symm]
    · norm_num [demoArgs, Dict.get?]
    · rfl
    · rfl
    · intro d hd hid
      rw [hs] at hd
      simp only [List.mem_cons, List.not_mem_nil, or_false] at hd
      rcases hd with rfl | rfl | rfl | rfl
      · omega
      · rw [h13.1, h14.1]; decide +kernel
      · omega
      · omega
    · intro d hd hid
      rw [hu] at hd
      simp only [List.mem_cons, List.not_mem_nil, or_false] at hd
      rcases hd with rfl | rfl | rfl | rfl | rfl
      · omega
      · rw [h13.2.1, h14.2.1]; decide +kernel
      · omega
      · omega
      · omega
    · intro d hd hid
      rw [hu] at hd
      simp only [List.mem_cons, List.not_mem_nil, or_false] at hd
      rcases hd with rfl | rfl | rfl | rfl | rfl
      · omega
      · omega
      · omega
      · omega
      · rw [h13.2.2, h14.2.2]; decide +kernel
  · cases h

/-- The hypotheses of C139: a load of 5 MW, or loads of 2 and 3 MW, at the bus of the generator.  The reward is that of the code: there are losses
and penalties, and both networks report the same. -/
example : ∃ (n m : Network ℚ) (s u s' u' : Sim ℚ) (os os' : List (Sim.TransOut ℚ)), CleanFile n 100 ∧ SimOf n (.fin (1/4)) (.fin 100) s ∧
    SimOf m (.fin (1/4)) (.fin 100) u ∧ SplitLoad 1 1 7 s u ∧ SplitRuns sumCtx 1 1 7 100 s u s' u' os os' ∧ s.devices.length = 4 ∧
    u.devices.length = 5 ∧ os' = os ∧ os.map (·.reward) = [.fin (-109/80)] ∧ SplitLoad 1 1 7 s' u' := by
  obtain ⟨⟨⟨s1, s2, o⟩, u1, u2, o'⟩, h, h1, h2, h3, h4⟩ : ∃ r, splitRun = .ok r ∧ (splitCheck r.1.1 r.2.1 = true ∧ r.1.1.devices.length = 4 ∧
      r.2.1.devices.length = 5 ∧ r.1.2.2.reward = .fin (-109/80)) := exOk (by decide +kernel)
  simp only [splitRun, bind_ok, pure_ok] at h
  obtain ⟨s0, k0, ⟨s1', b1⟩, k1, ⟨s2', o1⟩, k2, u0, k3, ⟨u1', b2⟩, k4, ⟨u2', o2⟩, k5, k6⟩ := h
  simp only [Prod.mk.injEq] at k6
  obtain ⟨⟨rfl, rfl, rfl⟩, rfl, rfl, rfl⟩ := k6
  obtain ⟨c1, c2⟩ := splitCheck_spec h1
  have hs := simOf_reset (simOf_mk k0) k1
  have hu := simOf_reset (simOf_mk k3) k4
  have hr : SplitRuns sumCtx 1 1 7 100 s1' u1' s2' u2' [o1] [o2] := .snoc .nil c2 k2 k5
  obtain ⟨g1, g2, -⟩ := C139_split demo_clean hs hu c1 hr
  simp only at h2 h3 h4
  exact ⟨demoNet, twoLoadsNet, s1', u1', s2', u2', [o1], [o2], demo_clean, hs, hu, c1, hr, h2, h3, g2, by rw [List.map_singleton, h4], g1⟩

/-! ### A demand at the slack bus -/

theorem sameGrid_refl {K : Type} [Field K] [LinearOrder K] (s : Sim K) : SameGrid s s :=
  ⟨rfl, rfl, rfl, List.forall₂_same.2 fun _ _ => ⟨rfl, rfl, rfl, rfl, rfl⟩, List.forall₂_same.2 fun _ _ => rfl⟩

/-- **C139, a demand at the slack bus pays.** There is a documented network with a load at the slack bus such that a demand of 1 MW there changes
nothing in the grid — not even the power drawn from the slack — but makes the reported energy loss `-1` MWh instead of 0.  The hypotheses of
`C139_slack_bus` hold. -/
theorem C139_slack_demand_pays : ∃ n s, CleanFile n 1 ∧ Documented n ∧ mkSim n (.fin 1) (.fin 1) = .ok s ∧
    ∀ (o : LFOracle) (pi : ℝ), ∃ a a₂ s' u' out out₂,
      s.transition ⟨exactQP, realPF o, pi⟩ a = .ok (s', out) ∧ s.transition ⟨exactQP, realPF o, pi⟩ a₂ = .ok (u', out₂) ∧
      (a = demand 0 0 ∧ a₂ = demand 0 (-1)) ∧ SameTotalsOff s' u' ∧ out.converged = true ∧
      (∃ st st', s'.state = some st ∧ u'.state = some st' ∧ SameGridReadings st st') ∧ out₂.penalty = out.penalty ∧
      out.eLoss = .fin 0 ∧ out₂.eLoss = .fin (-1) := by
  obtain ⟨s, hmk, F⟩ := sharedNet_mk
  refine ⟨sharedNet, s, sharedNet_clean, sharedNet_documented, hmk, fun o pi => ?_⟩
  have hs : SimOf sharedNet (.fin 1) (.fin 1) s := ⟨s, hmk, sameConfig_refl s⟩
  obtain ⟨i, j, hos⟩ := oneSlack_of_file sharedNet_clean sharedNet_documented hs
  have run : ∀ y : ℝ, -2 ≤ y → y ≤ 0 → ∃ s' out, s.transition ⟨exactQP, realPF o, pi⟩ (demand 0 y) = .ok (s', out) ∧ out.converged = true ∧
      out.eLoss = .fin y ∧ totalAt s' Device.p 1 = .fin 0 ∧ totalAt s' Device.q 1 = .fin 0 := by
    intro y y1 y2
    obtain ⟨s', out, h⟩ := two_run (devs := [(1, 1), (2, 0)]) (a := demand 0 y) o pi sharedNet_clean hmk F (by simp [demand, Dict.get?])
    have F' := two_same (sameConfig_transition h) F
    obtain ⟨b0, b1, hb, i0, i1, f0, f1, _⟩ := two_buses F'
    obtain ⟨hp, hq⟩ := C33_bus_sum_partial hos h (b := b1) (by simp [hb]) (by simp [f1])
    obtain ⟨d, e, f, hds, hd1, he1, hf1⟩ := devs_three F'
    have hL := two_load (x := 0) F h (d := e) (by simp [hds]) he1 (by simp [demand, Dict.get?]) (by norm_num) le_rfl
    have hM := two_load (x := y) F h (d := f) (by simp [hds]) hf1 (by simp [demand, Dict.get?]) y1 y2
    simp only [slackAt, loadAt, Prod.mk.injEq] at hd1 he1 hf1
    have ht : totalAt s' Device.p 1 = .fin 0 ∧ totalAt s' Device.q 1 = .fin 0 := by
      simp only [totalAt, hds, List.filter, hd1.2.1, he1.2.1, hf1.2.1, he1.2.2.2.1, sumX, List.map, List.foldl]
      simp [zero_add_X, hL.1, hL.2]
    simp only [devicesAt, hds, i1, List.filter, hd1.2.1, he1.2.1, hf1.2.1, sumX, List.map, List.foldl] at hp hq
    simp [zero_add_X, hL.1, hL.2] at hp hq
    obtain ⟨hc, hflat⟩ := C73_idle sharedNet_clean hs (two_numbered F) (two_lines F) (by simp [sharedLine]) h (by
      rw [hb]
      simp [f0, f1, hp, hq])
    have hS := slack_device hos h (b := b0) (by simp [hb]) (by simp [f0]) (d := d) (by simp [hds]) hd1.2.2.2.1
    have hp0 := (hflat b0 (by simp [hb])).2.1
    refine ⟨s', out, h, hc, ?_, ht⟩
    obtain ⟨ds, po, I⟩ := transition_ok h
    have R := I.reward
    simp only [Sim.computeReward, bind_ok, pure_ok, Prod.mk.injEq] at R
    obtain ⟨bp, -, -, R2, -⟩ := R
    have edt : s'.deltaT = .fin 1 := (simOf_base (simOf_transition hs h)).2.1
    rw [← R2, edt, hds]
    have dp : d.p = .fin 0 := hS.1.trans hp0
    have c1 : d.isGen = true ∧ d.isRenewable = false := by simp [Device.isGen, Device.isRenewable, hd1]
    have c2 : e.isLoad = true := by simp [Device.isLoad, he1]
    have c3 : f.isLoad = true := by simp [Device.isLoad, hf1]
    rw [List.foldl_cons, List.foldl_cons, List.foldl_cons, List.foldl_nil, load_loss c3, load_loss c2, hL.1, hM.1]
    simp [Sim.eLossStep, c1, dp, zero_add_X]
  obtain ⟨s', out, h, hc, he, tp, tq⟩ := run 0 (by norm_num) le_rfl
  obtain ⟨u', out₂, h₂, -, he₂, tp₂, tq₂⟩ := run (-1) (by norm_num) (by norm_num)
  have ht : SameTotalsOff s' u' := by
    intro b hb hsl
    have F' := two_same (sameConfig_transition h) F
    obtain ⟨b0, b1, hbs, i0, i1, f0, f1, _⟩ := two_buses F'
    rw [hbs] at hb
    simp only [List.mem_cons, List.not_mem_nil, or_false] at hb
    rcases hb with rfl | rfl
    · simp [f0] at hsl
    · rw [i1, tp, tq, tp₂, tq₂]; exact ⟨rfl, rfl⟩
  obtain ⟨-, -, g1, g2⟩ := C139_slack_bus hs hs (two_numbered F) (two_lines F) (sameGrid_refl s) h h₂ ht hc
  exact ⟨_, _, s', u', out, out₂, h, h₂, ⟨rfl, rfl⟩, ht, hc, g2, g1, he, he₂⟩

end Anm
