import Verif.Props.MpcExact
import Verif.Props.RealDemo

/-! # C67, C78, C80, C81: a feasible plan over ℝ -/

namespace Anm

open Spec

/-- Slack 1.5 MW, loads of 1 MW at bus 1 and 0.5 MW at bus 0. -/
noncomputable def realPlan : Plan ℝ := fun _ =>
  { ang := fun i => if i = 0 then 0 else -1
    p := fun i => if i = 0 then 3/2 else if i = 1 then -1 else -1/2
    ch := fun _ => 0
    dis := fun _ => 0 }

def realCvx : Cvx ℝ where
  emptyOk := true
  accept := fun _ _ _ => .ok ()
  solve := fun _ _ => .ok none

theorem shared_B : bBus [sharedLine] 0 1 = 1 ∧ bBus [sharedLine] 1 0 = 1 := by
  have hs : SimpleLines [sharedLine] := ⟨by simp [sharedLine], by simp⟩
  obtain ⟨y1, y2⟩ := ybus_line hs (l := sharedLine) (by simp)
  have ht : sharedLine.tap = ((1 : ℝ) : ℂ) := tap_real rfl
  have hi : (-sharedLine.series).im = 1 := by rw [series_im]; norm_num [sharedLine]
  constructor
  · show (ybus [sharedLine] sharedLine.fBus sharedLine.tBus).im = 1
    rw [y1, ht]
    simpa using hi
  · show (ybus [sharedLine] sharedLine.tBus sharedLine.fBus).im = 1
    rw [y2, ht]
    simpa using hi

/-- The hypotheses of `C67_balance` and `C78_dc_flow` hold for a plan with a flow of 1 p.u. -/
theorem realPlan_ok : ∃ s m, CleanFile sharedNet 1 ∧ SimOf sharedNet (.fin 1) (.fin 1) s ∧ Numbered s 1 ∧
    FiniteLines s [sharedLine] ∧ (∀ l ∈ [sharedLine], l.shiftDeg = 0) ∧
    mkMpc realCvx s (bBus [sharedLine]) ⟨[], [], false⟩ (.fin 1) (.fin 1) 1 = .ok m ∧ 0 < m.steps ∧
    FeasiblePlan Real.pi m [[.fin (-1)], [.fin (-1/2)]] [] [] realPlan := by
  obtain ⟨s, hmk, F⟩ := sharedNet_mk
  obtain ⟨d, e, f, hd, hd1, he1, hf1⟩ := devs_three F
  obtain ⟨b0, b1, hb, i0, i1, -⟩ := two_buses F
  obtain ⟨br, hbr, hbr'⟩ := List.map_eq_singleton_iff.1 F.branches
  obtain ⟨f1, f2, -⟩ := finite?_eq hbr'
  simp only [slackAt, loadAt, Prod.mk.injEq] at hd1 he1 hf1
  obtain ⟨d1, d2, d3, d4, -⟩ := hd1
  obtain ⟨e1, e2, e3, e4, -⟩ := he1
  obtain ⟨g1, g2, g3, g4, -⟩ := hf1
  have hm : ∃ m, mkMpc realCvx s (bBus [sharedLine]) ⟨[], [], false⟩ (.fin 1) (.fin 1) 1 = .ok m := by
    simp [mkMpc, firstE, guardE, realCvx, hd, Device.isStorage, Device.isNonSlackGen, Device.isGen, Device.isLoad,
      d1, d3, d4, e1, e3, g1, g3, bind, Except.bind, pure, Except.pure]
  obtain ⟨m, hm⟩ := hm
  have I := mkMpc_ok hm
  refine ⟨s, m, sharedNet_clean, ⟨s, hmk, sameConfig_refl s⟩, two_numbered F, two_lines F, by simp [sharedLine], hm,
    by rw [I.steps]; exact one_pos, ?_⟩
  have hbus : m.busIds = [0, 1] := by rw [I.busIds, hb]; simp [i0, i1]
  have hdev : m.deviceIds = [0, 1, 2] := by rw [I.deviceIds, hd]; simp [d1, e1, g1]
  have hload : m.loadIds = [1, 2] := by rw [I.loadIds, hd]; simp [Device.isLoad, d3, e3, g3, e1, g1]
  have hgen : m.nonSlackGenIds = [] := by
    rw [I.nonSlackGenIds, hd]; simp [Device.isNonSlackGen, Device.isGen, d4, e3, g3]
  have hdes : m.desIds = [] := by rw [I.desIds, hd]; simp [Device.isStorage, d3, e3, g3]
  have hslack : m.slackDevId = 0 := by
    have := I.slack
    rw [hdev, hdes, hgen, hload] at this
    simpa [eq_comm] using this
  have hdb : m.devToBus = [(0, 0), (1, 1), (2, 0)] := by
    rw [I.devToBus, hd]; simp [d1, d2, e1, e2, g1, g2]
  have hbrs : m.branchIds = [(0, 1)] := by rw [I.branchIds, hbr]; simp [f1, f2, sharedLine]
  have hB : m.B 0 1 = 1 ∧ m.B 1 0 = 1 := by
    rw [I.B, I.B, hbus]
    simpa using shared_B
  have hpg : m.pGenMin = [] ∧ m.pGenMax = [] ∧ m.pDesMin = [] ∧ m.pDesMax = [] ∧ m.socMin = [] ∧ m.socMax = [] := by
    rw [I.pGenMin, I.pGenMax, I.pDesMin, I.pDesMax, I.socMin, I.socMax, hd]
    simp [Device.isNonSlackGen, Device.isGen, Device.isStorage, d3, d4, e3, g3]
  have hp : ∃ cs obj, m.problem Real.pi [[.fin (-1)], [.fin (-1/2)]] [] [] = .ok (cs, obj) ∧
      ∀ c ∈ cs, c realPlan = true := by
    have hpi := Real.two_le_pi
    refine ⟨_, _, by
      simp only [Mpc.problem, I.steps, Mpc.stages, Mpc.constraints, Mpc.nBus, Mpc.devIdx, hslack, hdev, hbus]
      simp only [guardE, bind, Except.bind, pure, Except.pure]
      rw [if_pos (by simp), if_pos (by simp)], ?_⟩
    simp [eqConstrs, leConstrs, Expr.eq, Expr.le, Mpc.outflow, Mpc.pBus, Mpc.nBus, Mpc.desLinks, Mpc.newSocs, Mpc.dcFlow, Mpc.pOf, Mpc.pDev, Mpc.ang,
      Mpc.devIdx, Mpc.busIdx, Expr.sum, Expr.add, Expr.sub, Expr.mul, Expr.const, hbus, hdev, hload, hgen, hdes,
      hdb, hbrs, hB, hpg, X.zero_def, realPlan, List.range_succ]
    exact ⟨by norm_num, by linarith, by linarith, by linarith, by linarith⟩
  exact hp

/-- The line of `sharedNet` has no limit. -/
theorem sharedNet_rate : ∃ s, mkSim sharedNet (.fin 1) (.fin 1) = .ok s ∧
    s.branches.map (fun b => b.line.rate) = [.pinf] := by
  eval_sim [sharedNet]

/-- The hypotheses of `C80_objective` hold: this plan costs 1.5. -/
example : ∃ s m cs obj, CleanFile sharedNet 1 ∧ SimOf sharedNet (.fin 1) (.fin 1) s ∧ Numbered s 1 ∧
    FiniteLines s [sharedLine] ∧ (∀ l ∈ [sharedLine], l.shiftDeg = 0) ∧
    mkMpc realCvx s (bBus [sharedLine]) ⟨[], [], false⟩ (.fin 1) (.fin 1) 1 = .ok m ∧
    m.problem Real.pi [[.fin (-1)], [.fin (-1/2)]] [] [] = .ok (cs, obj) ∧
    List.Forall₂ (fun (br : Branch ℝ) _ => br.line.rate = .pinf) s.branches [sharedLine] ∧
    obj realPlan = .fin (3/2) := by
  obtain ⟨s, m, h1, h2, h3, h4, h5, h6, h7, cs, obj, h8, h9⟩ := realPlan_ok
  have hr : List.Forall₂ (fun (br : Branch ℝ) _ => br.line.rate = .pinf) s.branches [sharedLine] := by
    obtain ⟨s0, e1, e2⟩ := h2
    obtain ⟨s1, g1, g2⟩ := sharedNet_rate
    rw [e1] at g1
    cases g1
    obtain ⟨b, hb, hb'⟩ := List.map_eq_singleton_iff.1 g2
    have := e2.branches
    rw [hb, List.forall₂_cons_left_iff] at this
    obtain ⟨b', u, h, hu, e⟩ := this
    rw [List.forall₂_nil_left_iff] at hu
    rw [e, hu]
    exact .cons (by rw [h]; exact hb') .nil
  refine ⟨s, m, cs, obj, h1, h2, h3, h4, h5, h6, h8, hr, ?_⟩
  rw [C80_objective h1 h2 h3 h4 h5 h6 one_pos (fun _ => none) hr h8]
  obtain ⟨s1, g1, F1⟩ := sharedNet_mk
  obtain ⟨s0, e1, e2⟩ := h2
  rw [e1] at g1
  cases g1
  have F := two_same e2 F1
  obtain ⟨d, e, f, hd, hd1, he1, hf1⟩ := devs_three F
  simp only [slackAt, loadAt, Prod.mk.injEq] at hd1 he1 hf1
  simp [stageCost, hd, Finset.sum_range_succ, hd1.2.2.1, he1.2.2.1, hf1.2.2.1, power, angle, realPlan, dcLine, sharedLine]

/-- The hypotheses of `C81_feasible_iff` hold. -/
example : ∃ s m d0, CleanFile sharedNet 1 ∧ Documented sharedNet ∧ SimOf sharedNet (.fin 1) (.fin 1) s ∧ Numbered s 1 ∧
    FiniteLines s [sharedLine] ∧ (∀ l ∈ [sharedLine], l.shiftDeg = 0) ∧
    mkMpc realCvx s (bBus [sharedLine]) ⟨[], [], false⟩ (.fin 1) (.fin 1) 1 = .ok m ∧
    s.devices[0]? = some d0 ∧ d0.isSlack = true ∧ 0 < s.buses.length ∧
    (s.devices.filter fun d : Device ℝ => (d.kind = .classical ∨ d.kind = .renewable) ∧ d.isSlack = false).length = 0 ∧
    (s.devices.filter fun d : Device ℝ => d.kind = .storage).length = 0 ∧
    PlanAt s [sharedLine] 1 [[.fin (-1)], [.fin (-1/2)]] [] [] realPlan 0 := by
  obtain ⟨s, m, h1, h2, h3, h4, h5, h6, h7, hx⟩ := realPlan_ok
  obtain ⟨s1, g1, F1⟩ := sharedNet_mk
  have h2' := h2
  obtain ⟨s0, e1, e2⟩ := h2'
  rw [e1] at g1
  cases g1
  have F := two_same e2 F1
  obtain ⟨d, e, f, hd, hd1, he1, hf1⟩ := devs_three F
  obtain ⟨b0, b1, hb, -⟩ := two_buses F
  simp only [slackAt, loadAt, Prod.mk.injEq] at hd1 he1 hf1
  have k1 : (s.devices.filter fun d : Device ℝ => (d.kind = .classical ∨ d.kind = .renewable) ∧ d.isSlack = false).length = 0 := by
    simp [hd, hd1.2.2.1, he1.2.2.1, hf1.2.2.1, hd1.2.2.2.1]
  have k2 : (s.devices.filter fun d : Device ℝ => d.kind = .storage).length = 0 := by
    simp [hd, hd1.2.2.1, he1.2.2.1, hf1.2.2.1]
  refine ⟨s, m, d, h1, sharedNet_documented, h2, h3, h4, h5, h6, by simp [hd], hd1.2.2.2.1, by simp [hb], k1, k2, ?_⟩
  refine (C81_feasible_iff h1 sharedNet_documented h2 h3 h4 h5 h6 one_pos (j0 := 0) (d0 := d) (by simp [hd]) hd1.2.2.2.1
    (by simp [hb]) (by simp) (by rw [k1]; rfl) (by simp) (by rw [k2]; rfl) ?_ realPlan).1 hx 0 one_pos
  intro d' hd' hk
  have := List.length_eq_zero_iff.1 k2
  rw [List.filter_eq_nil_iff] at this
  exact absurd hk (by simpa using this d' hd')

end Anm
