import Verif.Props.Stored
import Verif.Props.EnvTotal

/-! # C91: a case that meets the hypotheses and attains the bound -/

set_option linter.unusedSimpArgs false
namespace Anm
open Spec Complex ComplexConjugate
noncomputable section

/-- A storage unit of 4 MWh. -/
def rstore (i bus : ℝ) : DevRow ℝ
  | .devId => rnum i | .busId => rnum bus | .devType => rnum 3 | .pmax => rnum 2 | .pmin => rnum (-2)
  | .qmax => rnum 1 | .qmin => rnum (-1) | .socMax => rnum 4 | .eff => rnum (1/2) | _ => none

/-- Two buses and a purely inductive line; a load and a storage unit at bus 1. -/
def storeNet : Network ℝ :=
  ⟨.fin 1, [rbus 0 0 132 1 (rnum 1), rbus 1 1 33 3 (rnum 0)], [rline 0 1 0 1 0 1 0],
    [rslack 0 0, rload 1 1 0 (-2), rstore 2 1]⟩

def storeDes : DesParams ℝ := ⟨-2, 2, -1, 1, 2, -2, 1, -1, 0, 4, 1/2⟩

def storeAt : ℤ × ℤ × DevKind × Bool × X ℝ × X ℝ × X ℝ := (2, 1, .storage, false, .nan, .fin (-2), .fin 2)

theorem storeNet_mk : ∃ s, mkSim storeNet (.fin 1) (.fin 1) = .ok s ∧
    TwoFacts s true sharedLine [slackAt 0, loadAt 1 1, storeAt] ∧
    ∀ d ∈ s.devices, d.isStorage = true → HasDesParams d storeDes := by
  simp only [twoFacts_iff]
  eval_sim [storeNet, slackAt, loadAt, storeAt, Line.finite?, sharedLine, rstore, mkStorage]
  norm_num [busBounds, Dict.set, List.insertionSort, List.orderedInsert, Device.isStorage]
  refine ⟨nofun, nofun, ?_⟩
  constructor <;> norm_num [storeDes]

theorem storeNet_clean : CleanFile storeNet 1 := by
  refine ⟨rfl, ?_, ?_, ?_⟩ <;> simp only [storeNet, List.mem_cons, List.not_mem_nil, or_false] <;> intro r hr c
  · rcases hr with rfl | rfl <;> cases c <;> simp [rbus, CellOk]
  · subst hr; cases c <;> simp [rline, CellOk]
  · rcases hr with rfl | rfl | rfl <;> cases c <;> simp [rslack, rload, rstore, CellOk]

theorem storeNet_documented : Documented storeNet := by
  refine ⟨⟨?_, ?_⟩, ?_⟩ <;> simp only [storeNet, List.mem_cons, List.not_mem_nil, or_false]
  · rintro r (rfl | rfl)
    exacts [⟨0, by simp [rbus]⟩, ⟨1, by simp [rbus]⟩]
  · rintro r (rfl | rfl | rfl)
    exacts [⟨0, by simp [rslack]⟩, ⟨1, by simp [rload]⟩, ⟨2, by simp [rstore]⟩]
  · rintro r (rfl | rfl) <;> simp [rbus]

theorem storeNet_facts {s : Sim ℝ} (hs : SimOf storeNet (.fin 1) (.fin 1) s) :
    TwoFacts s true sharedLine [slackAt 0, loadAt 1 1, storeAt] ∧
    ∀ d ∈ s.devices, d.isStorage = true → HasDesParams d storeDes := by
  obtain ⟨s0, hmk, hsc⟩ := hs
  obtain ⟨s1, hmk1, F, h⟩ := storeNet_mk
  rw [hmk] at hmk1
  cases hmk1
  refine ⟨two_same hsc F, fun d hd hl => ?_⟩
  obtain ⟨x, hx, hsm⟩ := forall₂_mem_right hsc.devices hd
  rw [hsm.classes.2.2.1] at hl
  have := h x hx hl
  rw [hsm]
  exact ⟨this.1, this.2, this.3, this.4, this.5, this.6, this.7, this.8, this.9, this.10, this.11⟩

theorem store_slack {s : Sim ℝ} (hs : SimOf storeNet (.fin 1) (.fin 1) s) : ∃ j, OneSlack s 0 j := by
  obtain ⟨i, j, hos⟩ := oneSlack_of_file storeNet_clean storeNet_documented hs
  have hm := two_numbered (storeNet_facts hs).1
  have hi : i = 0 := by
    obtain ⟨b, hb, e⟩ := hos.busMem
    rw [← e]
    exact (hm.slack b hb).1 ((hos.bus b hb).2 e)
  subst hi
  exact ⟨j, hos⟩

theorem store_alone {s : Sim ℝ} (hs : SimOf storeNet (.fin 1) (.fin 1) s) :
    ∀ d ∈ s.devices, d.busId = 0 → d.isSlack = true := by
  obtain ⟨d0, d1, d2, hds, hd0, hd1, hd2⟩ := devs_three (storeNet_facts hs).1
  simp only [slackAt, loadAt, storeAt, Prod.mk.injEq] at hd0 hd1 hd2
  simp [hds, hd0, hd1, hd2]

theorem store_capacity {s : Sim ℝ} (hs : SimOf storeNet (.fin 1) (.fin 1) s) : FiniteCapacity s :=
  fun d hd hl => ⟨_, ((storeNet_facts hs).2 d hd hl).socMax⟩

theorem store_socOk {s : Sim ℝ} {x : ℝ} (hs : SimOf storeNet (.fin 1) (.fin 1) s) (h0 : 0 ≤ x) (h4 : x ≤ 4)
    (h : ∀ d ∈ s.devices, d.isStorage = true → d.soc = some (.fin x)) : SocOk s := by
  intro d hd hl
  have g := (storeNet_facts hs).2 d hd hl
  refine ⟨_, h d hd hl, ?_, ?_⟩
  · rw [g.socMin]; exact X.fin_le_fin.2 h0
  · rw [g.socMax]; exact X.fin_le_fin.2 h4

theorem store_energy {s : Sim ℝ} {x : ℝ} (hs : SimOf storeNet (.fin 1) (.fin 1) s)
    (h : ∀ d ∈ s.devices, d.isStorage = true → d.soc = some (.fin x)) : storedEnergy s = x / 2 := by
  obtain ⟨F, hg⟩ := storeNet_facts hs
  obtain ⟨d0, d1, d2, hds, hd0, hd1, hd2⟩ := devs_three F
  simp only [slackAt, loadAt, storeAt, Prod.mk.injEq] at hd0 hd1 hd2
  have st2 : d2.isStorage = true := by simp [Device.isStorage, hd2]
  have g := hg d2 (by simp [hds]) st2
  have k := h d2 (by simp [hds]) st2
  simp [storedEnergy, hds, List.filter, Device.isStorage, hd0, hd1, hd2, deliverable, k, g.eff, g.socMin, finVal, storeDes]
  ring

theorem store_workable {s : Sim ℝ} (hs : SimOf storeNet (.fin 1) (.fin 1) s) : Workable s := by
  obtain ⟨F, hdes⟩ := storeNet_facts hs
  obtain ⟨d0, d1, d2, hds, hd0, hd1, hd2⟩ := devs_three F
  simp only [slackAt, loadAt, storeAt, Prod.mk.injEq] at hd0 hd1 hd2
  obtain ⟨b0, b1, e, h0, h1, _, _, v0, v1⟩ := two_buses F
  refine ⟨?_, ?_, ?_, ?_⟩
  · simp [hds, Device.isNonSlackGen, Device.isGen, hd0, hd1, hd2]
  · exact fun d hd hl => ⟨_, hdes d hd hl, by norm_num [storeDes]⟩
  · rw [e]; simp [v0, v1]
  · intro d hd hsl
    rw [e]
    have : d.busId = 0 := by
      revert hsl
      simp only [hds, List.mem_cons, List.not_mem_nil, or_false] at hd
      rcases hd with rfl | rfl | rfl <;> simp [hd0, hd1, hd2]
    simp [this, h0]

/-- The storage unit feeds the load: the load flow converges, and the energy loss is minus the delivered energy. -/
theorem store_step {s : Sim ℝ} {x u : ℝ} {a : Sim.Args ℝ} (o : LFOracle) (pi : ℝ) (hs : SimOf storeNet (.fin 1) (.fin 1) s)
    (hx : ∀ d ∈ s.devices, d.isStorage = true → d.soc = some (.fin x)) (h0 : 0 ≤ x) (h4 : x ≤ 4) (u0 : 0 ≤ u) (u1 : 2 * u ≤ x)
    (a1 : a.pLoad.get? 1 = some (.fin (-u))) (a2 : a.pSet.get? 2 = some (.fin u)) (a3 : a.qSet.get? 2 = some (.fin 0)) :
    ∃ s' out e, s.transition ⟨exactQP, realPF o, pi⟩ a = .ok (s', out) ∧ out.converged = true ∧
      (∀ d ∈ s'.devices, d.isStorage = true → d.soc = some (.fin (x - 2 * u))) ∧
      (∀ d ∈ s'.devices, d.isRenewable = false) ∧ out.eLoss = .fin e ∧ |e + u| ≤ 1e-5 := by
  obtain ⟨F, hdes⟩ := storeNet_facts hs
  obtain ⟨j, hos⟩ := store_slack hs
  have hm := two_numbered F
  obtain ⟨d0, d1, d2, hds, hd0, hd1, hd2⟩ := devs_three F
  simp only [slackAt, loadAt, storeAt, Prod.mk.injEq] at hd0 hd1 hd2
  have st2 : d2.isStorage = true := by simp [Device.isStorage, hd2]
  have hsoc : SocFin s := by
    intro d hd hl
    have g := hdes d hd hl
    refine ⟨x, hx d hd hl, ?_, ?_⟩
    · rw [g.socMin]; exact X.fin_le_fin.2 h0
    · rw [g.socMax]; exact X.fin_le_fin.2 h4
  have hw := store_workable hs
  obtain ⟨s', out, h⟩ := C72_transition_total (c := ⟨exactQP, realPF o, pi⟩) (a := a) C16_exact_solver_exists one_pos
    storeNet_clean hs hw (two_total F) hsoc ⟨by
      simp [hds, Device.isLoad, hd0, hd1, hd2, a1], by
      simp [hds, Device.isNonSlackGen, Device.isGen, hd0, hd1, hd2], by
      simp [hds, Device.isNonSlackGen, Device.isGen, Device.isStorage, hd0, hd1, hd2, a2, a3]⟩
  have hsc' := sameConfig_transition h
  obtain ⟨F', hdes'⟩ := storeNet_facts (simOf_transition hs h)
  obtain ⟨b0, b1, hb, i0, i1, f0, f1, _⟩ := two_buses F'
  obtain ⟨hp, hq⟩ := C33_bus_sum_partial hos h (b := b1) (by simp [hb]) (by simp [f1])
  obtain ⟨e0, e1, e2, hes, he0, he1, he2⟩ := devs_three F'
  have hL := two_load (x := -u) F h (d := e1) (by simp [hes]) he1 a1 (by linarith) (by linarith)
  simp only [slackAt, loadAt, storeAt, Prod.mk.injEq] at he0 he1 he2
  have ste2 : e2.isStorage = true := by simp [Device.isStorage, he2]
  obtain ⟨p1, p2, p3⟩ := C89_storage (p := u) (q := 0) (soc := x) (d0 := d2) storeNet_clean hs one_pos
    (qpExact_keeps C16_exact_solver_exists) h (d := e2) (by simp [hes]) ste2 (hdes' e2 (by simp [hes]) ste2)
    (by norm_num [storeDes]) (by simp [hds]) (by rw [hd2.1, he2.1]) (hx d2 (by simp [hds]) st2) (by simpa [storeDes])
    (by simpa [storeDes]) (by rw [he2.1, a2]) (by rw [he2.1, a3])
    (by constructor <;> norm_num [storeDes, lineAt] <;> linarith)
  norm_num [storeDes] at p1 p2 p3
  simp only [devicesAt, hes, i1, List.filter, he0.2.1, he1.2.1, he2.2.1, sumX, List.map, List.foldl] at hp hq
  simp [zero_add_X, hL.1, hL.2, p1, p2] at hp hq
  obtain ⟨hc, -⟩ := C73_idle storeNet_clean hs hm (two_lines F) (by simp [sharedLine]) h (by
    rw [hb]
    simp [f0, f1, hp, hq])
  have hren : ∀ d ∈ s'.devices, d.isRenewable = false := by
    simp [hes, Device.isRenewable, he0, he1, he2]
  obtain ⟨-, V, e, hV, hel, habs⟩ := C32_energy_loss zero_le_one storeNet_clean hs hm hos (two_lines F) (store_alone hs) h hc
    fun d hd hr => by simp [hren d hd] at hr
  refine ⟨s', out, e, h, hc, ?_, hren, hel, ?_⟩
  · have : e2.soc = some (.fin (x - 2 * u)) := by
      rw [p3]
      split
      · have : u = 0 := by linarith
        simp [this]
      · congr 2
        ring
    simp [hes, Device.isStorage, he0, he1, he2, this]
  · have hl : (List.map (fun l => loss l V) [sharedLine]).sum = 0 := by
      obtain ⟨-, -, hg⟩ := simOf_lines storeNet_clean hs hm (two_lines F)
      simpa [loss] using (C30_branch_losses (hg sharedLine (by simp)) _ _).2.2 rfl
    have hcu : (s'.devices.map curtailed).sum = 0 := by
      refine List.sum_eq_zero fun x hx => ?_
      obtain ⟨d, hd, rfl⟩ := List.mem_map.1 hx
      simp [curtailed, hren d hd]
    rw [hl, hcu] at habs
    simpa [hes, List.filter, Device.isStorage, he0, he1, he2, p1, finVal] using habs

/-! ### An environment -/

/-- The initial state: no powers, 2 MWh stored; the load is 1 MW. -/
def storeCtx (o : LFOracle) (pi : ℝ) : EnvCtx ℝ Unit where
  sim := ⟨exactQP, realPF o, pi⟩
  box := fun _ _ => .ok ()
  seeded := fun _ => ()
  fresh := ()
  initState := fun r => .ok ([0, 0, 0, 0, 0, 0, .fin 2], r)
  nextVars := fun _ r => .ok ([.fin (-1)], r)

def storeEnv : EnvArgs ℝ where
  network := storeNet
  observation := .callable fun v => (v, true)
  nAux := 0
  deltaT := .fin 1
  gamma := .fin (1/2)
  lamb := .fin 1
  clipping := none

theorem store_devs {s : Sim ℝ} (hs : SimOf storeNet (.fin 1) (.fin 1) s) : ∃ d0 d1 d2, s.devices = [d0, d1, d2] ∧
    (d0.isLoad = false ∧ d0.isStorage = false ∧ d0.isNonSlackGen = false ∧ d0.isSlack = true) ∧
    (d1.isLoad = true ∧ d1.isStorage = false ∧ d1.isNonSlackGen = false ∧ d1.id = 1 ∧ d1.qpRatio = .fin 0 ∧ d1.pMin = .fin (-2)) ∧
    (d2.isLoad = false ∧ d2.isStorage = true ∧ d2.isNonSlackGen = false ∧ d2.isSlack = false ∧ d2.isGen = false ∧ d2.id = 2) := by
  obtain ⟨d0, d1, d2, hds, hd0, hd1, hd2⟩ := devs_three (storeNet_facts hs).1
  simp only [slackAt, loadAt, storeAt, Prod.mk.injEq] at hd0 hd1 hd2
  exact ⟨d0, d1, d2, hds, by simp [Device.isLoad, Device.isStorage, Device.isNonSlackGen, Device.isGen, hd0],
    by simp [Device.isLoad, Device.isStorage, Device.isNonSlackGen, Device.isGen, hd1],
    by simp [Device.isLoad, Device.isStorage, Device.isNonSlackGen, Device.isGen, hd2]⟩

theorem store_made (o : LFOracle) (pi : ℝ) : ∃ e, mkEnv (storeCtx o pi) storeEnv = .ok e := by
  obtain ⟨s, hmk, -⟩ := storeNet_mk
  simp only [mkEnv, bind_ok, pure_ok]
  refine ⟨_, s, hmk, (), ?_, _, expand_state _ _, _, rfl, _, rfl, _, rfl, rfl⟩
  simp only [checkEnvArgs, bind_ok, guardE_ok]
  have g : ¬ ((.fin (1/2) : X ℝ) < 0 ∨ (.fin 1 : X ℝ) < .fin (1/2)) := by
    rw [X.zero_def, X.fin_lt_fin, X.fin_lt_fin]; norm_num
  refine ⟨(), by simp [storeEnv], (), by simp [storeEnv, X.zero_def], (), by simp [storeEnv, X.zero_def], (), g, (), rfl, ?_⟩
  simp [checkAuxBounds, storeEnv, guardE]

theorem store_counts {s : Sim ℝ} (hs : SimOf storeNet (.fin 1) (.fin 1) s) :
    s.nDevice = 3 ∧ s.nLoad = 1 ∧ s.nDes = 1 ∧ s.nNonSlackGen = 0 := by
  obtain ⟨d0, d1, d2, hds, h0, h1, h2⟩ := store_devs hs
  simp [Sim.nDevice, Sim.nLoad, Sim.nDes, Sim.nNonSlackGen, hds, List.filter, h0, h1, h2]

theorem store_renewable {s : Sim ℝ} (hs : SimOf storeNet (.fin 1) (.fin 1) s) : ∀ d ∈ s.devices, d.isRenewable = false := by
  obtain ⟨d0, d1, d2, hds, hd0, hd1, hd2⟩ := devs_three (storeNet_facts hs).1
  simp only [slackAt, loadAt, storeAt, Prod.mk.injEq] at hd0 hd1 hd2
  simp [hds, Device.isRenewable, hd0, hd1, hd2]

theorem store_tame {s : Sim ℝ} (hs : SimOf storeNet (.fin 1) (.fin 1) s) : TameLoads s := by
  obtain ⟨d0, d1, d2, hds, h0, h1, h2⟩ := store_devs hs
  intro d hd hl
  simp only [hds, List.mem_cons, List.not_mem_nil, or_false] at hd
  rcases hd with rfl | rfl | rfl
  · simp [h0] at hl
  · exact ⟨_, _, h1.2.2.2.2.1, le_rfl, h1.2.2.2.2.2⟩
  · simp [h2] at hl

theorem store_reset {s : Sim ℝ} (o : LFOracle) (pi : ℝ) (hs : SimOf storeNet (.fin 1) (.fin 1) s) :
    ∃ s', s.reset ⟨exactQP, realPF o, pi⟩ [0, 0, 0, 0, 0, 0, .fin 2] = .ok (s', true) ∧
      (∀ d ∈ s'.devices, d.isStorage = true → d.soc = some (.fin 2)) ∧ Sane s' := by
  obtain ⟨n1, n2, n3, n4⟩ := store_counts hs
  have hfin : ∀ x ∈ ([0, 0, 0, 0, 0, 0, .fin 2] : List (X ℝ)), ∃ y, x = .fin y := by
    simp [X.zero_def]
  obtain ⟨s', conv, h⟩ := C36_reset_total_partial (c := ⟨exactQP, realPF o, pi⟩) C16_exact_solver_exists one_pos storeNet_clean hs
    (store_workable hs) (two_total (storeNet_facts hs).1) (init := [0, 0, 0, 0, 0, 0, .fin 2]) (by simp [n1, n3, n4]) hfin
  have hsane := sane_reset storeNet_clean storeNet_documented hs one_pos exactQP_sound (store_workable hs) (store_tame hs) hfin h
  obtain ⟨b, ds, ds', s1, out, I, rfl⟩ := reset_ok h
  obtain ⟨d0, d1, d2, hds, h0, h1, h2⟩ := store_devs hs
  have hb := I.args
  rw [n1, n3, n4, hds] at hb
  simp [Sim.resetArgs, h0, h1, h2, Sim.slice, Sim.idx, bind, Except.bind] at hb
  have hs1 := (resetSoc_fin storeNet_clean hs (store_workable hs) (resetArgs_finite storeNet_clean hs hfin I.args) I.soc).2.1
  have hx : ∀ d ∈ ds, d.isStorage = true → d.soc = some (.fin 0) := by
    intro d hd hst
    obtain ⟨d', hd', hr⟩ := forall₂_mem_right I.soc hd
    have hr := resetSoc_ok hr
    cases hl : d'.isStorage with
    | false => rw [hr.1 hl, hl] at hst; cases hst
    | true =>
      obtain ⟨p, hp, rfl⟩ := hr.2 hl
      have : d' = d2 := by
        simp only [hds, List.mem_cons, List.not_mem_nil, or_false] at hd'
        rcases hd' with rfl | rfl | rfl
        · simp [h0] at hl
        · simp [h1] at hl
        · rfl
      subst this
      rw [← hb, h2.2.2.2.2.2] at hp
      simp [Dict.getE, Dict.get?, Dict.set] at hp
      simp [← hp, X.zero_def, ((storeNet_facts hs).2 d' (by simp [hds]) hl).socMin, storeDes]
  obtain ⟨s2, out2, e, ht, hc, hsoc, hren, -⟩ := store_step (x := 0) (u := 0) (a := b) o pi hs1 hx le_rfl (by norm_num) le_rfl (by norm_num)
    (by rw [← hb]; simp [Dict.get?, Dict.set, h1, X.zero_def]) (by rw [← hb]; simp [Dict.get?, Dict.set, h2, X.zero_def])
    (by rw [← hb]; simp [Dict.get?, Dict.set, h2, X.zero_def])
  have ht' := I.trans
  rw [ht] at ht'
  cases ht'
  refine ⟨s', hc ▸ h, ?_, hsane⟩
  have hsim2 := simOf_transition hs1 ht
  obtain ⟨st, -, rfl⟩ := I.result
  intro d' hd' hst
  obtain ⟨k, hk⟩ := List.mem_iff_getElem?.1 hd'
  obtain ⟨d, hd, e1, e2⟩ := assignSoc_get I.assign hk
  have hst0 : d.isStorage = true := by
    by_contra hcon
    rw [e1 (by simpa using hcon)] at hst
    exact hcon hst
  obtain ⟨x, hx, rfl⟩ := e2 hst0
  have hbase : s1.baseMVA = .fin 1 := (storeNet_facts hsim2).1.base
  obtain ⟨y0, y1, y2, hys, g0, g1, g2⟩ := store_devs hsim2
  rw [hys] at hd
  rw [n1, n3, hys] at hx
  match k, hd with
  | 0, hd => cases hd; simp [g0] at hst0
  | 1, hd => cases hd; simp [g1] at hst0
  | 2, hd =>
    cases hd
    simp [List.filter, g0, g1, Sim.slice] at hx
    simp [← hx, hbase, X.fin_div_fin]
  | k + 3, hd => simp at hd

theorem free_contains {w : List (X ℝ)} (h : ∀ x ∈ w, X.NotNan x) : (Env.fixSpace none w.length).contains w true := by
  refine ⟨fun _ => rfl, by simp [Env.fixSpace], ?_, ?_⟩
  all_goals
    simp only [Env.fixSpace]
    induction w with
    | nil => exact .nil
    | cons x w ih =>
      refine .cons ?_ (ih fun x hx => h x (by simp [hx]))
      have := h x (by simp)
      cases x <;> simp_all [X.NotNan]

/-- The hypotheses of C91 are met, and the bound is sharp: a storage unit of efficiency 1/2 with 2 MWh feeds a load
of 1 MW for one hour.  It can deliver 1 MWh before the step and nothing afterwards, and the energy loss is -1 (up
to the tolerance of the load flow). -/
theorem C91_sharp (o : LFOracle) (pi : ℝ) : ∃ e e' out j tr args x, EnvOf (storeCtx o pi) storeEnv e ∧ CleanFile storeNet 1 ∧
    Numbered e.sim 1 ∧ OneSlack e.sim 0 j ∧ FiniteLines e.sim [sharedLine] ∧
    (∀ d ∈ e.sim.devices, d.busId = 0 → d.isSlack = true) ∧ (∀ d ∈ e.sim.devices, d.isRenewable = false) ∧
    QPSound 0 exactQP ∧ FiniteCapacity e.sim ∧ SocOk e.sim ∧
    Episode (storeCtx o pi) e [[.fin 1, .fin 0]] [out] e' ∧ out.terminated = false ∧
    storedEnergy e.sim = 1 ∧ storedEnergy e'.sim = 0 ∧ e.sim.transition ⟨exactQP, realPF o, pi⟩ args = .ok (e'.sim, tr) ∧
    tr.eLoss = .fin x ∧ |x + 1| ≤ 1e-5 := by
  obtain ⟨e0, h0⟩ := store_made o pi
  have I := mkEnv_ok h0
  have hs0 : SimOf storeNet (.fin 1) (.fin 1) e0.sim := envOf_simOf (a := storeEnv) ⟨e0, h0, .refl⟩
  obtain ⟨n1, n2, n3, n4⟩ := store_counts hs0
  obtain ⟨s1, r1, hsoc1, hsane1⟩ := store_reset o pi hs0
  have hs1 : SimOf storeNet (.fin 1) (.fin 1) s1 := simOf_reset hs0 r1
  have hna : e0.nAux = 0 := I.nAux
  have hfn : e0.obsFn = some fun v => (v, true) := I.obsFn
  have hos : e0.obsSpace = none := by
    have h1 := I.obsValues
    have h2 := I.obsSpace
    simp only [storeEnv, obsValues, Except.ok.injEq] at h1
    simpa [← h1, observationBounds] using h2.symm
  -- the reset
  obtain ⟨e1, obs1, hreset, he1s, he1o, he1d⟩ : ∃ e1 obs, e0.reset (storeCtx o pi) none = .ok (e1, obs) ∧ e1.sim = s1 ∧
      e1.obsSpace = some (Env.fixSpace none (flatten e1.stateValues).length) ∧ ∃ y, e1.dyn = some y ∧ y.terminated = false := by
    obtain ⟨st, hst, hg⟩ := call_state (c := ⟨exactQP, realPF o, pi⟩) (.inr ⟨_, _, r1⟩)
    obtain ⟨w, hw, hnn⟩ := extract_total (e := { e0 with sim := s1 }) (v := [0, 0, 0, 0, 0, 0, .fin 2]) hsane1
      (storeNet_facts hs1).1.base one_pos hst hg (by simp [hna]) (by simp [hna, lastN])
    have hsv : e0.stateValues = stateReadings s1 e0.nAux := by
      rw [I.stateValues, stateReadings_same (sameConfig_reset r1)]
    refine ⟨{ e0 with sim := s1, obsSpace := some (Env.fixSpace none w.length), dyn := some ⟨false, 0, 0, 0, w⟩ }, w, ?_, rfl, ?_, _, rfl, rfl⟩
    swap
    · rw [hsv, ← mapE_length hw]
    simp only [Env.reset, bind_ok, guardE_ok, pure_ok]
    refine ⟨(s1, _, e0.rng), ?_, w, by rw [hsv]; exact hw, (w, true), by simp [Env.observe, hfn], (), ?_, ?_⟩
    · rw [Env.search]
      simp only [storeCtx, bind_ok, guardE_ok]
      refine ⟨(_, e0.rng), rfl, (), by simp [Env.initSize, n1, n3, n4, hna], (s1, true), r1, ?_⟩
      simp
    · rw [hos]
      exact free_contains hnn
    · simp [hos]
  obtain ⟨y, hy, hyt⟩ := he1d
  have he1 : EnvOf (storeCtx o pi) storeEnv e1 := ⟨e0, h0, .single (.inl ⟨_, _, hreset⟩)⟩
  subst he1s
  obtain ⟨d0, d1, d2, hds, g0, g1, g2⟩ := store_devs hs1
  obtain ⟨m1, m2, m3, m4⟩ := store_counts hs1
  obtain ⟨e00, I1, hse, -, -⟩ := envOf_inv he1
  have hna1 : e1.nAux = 0 := by rw [hse.nAux, I1.nAux]; rfl
  have hslots : slots e1.sim = [(d2, true), (d2, false)] := by
    simp [slots, hds, List.filter, g0, g1, g2]
  have hact : e1.actionSpace.contains [.fin 1, .fin 0] true := by
    obtain ⟨⟨h1, h2⟩, -⟩ := C45_actions he1
    have g := (storeNet_facts hs1).2 d2 (by simp [hds]) g2.2.1
    refine ⟨fun _ => rfl, ?_, ?_, ?_⟩
    · simp [h1, hslots]
    · norm_num [h1, hslots, slotBounds, g.pmin, g.qmin, (storeNet_facts hs1).1.base, storeDes]
    · norm_num [h2, hslots, slotBounds, g.pmax, g.qmax, (storeNet_facts hs1).1.base, storeDes]
  -- the step
  let args : Sim.Args ℝ := ⟨Dict.set [] 1 (.fin (-1)), [], Dict.set [] 2 (.fin 1), Dict.set [] 2 (.fin 0)⟩
  have hvd : Env.varDicts ([.fin (-1)].take e1.sim.nLoad)
      (Sim.slice [.fin (-1)] e1.sim.nLoad (e1.sim.nLoad + e1.sim.nNonSlackGen)) e1.sim.devices 0 0 ([], []) =
        .ok (args.pLoad, args.pPot) := by
    simp [hds, Env.varDicts, g0, g1, g2, m2, m4, Sim.idx, bind, Except.bind, args]
  have hdec : Env.decode e1.sim [.fin 1, .fin 0] = (args.pSet, args.qSet) := by
    simp [Env.decode, hds, List.filter, g0, g1, g2, Env.assign, Sim.slice, args]
  obtain ⟨s2, tr, x, ht, hc, hsoc2, hren, hx, hab⟩ := store_step (x := 2) (u := 1) (a := args) o pi hs1 hsoc1 (by norm_num)
    (by norm_num) (by norm_num) (by norm_num) rfl rfl rfl
  have hs2 := simOf_transition hs1 ht
  obtain ⟨e2, out, hstep, he2, hout⟩ : ∃ e2 out, e1.step (storeCtx o pi) [.fin 1, .fin 0] = .ok (e2, out) ∧ e2.sim = s2 ∧
      out.terminated = false := by
    obtain ⟨st, hst, hg⟩ := call_state (c := ⟨exactQP, realPF o, pi⟩) (.inl ⟨_, _, ht⟩)
    obtain ⟨hsane2, -⟩ := sane_transition storeNet_clean storeNet_documented hs1 one_pos exactQP_sound (store_capacity hs1)
      (store_socOk hs1 (by norm_num) (by norm_num) hsoc1) (a := args)
      (tame_of_finite (store_tame hs1) ⟨by simp [hds, g0, g1, g2, args, Dict.get?, Dict.set],
        by simp [hds, g0, g1, g2], by simp [hds, g0, g1, g2, args, Dict.get?, Dict.set]⟩) ht
    obtain ⟨w, hw, hnn⟩ := extract_total (e := { e1 with sim := s2 }) (v := y.state) hsane2
      (storeNet_facts hs2).1.base one_pos hst hg (by simp [hna1]) (by simp [hna1, lastN])
    have hsv : e1.stateValues = stateReadings s2 e1.nAux := by
      rw [envOf_stateValues he1, stateReadings_same (sameConfig_transition ht)]
    have hsp : e1.obsSpace = some (Env.fixSpace none w.length) := by rw [he1o, hsv, mapE_length hw]
    obtain ⟨⟨r, el, pn⟩, hr⟩ : ∃ r, e1.rewardOf tr.converged tr.eLoss tr.penalty = .ok r := by
      rw [hc]
      exact ⟨_, rfl⟩
    have hfn1 : e1.obsFn = some fun v => (v, true) := by rw [hse.obsFn, I1.obsFn]; rfl
    simp only [Env.step, bind_ok, guardE_ok, hy]
    refine ⟨{ e1 with sim := s2, dyn := some ⟨!tr.converged, y.timestep + 1, el, pn, w⟩ }, ⟨w, r, !tr.converged⟩, ⟨(), hact, ?_⟩, rfl, by simp [hc]⟩
    rw [if_neg (by simp [hyt])]
    simp only [Env.advance, bind_ok, guardE_ok, pure_ok]
    refine ⟨([.fin (-1)], e1.rng), rfl, (), by simp [m2, m4, hna1], (args.pLoad, args.pPot), hvd, (s2, tr), by rw [hdec]; exact ht,
      _, hr, (w, w), ?_, rfl⟩
    simp only [Env.vectors, hc, if_true, Env.observeStep, hna1, Env.setAux, bind_ok]
    refine ⟨_, rfl, w, by rw [hsv]; rw [← hw]; simp [Env.extract, hna1], (w, true), by simp [Env.observe, hfn1], ?_⟩
    simp only [hsp, bind_ok, guardE_ok, pure_ok]
    exact ⟨(), free_contains hnn, trivial⟩
  subst he2
  obtain ⟨j, hj⟩ := store_slack hs1
  refine ⟨e1, e2, out, j, tr, args, x, he1, storeNet_clean, two_numbered (storeNet_facts hs1).1, hj, two_lines (storeNet_facts hs1).1, store_alone hs1, ?_,
    exactQP_sound, store_capacity hs1, store_socOk hs1 (by norm_num) (by norm_num) hsoc1, .cons hstep (.nil _), hout, ?_, ?_, ht, hx, hab⟩
  · exact store_renewable hs1
  · rw [store_energy hs1 hsoc1]; norm_num
  · rw [store_energy hs2 hsoc2]; norm_num

end
end Anm
