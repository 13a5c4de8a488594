import Verif.Props.RenderEasy

/-! # C85, C86, C87: the messages of ANM6Easy and the picture shown by a browser -/

set_option linter.unusedSectionVars false

namespace Anm

open Spec

section
variable {K ρ : Type} [Field K] [LinearOrder K] [IsStrictOrderedRing K] [FloorRing K]
  {w : EasyWorld K ρ} {s0 : Sim K} {a a1 a' : Anm6 K ρ} {f : Frame K}

/-! ### The transition that led to the state -/

/-- The state of `s'` is the one after a transition with finite arguments, except for the energies set by
`reset`. -/
structure Last (c : Ctx K) (s' : Sim K) (y : EnvDyn K) (s s1 : Sim K) (args : Sim.Args K) (out : Sim.TransOut K) : Prop where
  sim : SimOf anm6Net (.fin (1/4)) (.fin 100) s
  soc : SocFin s
  finite : FiniteArgs s args
  loads : TameLoads s
  trans : s.transition c args = .ok (s1, out)
  conv : out.converged = !y.terminated
  buses : s'.buses = s1.buses
  branches : s'.branches = s1.branches
  devices : List.Forall₂ (fun d d' : Device K => ∃ x, d' = { d with soc := x }) s1.devices s'.devices
  costs : y.terminated = false → (y.eLoss = 0 ∧ y.penalty = 0) ∨
    (s1 = s' ∧ y.eLoss = X.sign out.eLoss * X.clip (X.abs out.eLoss) 0 (.fin 1) ∧ y.penalty = X.clip out.penalty 0 (.fin 100))

theorem easy_clipping (ha : EasyOf w s0 a) : a.env.c1 = .fin 1 ∧ a.env.c2 = .fin 100 := by
  obtain ⟨e0, I, hs, -, -⟩ := envOf_inv (easy_env ha)
  exact ⟨by rw [hs.c1, I.c1]; rfl, by rw [hs.c2, I.c2]; rfl⟩

theorem assignSoc_forall {base : X K} {soc : List (X K)} : ∀ {ds ds' : List (Device K)} {k : ℕ},
    Sim.assignSoc base soc ds k = .ok ds' → List.Forall₂ (fun d d' : Device K => ∃ x, d' = { d with soc := x }) ds ds' := by
  intro ds
  induction ds with
  | nil =>
    intro ds' k h
    simp only [Sim.assignSoc, Except.ok.injEq] at h
    rw [← h]; exact .nil
  | cons d ds ih =>
    intro ds' k h
    unfold Sim.assignSoc at h
    split at h
    · simp only [bind_ok, pure_ok] at h
      obtain ⟨x, _, r, h1, rfl⟩ := h
      exact .cons ⟨_, rfl⟩ (ih h1)
    · simp only [bind_ok, pure_ok] at h
      obtain ⟨r, h1, rfl⟩ := h
      exact .cons ⟨d.soc, rfl⟩ (ih h1)

theorem easy_last (ha : EasyOf w s0 a) (hg : Fair w.rng) (G : GoodSolvers w.sim (easySim : Sim K)) {y : EnvDyn K}
    (hy : a.env.dyn = some y) : ∃ s s1 args out, Last w.sim a.env.sim y s s1 args out := by
  induction ha generalizing y with
  | make h1 h2 =>
    obtain ⟨e, m, n, h3, _, _, rfl⟩ := mkAnm6_ok h2
    rw [show ({ env := e, specs := n, tick := m * (60 * 1000000) } : Anm6 K ρ).env.dyn = none from (mkEnv_ok h3).dyn] at hy
    cases hy
  | @reset a a' seed date obs ha h1 ih =>
    obtain ⟨e, d, r, y', x, t, h2, h3, h4, h5, h6, rfl⟩ := easyReset_ok h1
    obtain ⟨v, st, nw, I⟩ := env_reset_ok h2
    have hd : e.dyn = some { terminated := false, timestep := 0, eLoss := 0, penalty := 0, state := st } := by
      rw [I.result]
    have hy : e.dyn = some y := hy
    rw [hd] at hy
    cases hy
    obtain ⟨r', hs, -⟩ := I.search
    obtain ⟨s1, r1, k1, k2, k3, k4⟩ := search_ok hs
    have H := easy_ready ha
    have hc1 := sameConfig_history k1
    have hs1 : SimOf anm6Net (.fin (1/4)) (.fin 100) s1 := by
      obtain ⟨s2, g1, g2⟩ := envOf_simOf (easy_env ha)
      exact ⟨s2, g1, sameConfig_trans g2 hc1⟩
    obtain ⟨v2, r2, g1, g2, g3⟩ := easy_finiteInit ha hg r1
    rw [k2] at g1
    cases g1
    obtain ⟨args, ds, ds', s2, out, J, hconv⟩ := reset_ok k4
    have hargs := resetArgs_finite anm6_clean hs1 g3 J.args
    obtain ⟨hc2, hs2, hw2, hsoc2, hargs2⟩ := resetSoc_fin anm6_clean hs1 (workable_same hc1 H.workable) hargs J.soc
    obtain ⟨st', -, hres⟩ := J.result
    have hres : e.sim = { s2 with devices := ds', state := some st' } := hres
    refine ⟨_, s2, args, out, hs2, hsoc2, hargs2, tameLoads_same hc2 (tameLoads_same hc1 H.loads), J.trans, hconv.symm, ?_, ?_, ?_,
      fun _ => .inl ⟨rfl, rfl⟩⟩
    · show e.sim.buses = _; rw [hres]
    · show e.sim.branches = _; rw [hres]
    · show List.Forall₂ _ _ e.sim.devices; rw [hres]; exact assignSoc_forall J.assign
  | @step a a' u o ha h1 ih =>
    obtain ⟨e, d, d0, h2, h3, h4, rfl⟩ := anm6_step_ok h1
    have hy : e.dyn = some y := hy
    obtain ⟨hu, y1, hy1, ⟨_, rfl, rfl⟩ | ⟨hf, h5⟩⟩ := step_ok h2
    · exact ih hy
    · obtain ⟨vars, args, out, y', I⟩ := advance_ok h5
      have hd : e.dyn = some y' := by rw [I.result]
      rw [hy] at hd
      cases hd
      obtain ⟨G', hl⟩ := easy_live ha hg G
      obtain ⟨l1, l2, -⟩ := hl y1 hy1
      obtain ⟨t, _, y2, hy2, hlast⟩ := l2 hf
      rw [hy1] at hy2
      cases hy2
      obtain ⟨v, hv, xs, rfl, hx⟩ := easyNext_clock hlast
      have hn := I.next
      simp only [easyCtx, hv, Except.map, Except.ok.injEq, Prod.mk.injEq] at hn
      obtain ⟨rfl, -⟩ := hn
      obtain ⟨args', g1, g2, g3⟩ := step_args (easy_ready ha) hu I.size (by
        intro x hm
        rcases List.mem_append.1 hm with hm | hm
        · obtain ⟨s, _, q, _, rfl⟩ := forall₂_mem_right hx hm
          exact ⟨_, rfl⟩
        · rw [List.mem_singleton.1 hm]
          exact ⟨_, rfl⟩)
      rw [I.dicts] at g1
      rw [I.decode] at g2
      obtain rfl : args = args' := by
        cases args; cases args'
        simp only [Except.ok.injEq, Prod.mk.injEq] at g1 g2
        simp [g1, g2]
      refine ⟨a.env.sim, e.sim, args, out, envOf_simOf (easy_env ha), l1, g3, (easy_ready ha).loads, I.trans, ?_, rfl, rfl,
        List.forall₂_same.2 fun d _ => ⟨d.soc, rfl⟩, fun ht => .inr ⟨rfl, ?_⟩⟩
      · rw [I.terminated, Bool.not_not]
      · have ho : out.converged = true := by have := I.terminated; rw [ht] at this; simpa using this.symm
        have hr := I.reward
        rw [ho] at hr
        simp only [Env.rewardOf, if_true, Except.ok.injEq, Prod.mk.injEq] at hr
        obtain ⟨-, r2, r3⟩ := hr
        obtain ⟨c1, c2⟩ := easy_clipping ha
        rw [← c1, ← c2]
        exact ⟨r2.symm, r3.symm⟩

/-! ### The numbers of a frame -/

/-- Whenever the load flow converges on the network of ANM6, the voltages, the flows and the slack power are
numbers. -/
def Spec.NumericPF (c : Ctx K) : Prop :=
  ∀ s args s' out, SimOf anm6Net (.fin (1/4)) (.fin 100) s → s.transition c args = .ok (s', out) → out.converged = true →
    (∀ b ∈ s'.buses, X.IsFin b.v.abs ∧ (b.isSlack = true → X.IsFin b.p ∧ X.IsFin b.q)) ∧
    (∀ b ∈ s'.branches, X.IsFin b.flow.sApparentMax)

/-- Potentials are within the limits of the generator. -/
theorem gen_potential {c : Ctx K} {s s' : Sim K} {args : Sim.Args K} {out : Sim.TransOut K} {n : Network K} {base : K}
    {dt lam : X K} {d : Device K} (hn : CleanFile n base)
    (hs : SimOf n dt lam s) (ha : TameInputs s args) (h : s.transition c args = .ok (s', out)) (hd : d ∈ s'.devices)
    (hgen : d.isNonSlackGen = true) : d.pMin ≤ d.pPot ∧ d.pPot ≤ d.pMax := by
  have hs' := simOf_transition hs h
  have hbp := basePos_of_simOf hn hs
  have hns := nonSlackGen_notSlack hgen
  obtain ⟨r, hr, ids, d1, kind, hok, hm, hsm, hd1⟩ := simOf_gen hn hs' hd hgen
  have G := C05_generator hok hbp hm hd1
  have hle : d.pMin ≤ d.pMax := by
    rw [hsm]; exact X.le_trans' G.p1 G.p2
  obtain ⟨d0, hd0, hr⟩ := transition_device h hd hns.1
  obtain ⟨e1, e2, e3, e4⟩ := hr.same.classes
  rw [e4] at hgen
  rw [e1, e2, e3] at hns
  cases hr with
  | load _ hl => simp [hl] at hns
  | storage _ _ _ _ _ _ hl => simp [hl] at hns
  | slack _ _ _ hl => simp [hl] at hns
  | none _ hl => simp [hl] at hgen
  | gen pot p q x y hl _ hpot =>
    have hpn : X.NotNan (pot / s.baseMVA) := by
      rw [(simOf_base hs).1, hn.base]
      exact X.div_notNan hbp (ha.pot d0 hd0 hgen _ (Dict.getE_ok.1 hpot))
    have hc1 := X.clip_mem hpn hle
    exact X.clip_mem (X.le_notNan hc1.1).2 hle

theorem X.fin_between {x : X K} {lo hi : K} (h1 : .fin lo ≤ x) (h2 : x ≤ .fin hi) : ∃ y, x = .fin y ∧ lo ≤ y ∧ y ≤ hi := by
  cases x <;> simp_all

/-- What is reported of a device other than the slack generator. -/
theorem last_device {c : Ctx K} {s' s s1 : Sim K} {y : EnvDyn K} {args : Sim.Args K} {out : Sim.TransOut K}
    (L : Last c s' y s s1 args out) (hq : QPSound 0 c.qp) {d : Device K} (hd : d ∈ s'.devices) (hsl : d.isSlack = false) :
    (∃ p q, d.p = .fin p ∧ d.q = .fin q ∧ d.pMin ≤ .fin p ∧ .fin p ≤ d.pMax ∧ d.qMin ≤ .fin q ∧ .fin q ≤ d.qMax) ∧
    (d.isNonSlackGen = true → d.pMin ≤ d.pPot ∧ d.pPot ≤ d.pMax ∧ d.p ≤ d.pPot) := by
  obtain ⟨d1, hd1, x, rfl⟩ := forall₂_mem_right L.devices hd
  have hT := tame_of_finite L.loads L.finite
  refine ⟨device_limits (d := d1) anm6_clean L.sim hq hT L.trans hd1 hsl, fun hg => ?_⟩
  obtain ⟨g1, g2⟩ := gen_potential anm6_clean L.sim hT L.trans hd1 hg
  refine ⟨g1, g2, ?_⟩
  obtain ⟨p, q, pot, e1, _, _, _, _, g3, _⟩ := C17_gen_limits hq L.trans hd1 hg
  rw [sub_zero] at g3
  show d1.p ≤ d1.pPot
  rw [e1]; exact g3

theorem last_slack {c : Ctx K} {s' s s1 : Sim K} {y : EnvDyn K} {args : Sim.Args K} {out : Sim.TransOut K}
    (L : Last c s' y s s1 args out) (ht : y.terminated = false) (hp : NumericPF c) {d : Device K} (hd : d ∈ s'.devices) (hsl : d.isSlack = true) :
    ∃ p q, d.p = .fin p ∧ d.q = .fin q := by
  obtain ⟨d1, hd1, x, rfl⟩ := forall₂_mem_right L.devices hd
  obtain ⟨i, j, ho⟩ := oneSlack_of_file anm6_clean anm6_documented L.sim
  have ho' := oneSlack_same (sameConfig_transition L.trans) ho
  obtain ⟨b, hb, hbi⟩ := ho'.busMem
  have hbs := (ho'.bus b hb).2 hbi
  obtain ⟨e1, e2⟩ := slack_device ho L.trans hb hbs hd1 hsl
  obtain ⟨h1, h2⟩ := ((hp _ _ _ _ L.sim L.trans (by rw [L.conv, ht]; rfl)).1 b hb).2 hbs
  obtain ⟨p, hp⟩ := X.isFin_iff.1 h1
  obtain ⟨q, hq⟩ := X.isFin_iff.1 h2
  exact ⟨p, q, e1.trans hp, e2.trans hq⟩

/-- The values of a frame of ANM6Easy: numbers within the limits of the devices, in MW, MVAr, MWh. -/
structure Spec.EasyValues (f : Frame K) (p q g fl v : ℕ → K) (e loss pen : K) : Prop where
  pList : f.pInjections = [.fin (p 0), .fin (p 1), .fin (p 2), .fin (p 3), .fin (p 4), .fin (p 5), .fin (p 6)]
  qList : f.qInjections = [.fin (q 0), .fin (q 1), .fin (q 2), .fin (q 3), .fin (q 4), .fin (q 5), .fin (q 6)]
  potList : f.pPotential = [.fin (g 2), .fin (g 4)]
  flowList : f.sFlows = [.fin (fl 1), .fin (fl 2), .fin (fl 3), .fin (fl 4), .fin (fl 5)]
  vList : f.vMagn = [.fin (v 0), .fin (v 1), .fin (v 2), .fin (v 3), .fin (v 4), .fin (v 5)]
  socList : f.socStorage = [.fin e]
  costs : f.energyLoss = .fin loss ∧ f.penalty = .fin pen
  p1 : -10 ≤ p 1 ∧ p 1 ≤ 0
  p2 : 0 ≤ p 2 ∧ p 2 ≤ g 2 ∧ g 2 ≤ 30
  p3 : -30 ≤ p 3 ∧ p 3 ≤ 0
  p4 : 0 ≤ p 4 ∧ p 4 ≤ g 4 ∧ g 4 ≤ 50
  p5 : -30 ≤ p 5 ∧ p 5 ≤ 0
  p6 : -50 ≤ p 6 ∧ p 6 ≤ 50
  q1 : -2 ≤ q 1 ∧ q 1 ≤ 0
  q2 : -30 ≤ q 2 ∧ q 2 ≤ 30
  q3 : -6 ≤ q 3 ∧ q 3 ≤ 0
  q4 : -50 ≤ q 4 ∧ q 4 ≤ 50
  q5 : -6 ≤ q 5 ∧ q 5 ≤ 0
  q6 : -50 ≤ q 6 ∧ q 6 ≤ 50
  e : 0 ≤ e ∧ e ≤ 100
  loss : -1 ≤ loss ∧ loss ≤ 1
  pen : 0 ≤ pen ∧ pen ≤ 100

theorem forall₂_cons_inv {α β : Type} {R : α → β → Prop} {x : α} {l : List α} {m : List β} (h : List.Forall₂ R (x :: l) m) :
    ∃ y m', m = y :: m' ∧ R x y ∧ List.Forall₂ R l m' := by
  cases h with
  | cons h t => exact ⟨_, _, rfl, h, t⟩

theorem easy_devices {s : Sim K} (h : SameConfig easySim s) : ∃ d0 d1 d2 d3 d4 d5 d6, s.devices = [d0, d1, d2, d3, d4, d5, d6] ∧
    SameMachine anm6Slack d0 ∧ SameMachine (anm6Load 1 3 (-1/10)) d1 ∧
    SameMachine (anm6Gen 2 3 (3/10) (1/5) (3/20) (3/2) (3/5)) d2 ∧ SameMachine (anm6Load 3 4 (-3/10)) d3 ∧
    SameMachine (anm6Gen 4 4 (1/2) (7/20) (1/5) 2 (6/5)) d4 ∧ SameMachine (anm6Load 5 5 (-3/10)) d5 ∧ SameMachine anm6Des d6 := by
  have hd : List.Forall₂ SameMachine anm6Devices s.devices := h.devices
  unfold anm6Devices at hd
  obtain ⟨d0, l0, e0, h0, hd⟩ := forall₂_cons_inv hd
  obtain ⟨d1, l1, rfl, h1, hd⟩ := forall₂_cons_inv hd
  obtain ⟨d2, l2, rfl, h2, hd⟩ := forall₂_cons_inv hd
  obtain ⟨d3, l3, rfl, h3, hd⟩ := forall₂_cons_inv hd
  obtain ⟨d4, l4, rfl, h4, hd⟩ := forall₂_cons_inv hd
  obtain ⟨d5, l5, rfl, h5, hd⟩ := forall₂_cons_inv hd
  obtain ⟨d6, l6, rfl, h6, hd⟩ := forall₂_cons_inv hd
  cases hd
  exact ⟨d0, d1, d2, d3, d4, d5, d6, e0, h0, h1, h2, h3, h4, h5, h6⟩

theorem easy_branches {s : Sim K} (h : SameConfig easySim s) : ∃ b1 b2 b3 b4 b5, s.branches = [b1, b2, b3, b4, b5] ∧
    b1.line.rate = .fin (32/100) ∧ b2.line.rate = .fin (25/100) ∧ b3.line.rate = .fin (18/100) ∧
    b4.line.rate = .fin (18/100) ∧ b5.line.rate = .fin (18/100) := by
  have hd : List.Forall₂ (fun b b' : Branch K => b'.line = b.line) (anm6Lines.map (fun l => { line := l })) s.branches := h.branches
  unfold anm6Lines at hd
  simp only [List.map_cons, List.map_nil] at hd
  obtain ⟨d1, l1, e1, h1, hd⟩ := forall₂_cons_inv hd
  obtain ⟨d2, l2, rfl, h2, hd⟩ := forall₂_cons_inv hd
  obtain ⟨d3, l3, rfl, h3, hd⟩ := forall₂_cons_inv hd
  obtain ⟨d4, l4, rfl, h4, hd⟩ := forall₂_cons_inv hd
  obtain ⟨d5, l5, rfl, h5, hd⟩ := forall₂_cons_inv hd
  cases hd
  exact ⟨d1, d2, d3, d4, d5, e1, by rw [h1], by rw [h2], by rw [h3], by rw [h4], by rw [h5]⟩

theorem easy_buses {s : Sim K} (h : SameConfig easySim s) : ∃ b0 b1 b2 b3 b4 b5, s.buses = [b0, b1, b2, b3, b4, b5] ∧
    (b0.vMin = some (.fin 1) ∧ b0.vMax = .fin 1) ∧
    ∀ b ∈ [b1, b2, b3, b4, b5], b.vMin = some (.fin (9/10)) ∧ b.vMax = .fin (11/10) := by
  have hd : List.Forall₂ SameBus (([0, 1, 2, 3, 4, 5].map anm6Bus).map (busBounds anm6Devices)) s.buses := h.buses
  simp only [List.map_cons, List.map_nil] at hd
  obtain ⟨d0, l0, e0, h0, hd⟩ := forall₂_cons_inv hd
  obtain ⟨d1, l1, rfl, h1, hd⟩ := forall₂_cons_inv hd
  obtain ⟨d2, l2, rfl, h2, hd⟩ := forall₂_cons_inv hd
  obtain ⟨d3, l3, rfl, h3, hd⟩ := forall₂_cons_inv hd
  obtain ⟨d4, l4, rfl, h4, hd⟩ := forall₂_cons_inv hd
  obtain ⟨d5, l5, rfl, h5, hd⟩ := forall₂_cons_inv hd
  cases hd
  refine ⟨d0, d1, d2, d3, d4, d5, e0, ⟨by rw [h0]; rfl, by rw [h0]; rfl⟩, ?_⟩
  intro b hb
  simp only [List.mem_cons, List.not_mem_nil, or_false] at hb
  rcases hb with rfl | rfl | rfl | rfl | rfl
  · exact ⟨by rw [h1]; rfl, by rw [h1]; rfl⟩
  · exact ⟨by rw [h2]; rfl, by rw [h2]; rfl⟩
  · exact ⟨by rw [h3]; rfl, by rw [h3]; rfl⟩
  · exact ⟨by rw [h4]; rfl, by rw [h4]; rfl⟩
  · exact ⟨by rw [h5]; rfl, by rw [h5]; rfl⟩

theorem eLoss_fin (ds : List (Device K)) (hp : ∀ d ∈ ds, X.IsFin d.p ∧ (d.isRenewable = true → X.IsFin d.pPot)) {x : X K}
    (hx : X.IsFin x) : X.IsFin (ds.foldl Sim.eLossStep x) := by
  induction ds generalizing x with
  | nil => exact hx
  | cons d ds ih =>
    refine ih (fun d' h => hp d' (List.mem_cons_of_mem _ h)) ?_
    obtain ⟨h1, h2⟩ := hp d (List.mem_cons_self ..)
    obtain ⟨x, rfl⟩ := X.isFin_iff.1 hx
    obtain ⟨p, hp⟩ := X.isFin_iff.1 h1
    unfold Sim.eLossStep
    rw [hp]
    cases hr : d.isRenewable with
    | false => cases (d.isGen || d.isLoad) <;> simp [X.IsFin]
    | true =>
      obtain ⟨g, hg⟩ := X.isFin_iff.1 (h2 hr)
      rw [hg, X.zero_def]
      cases (d.isGen || d.isLoad) <;> simp [X.IsFin, X.maximum_fin]

/-- What is known of the voltages and flows of a state that is not terminal. -/
theorem last_measured {c : Ctx K} {s' s s1 : Sim K} {y : EnvDyn K} {args : Sim.Args K} {out : Sim.TransOut K}
    (L : Last c s' y s s1 args out) (ht : y.terminated = false) (hp : NumericPF c) :
    (∀ b ∈ s'.buses, X.IsFin b.v.abs) ∧ (∀ b ∈ s'.branches, X.IsFin b.flow.sApparentMax) ∧
      0 ≤ out.penalty ∧ (out.penalty = 0 ↔ WithinLimits s1) := by
  obtain ⟨h1, h2⟩ := hp _ _ _ _ L.sim L.trans (by rw [L.conv, ht]; rfl)
  obtain ⟨_, e1, e2⟩ := simOf_base L.sim
  obtain ⟨-, h3, h4⟩ := C37_penalty L.trans e1 e2 (by norm_num) (by norm_num)
    (measured_of_finite anm6_clean (simOf_transition L.sim L.trans) (fun b hb => (h1 b hb).1) h2)
  rw [L.buses, L.branches]
  exact ⟨fun b hb => (h1 b hb).1, h2, h3, h4⟩

theorem easy_values (ha : EasyOf w s0 a) (hg : Fair w.rng) (G : GoodSolvers w.sim (easySim : Sim K)) (hp : NumericPF w.sim)
    {y : EnvDyn K} (hy : a.env.dyn = some y) (ht : y.terminated = false) (d : ℤ) :
    ∃ p q g fl v e loss pen, EasyValues (frameOf a y d) p q g fl v e loss pen := by
  obtain ⟨s, s1, args, out, L⟩ := easy_last ha hg G hy
  obtain ⟨m1, m2, m3, m4⟩ := last_measured L ht hp
  have hcfg := easy_sameConfig ha
  have hbase : a.env.sim.baseMVA = .fin 100 := hcfg.base
  obtain ⟨hsoc, -⟩ := (easy_live ha hg G).2 y hy
  obtain ⟨d0, d1, d2, d3, d4, d5, d6, hds, k0, k1, k2, k3, k4, k5, k6⟩ := easy_devices hcfg
  obtain ⟨b1, b2, b3, b4, b5, hbr, -⟩ := easy_branches hcfg
  obtain ⟨c0, c1, c2, c3, c4, c5, hbs, -⟩ := easy_buses hcfg
  have hmem : ∀ x ∈ [d0, d1, d2, d3, d4, d5, d6], x ∈ a.env.sim.devices := fun x hx => hds ▸ hx
  simp only [List.forall_mem_cons] at hmem
  obtain ⟨i0, i1, i2, i3, i4, i5, i6, -⟩ := hmem
  have n0 : d0.isSlack = true := by rw [k0]; rfl
  have n1 : d1.isSlack = false := by rw [k1]; rfl
  have n2 : d2.isSlack = false := by rw [k2]; rfl
  have n3 : d3.isSlack = false := by rw [k3]; rfl
  have n4 : d4.isSlack = false := by rw [k4]; rfl
  have n5 : d5.isSlack = false := by rw [k5]; rfl
  have n6 : d6.isSlack = false := by rw [k6]; rfl
  obtain ⟨p0, q0, hp0, hq0⟩ := last_slack L ht hp i0 n0
  obtain ⟨⟨p1, q1, hp1, hq1, l11, l12, l13, l14⟩, -⟩ := last_device L G.sound i1 n1
  obtain ⟨⟨p2, q2, hp2, hq2, l21, l22, l23, l24⟩, l2⟩ := last_device L G.sound i2 n2
  obtain ⟨⟨p3, q3, hp3, hq3, l31, l32, l33, l34⟩, -⟩ := last_device L G.sound i3 n3
  obtain ⟨⟨p4, q4, hp4, hq4, l41, l42, l43, l44⟩, l4⟩ := last_device L G.sound i4 n4
  obtain ⟨⟨p5, q5, hp5, hq5, l51, l52, l53, l54⟩, -⟩ := last_device L G.sound i5 n5
  obtain ⟨⟨p6, q6, hp6, hq6, l61, l62, l63, l64⟩, -⟩ := last_device L G.sound i6 n6
  obtain ⟨l25, l26, l27⟩ := l2 (by rw [k2]; rfl)
  obtain ⟨l45, l46, l47⟩ := l4 (by rw [k4]; rfl)
  obtain ⟨e, he, l65, l66⟩ := hsoc d6 i6 (by rw [k6]; rfl)
  rw [hp2] at l27
  rw [hp4] at l47
  have t1 : d1.pMin = .fin (-1/10) ∧ d1.pMax = .fin 0 ∧ d1.qMin = .fin (-1/10/5) ∧ d1.qMax = .fin 0 := by rw [k1]; exact ⟨rfl, rfl, rfl, rfl⟩
  have t2 : d2.pMin = .fin 0 ∧ d2.pMax = .fin (3/10) ∧ d2.qMin = .fin (-(3/10)) ∧ d2.qMax = .fin (3/10) := by rw [k2]; exact ⟨rfl, rfl, rfl, rfl⟩
  have t3 : d3.pMin = .fin (-3/10) ∧ d3.pMax = .fin 0 ∧ d3.qMin = .fin (-3/10/5) ∧ d3.qMax = .fin 0 := by rw [k3]; exact ⟨rfl, rfl, rfl, rfl⟩
  have t4 : d4.pMin = .fin 0 ∧ d4.pMax = .fin (1/2) ∧ d4.qMin = .fin (-(1/2)) ∧ d4.qMax = .fin (1/2) := by rw [k4]; exact ⟨rfl, rfl, rfl, rfl⟩
  have t5 : d5.pMin = .fin (-3/10) ∧ d5.pMax = .fin 0 ∧ d5.qMin = .fin (-3/10/5) ∧ d5.qMax = .fin 0 := by rw [k5]; exact ⟨rfl, rfl, rfl, rfl⟩
  have t6 : d6.pMin = .fin (-1/2) ∧ d6.pMax = .fin (1/2) ∧ d6.qMin = .fin (-1/2) ∧ d6.qMax = .fin (1/2) := by rw [k6]; exact ⟨rfl, rfl, rfl, rfl⟩
  have t7 : d6.socMin = .fin 0 ∧ d6.socMax = .fin 1 := by rw [k6]; exact ⟨rfl, rfl⟩
  rw [t1.1] at l11; rw [t1.2.1] at l12; rw [t1.2.2.1] at l13; rw [t1.2.2.2] at l14
  rw [t2.1] at l21 l25; rw [t2.2.1] at l22 l26; rw [t2.2.2.1] at l23; rw [t2.2.2.2] at l24
  rw [t3.1] at l31; rw [t3.2.1] at l32; rw [t3.2.2.1] at l33; rw [t3.2.2.2] at l34
  rw [t4.1] at l41 l45; rw [t4.2.1] at l42 l46; rw [t4.2.2.1] at l43; rw [t4.2.2.2] at l44
  rw [t5.1] at l51; rw [t5.2.1] at l52; rw [t5.2.2.1] at l53; rw [t5.2.2.2] at l54
  rw [t6.1] at l61; rw [t6.2.1] at l62; rw [t6.2.2.1] at l63; rw [t6.2.2.2] at l64
  rw [t7.1] at l65; rw [t7.2] at l66
  obtain ⟨g2, hg2, -⟩ := X.fin_between l25 l26
  obtain ⟨g4, hg4, -⟩ := X.fin_between l45 l46
  rw [hg2] at l25 l26 l27
  rw [hg4] at l45 l46 l47
  simp only [X.fin_le_fin] at *
  have hmb : ∀ x ∈ [b1, b2, b3, b4, b5], ∃ z, x.flow.sApparentMax = .fin z := fun x hx => X.isFin_iff.1 (m2 x (hbr ▸ hx))
  simp only [List.forall_mem_cons] at hmb
  obtain ⟨⟨f1, hf1⟩, ⟨f2, hf2⟩, ⟨f3, hf3⟩, ⟨f4, hf4⟩, ⟨f5, hf5⟩, -⟩ := hmb
  have hmc : ∀ x ∈ [c0, c1, c2, c3, c4, c5], ∃ z, x.v.abs = .fin z := fun x hx => X.isFin_iff.1 (m1 x (hbs ▸ hx))
  simp only [List.forall_mem_cons] at hmc
  obtain ⟨⟨v0, hv0⟩, ⟨v1, hv1⟩, ⟨v2, hv2⟩, ⟨v3, hv3⟩, ⟨v4, hv4⟩, ⟨v5, hv5⟩, -⟩ := hmc
  have hcost : ∃ loss pen, y.eLoss = .fin loss ∧ y.penalty = .fin pen ∧ (-1 ≤ loss ∧ loss ≤ 1) ∧ (0 ≤ pen ∧ pen ≤ 100) := by
    rcases L.costs ht with ⟨h1, h2⟩ | ⟨rfl, h1, h2⟩
    · exact ⟨0, 0, h1, h2, by norm_num, by norm_num⟩
    · have hE : X.IsFin out.eLoss := by
        obtain ⟨ds, o, I⟩ := transition_ok L.trans
        have hr := I.reward
        simp only [Sim.computeReward, bind_ok, pure_ok, Prod.mk.injEq] at hr
        obtain ⟨bp, hbp, e1, e2, e3⟩ := hr
        have hdt : a.env.sim.deltaT = .fin (1/4) := hcfg.dt
        have hall : ∀ d ∈ a.env.sim.devices, X.IsFin d.p ∧ (d.isRenewable = true → X.IsFin d.pPot) := by
          rw [hds]
          have r0 : d0.isRenewable = false := by rw [k0]; rfl
          have r1 : d1.isRenewable = false := by rw [k1]; rfl
          have r3 : d3.isRenewable = false := by rw [k3]; rfl
          have r5 : d5.isRenewable = false := by rw [k5]; rfl
          have r6 : d6.isRenewable = false := by rw [k6]; rfl
          simp [hp0, hp1, hp2, hp3, hp4, hp5, hp6, hg2, hg4, r0, r1, r3, r5, r6, X.IsFin]
        obtain ⟨z, hz⟩ := X.isFin_iff.1 (eLoss_fin _ hall (x := 0) trivial)
        rw [← e2, hz, hdt]
        trivial
      obtain ⟨z, hz⟩ := X.isFin_iff.1 hE
      obtain ⟨a1, a2, -⟩ := X.clip_energy (x := out.eLoss) (c := (1 : K)) (by rw [hz]; trivial) zero_le_one
      rw [← h1] at a1 a2
      have hpn : X.NotNan out.penalty := (X.le_notNan m3).2
      obtain ⟨a3, a4⟩ := X.clip_mem hpn (show (0 : X K) ≤ .fin 100 from by rw [X.zero_def, X.fin_le_fin]; norm_num)
      rw [← h2] at a3 a4
      obtain ⟨loss, e1, e2, e3⟩ := X.fin_between a1 a2
      obtain ⟨pen, e4, e5, e6⟩ := X.fin_between (lo := 0) a3 a4
      exact ⟨loss, pen, e1, e4, ⟨e2, e3⟩, e5, e6⟩
  obtain ⟨loss, pen, hl, hpn, hcost⟩ := hcost
  have F : ∀ x : X K, ∀ z, x = .fin z → x * .fin 100 = .fin (z * 100) := by rintro x z rfl; rfl
  refine ⟨fun i => [p0, p1, p2, p3, p4, p5, p6].getD i 0 * 100, fun i => [q0, q1, q2, q3, q4, q5, q6].getD i 0 * 100,
    fun i => [0, 0, g2, 0, g4].getD i 0 * 100, fun i => [0, f1, f2, f3, f4, f5].getD i 0 * 100,
    fun i => [v0, v1, v2, v3, v4, v5].getD i 0, e * 100, loss, pen, ?_⟩
  have s0 : d0.isStorage = false ∧ d0.isNonSlackGen = false := by rw [k0]; exact ⟨rfl, rfl⟩
  have s1 : d1.isStorage = false ∧ d1.isNonSlackGen = false := by rw [k1]; exact ⟨rfl, rfl⟩
  have s2 : d2.isStorage = false ∧ d2.isNonSlackGen = true := by rw [k2]; exact ⟨rfl, rfl⟩
  have s3 : d3.isStorage = false ∧ d3.isNonSlackGen = false := by rw [k3]; exact ⟨rfl, rfl⟩
  have s4 : d4.isStorage = false ∧ d4.isNonSlackGen = true := by rw [k4]; exact ⟨rfl, rfl⟩
  have s5 : d5.isStorage = false ∧ d5.isNonSlackGen = false := by rw [k5]; exact ⟨rfl, rfl⟩
  have s6 : d6.isStorage = true ∧ d6.isNonSlackGen = false := by rw [k6]; exact ⟨rfl, rfl⟩
  have b0 : ∀ x z : K, 0 < (100 : K) → x ≤ z → x * 100 ≤ z * 100 := fun x z h h' => mul_le_mul_of_nonneg_right h' h.le
  constructor
  · simp [frameOf, hds, hbase, hp0, hp1, hp2, hp3, hp4, hp5, hp6]
  · simp [frameOf, hds, hbase, hq0, hq1, hq2, hq3, hq4, hq5, hq6]
  · simp [frameOf, hds, hbase, hg2, hg4, s0, s1, s2, s3, s4, s5, s6]
  · simp [frameOf, hbr, hbase, hf1, hf2, hf3, hf4, hf5]
  · simp [frameOf, hbs, hv0, hv1, hv2, hv3, hv4, hv5]
  · simp [frameOf, hds, hbase, he, s0, s1, s2, s3, s4, s5, s6]
  · exact ⟨hl, hpn⟩
  all_goals (try simp only [List.getD_cons_succ, List.getD_cons_zero])
  all_goals first
    | exact hcost.1
    | exact hcost.2
    | (refine ⟨?_, ?_, ?_⟩ <;> linarith)
    | (constructor <;> linarith)

/-! ### C85: the messages are accepted -/

/-- The first message of ANM6Easy. -/
def Spec.easyMessage (title : String) : InitMsg K where
  deviceType := [0, -1, 2, -1, 2, -1, 3]
  pMax := [.fin 200, .fin 10, .fin 30, .fin 30, .fin 50, .fin 30, .fin 50]
  qMax := [.fin 200, .fin 2, .fin 30, .fin 6, .fin 50, .fin 6, .fin 50]
  sRate := [.fin 32, .fin 25, .fin 18, .fin 18, .fin 18]
  vMagnMin := [.fin 1, .fin (9/10), .fin (9/10), .fin (9/10), .fin (9/10), .fin (9/10)]
  vMagnMax := [.fin 1, .fin (11/10), .fin (11/10), .fin (11/10), .fin (11/10), .fin (11/10)]
  socMax := [.fin 100]
  energyLossMax := .fin 1
  penaltyMax := .fin 100
  title := title

theorem easy_specs (ha : EasyOf w s0 a) : (easySim : Sim K).renderingSpecs w.sim.pi = .ok a.specs := by
  induction ha with
  | make h1 h2 =>
    obtain ⟨e, m, n, h3, _, h4, rfl⟩ := mkAnm6_ok h2
    have h5 : mkSim anm6Net (.fin (1/4)) (.fin 100) = .ok e.sim := (mkEnv_ok h3).sim
    rw [anm6_mk] at h5
    rw [show easySim = e.sim from Except.ok.inj h5]
    exact h4
  | reset _ h ih =>
    obtain ⟨e, d, r, y, x, t, _, _, _, _, _, rfl⟩ := easyReset_ok h
    exact ih
  | step _ h ih =>
    obtain ⟨e, d, d0, _, _, _, rfl⟩ := anm6_step_ok h
    exact ih

/-- **C85, first message.** The first message of an ANM6Easy environment. -/
theorem C85_init (ha : EasyOf w s0 a) (title : String) : a.firstMessage title = .ok (easyMessage title) := by
  have h := easy_specs ha
  obtain ⟨c1, c2⟩ := easy_clipping ha
  have e : ∃ n, (easySim : Sim K).renderingSpecs w.sim.pi = .ok n ∧ initMessage title n (.fin 1) (.fin 100) = .ok
      { deviceType := [0, -1, 2, -1, 2, -1, 3]
        pMax := [absMax (.fin (-2 * 100), .fin (2 * 100)), absMax (.fin (-1/10 * 100), .fin (0 * 100)),
          absMax (.fin (0 * 100), .fin (3/10 * 100)), absMax (.fin (-3/10 * 100), .fin (0 * 100)),
          absMax (.fin (0 * 100), .fin (1/2 * 100)), absMax (.fin (-3/10 * 100), .fin (0 * 100)),
          absMax (.fin (-1/2 * 100), .fin (1/2 * 100))]
        qMax := [absMax (.fin (-2 * 100), .fin (2 * 100)), absMax (.fin ((-1/10) / 5 * 100), .fin (0 * 100)),
          absMax (.fin (-(3/10) * 100), .fin (3/10 * 100)), absMax (.fin ((-3/10) / 5 * 100), .fin (0 * 100)),
          absMax (.fin (-(1/2) * 100), .fin (1/2 * 100)), absMax (.fin ((-3/10) / 5 * 100), .fin (0 * 100)),
          absMax (.fin (-1/2 * 100), .fin (1/2 * 100))]
        sRate := [.fin (32/100 * 100), .fin (25/100 * 100), .fin (18/100 * 100), .fin (18/100 * 100), .fin (18/100 * 100)]
        vMagnMin := [.fin 1, .fin (9/10), .fin (9/10), .fin (9/10), .fin (9/10), .fin (9/10)]
        vMagnMax := [.fin 1, .fin (11/10), .fin (11/10), .fin (11/10), .fin (11/10), .fin (11/10)]
        socMax := [.fin (1 * 100)], energyLossMax := .fin 1, penaltyMax := .fin 100, title } := ⟨_, rfl, rfl⟩
  obtain ⟨n, h1, h2⟩ := e
  rw [h] at h1
  rw [Anm6.firstMessage, c1, c2, Except.ok.inj h1, h2]
  have A : ∀ x y : K, absMax (.fin x, .fin y) = .fin (max |x| |y|) := fun x y => X.maximum_fin _ _
  simp only [A, easyMessage]
  norm_num [abs_of_nonneg, abs_of_neg, abs_div, abs_neg]

end
end Anm
