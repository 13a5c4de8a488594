import Verif.Props.Total
import Verif.Props.EnvObs
import Verif.Props.EnvStep
import Verif.Props.State

/-! # C82: when the calls of an environment raise no exception -/

set_option linter.unusedSectionVars false

namespace Anm

open Spec

namespace Spec
variable {K : Type} [Field K] [LinearOrder K]

/-- No power, state of charge or potential is NaN, and every state of charge is known. -/
structure Sane (s : Sim K) : Prop where
  p : ∀ d ∈ s.devices, X.NotNan d.p
  q : ∀ d ∈ s.devices, X.NotNan d.q
  soc : ∀ d ∈ s.devices, d.isStorage = true → ∃ x, d.soc = some x ∧ X.NotNan x
  pot : ∀ d ∈ s.devices, d.isNonSlackGen = true → X.NotNan d.pPot

/-- Loads have a finite minimum and a finite non-negative ratio Q/P. -/
def TameLoads (s : Sim K) : Prop :=
  ∀ d ∈ s.devices, d.isLoad = true → ∃ ρ m, d.qpRatio = .fin ρ ∧ 0 ≤ ρ ∧ d.pMin = .fin m

end Spec

section
variable {K ρ : Type} [Field K] [LinearOrder K] [IsStrictOrderedRing K] [FloorRing K]
  {n : Network K} {base t : K} {lam : X K} {s s' : Sim K} {c : Ctx K} {a : Sim.Args K} {d : Device K}
  {out : Sim.TransOut K}

theorem X.mul_fin_pos_notNan {x : X K} {m : K} (hm : 0 < m) (h : X.NotNan x) : X.NotNan (x * .fin m) := by
  cases x with
  | nan => exact h.elim
  | fin x => trivial
  | ninf => rw [(inf_mul hm).2]; trivial
  | pinf => rw [(inf_mul hm).1]; trivial

theorem get?_notNan {l : List (Device K)} {f : Device K → X K} {i : Ident} {x : X K}
    (h : Dict.get? (l.map fun d => (Ident.node d.id, f d)) i = some x) (hl : ∀ d ∈ l, X.NotNan (f d)) :
    X.NotNan x := by
  rw [get?_map l _ f] at h
  obtain ⟨d, hd, rfl⟩ := Option.map_eq_some_iff.1 h
  exact hl d (List.mem_of_find?_eq_some hd)

/-- The state variables of a sane simulator are not NaN. -/
theorem sane_reading {pi : K} {st : SimState K} (hs : Sane s) (hm : s.baseMVA = .fin base) (hb : 0 < base)
    (hg : s.gatherState pi = .ok st) {k : Key} {u : QUnit} {i : Ident} {x : X K}
    (hk : (k, u) ∈ [(Key.devP, QUnit.mw), (.devQ, .mvar), (.desSoc, .mwh), (.genPMax, .mw)])
    (h : reading st k u i = some x) : X.NotNan x := by
  have hk' : (k, u) ∈ powerUnits := by
    simp only [powerUnits, List.mem_cons, Prod.mk.injEq, List.not_mem_nil, or_false] at hk ⊢
    rcases hk with hk | hk | hk | hk <;> simp [hk]
  rw [C38_power_units hg hk', hm] at h
  obtain ⟨z, hz, rfl⟩ := Option.map_eq_some_iff.1 h
  refine X.mul_fin_pos_notNan hb ?_
  simp only [Sim.gatherState, bind_ok, pure_ok] at hg
  obtain ⟨soc, hsoc, rfl⟩ := hg
  simp only [List.mem_cons, Prod.mk.injEq, List.not_mem_nil, or_false] at hk
  rcases hk with ⟨rfl, rfl⟩ | ⟨rfl, rfl⟩ | ⟨rfl, rfl⟩ | ⟨rfl, rfl⟩
  · exact get?_notNan (f := fun d => d.p) (i := i) hz hs.p
  · exact get?_notNan (f := fun d => d.q) (i := i) hz hs.q
  · have hz' : Dict.get? soc i = some z := hz
    unfold Dict.get? at hz'
    obtain ⟨e, he, rfl⟩ := Option.map_eq_some_iff.1 hz'
    obtain ⟨d, hd, h1⟩ := forall₂_mem_right (mapE_ok.1 hsoc) (List.mem_of_find?_eq_some he)
    obtain ⟨hd1, hd2⟩ := List.mem_filter.1 hd
    obtain ⟨x, hx, hn⟩ := hs.soc d hd1 hd2
    rw [hx] at h1
    cases h1
    exact hn
  · exact get?_notNan (f := fun d => d.pPot) (l := s.devices.filter Device.isNonSlackGen) (i := i) hz
      (fun d hd => hs.pot d (List.mem_filter.1 hd).1 (List.mem_filter.1 hd).2)

theorem nanToInf_notNan (x : X K) : X.NotNan (Sim.nanToInf x) := by
  unfold Sim.nanToInf
  split
  · trivial
  · cases x <;> simp_all [X.NotNan]

/-- A transition with sane inputs leaves a sane simulator. -/
theorem sane_transition (hn : CleanFile n base) (hdoc : Documented n) (hs : SimOf n (.fin t) lam s) (ht : 0 < t)
    (hq : QPSound 0 c.qp) (hf : FiniteCapacity s) (h0 : SocOk s) (ha : TameInputs s a)
    (h : s.transition c a = .ok (s', out)) : Sane s' ∧ SocOk s' := by
  have hsoc := socOk_step hn hs ht (storageNotNan_of_sound hq _) hf h0 h
  have hpq : ∀ d ∈ s'.devices, X.NotNan d.p ∧ X.NotNan d.q := by
    intro d hd
    cases hsl : d.isSlack with
    | false =>
      obtain ⟨p, q, e1, e2, _⟩ := device_limits hn hs hq ha h hd hsl
      rw [e1, e2]; exact ⟨trivial, trivial⟩
    | true =>
      obtain ⟨i, j, ho⟩ := oneSlack_of_file hn hdoc hs
      have ho' := oneSlack_same (sameConfig_transition h) ho
      obtain ⟨b, hb, hbi⟩ := ho'.busMem
      have hbs := (ho'.bus b hb).2 hbi
      obtain ⟨e1, e2⟩ := slack_device ho h hb hbs hd hsl
      rw [e1, e2]
      obtain ⟨ds, o, I⟩ := transition_ok h
      rw [I.solve.apply.buses] at hb
      obtain ⟨k, hk⟩ := List.mem_iff_getElem?.1 hb
      rw [List.getElem?_mapIdx] at hk
      obtain ⟨b0, _, rfl⟩ := Option.map_eq_some_iff.1 hk
      have hbs' : b0.isSlack = true := hbs
      simp only [hbs', if_true]
      exact ⟨nanToInf_notNan _, nanToInf_notNan _⟩
  refine ⟨⟨fun d hd => (hpq d hd).1, fun d hd => (hpq d hd).2, ?_, ?_⟩, hsoc⟩
  · intro d hd hst
    obtain ⟨x, hx, h1, h2⟩ := hsoc d hd hst
    refine ⟨x, hx, ?_⟩
    cases x with
    | nan => cases hm : d.socMin <;> rw [hm] at h1 <;> simp at h1
    | _ => trivial
  · intro d hd hg
    obtain ⟨p, q, pot, _, _, _, _, _, h3, _⟩ := C17_gen_limits hq h hd hg
    cases hp : d.pPot with
    | nan => rw [hp] at h3; simp at h3
    | _ => trivial

theorem finiteCapacity_of (hw : Workable s) : FiniteCapacity s := by
  intro d hd hst
  obtain ⟨g, hg, _⟩ := hw.des d hd hst
  exact ⟨_, hg.socMax⟩

theorem socOk_of (h : SocFin s) : SocOk s := by
  intro d hd hst
  obtain ⟨x, hx, h1, h2⟩ := h d hd hst
  exact ⟨_, hx, h1, h2⟩

theorem socFin_of (hw : Workable s) (h : SocOk s) : SocFin s := by
  intro d hd hst
  obtain ⟨x, hx, h1, h2⟩ := h d hd hst
  obtain ⟨g, hg, _⟩ := hw.des d hd hst
  have : ∃ y, x = .fin y := by
    rw [hg.socMin] at h1
    rw [hg.socMax] at h2
    cases x <;> simp_all
  obtain ⟨y, rfl⟩ := this
  exact ⟨y, hx, h1, h2⟩

theorem tameLoads_same (h : SameConfig s s') (ht : TameLoads s) : TameLoads s' := by
  intro d' hd' hl
  obtain ⟨d, hd, hsm⟩ := forall₂_mem_right h.devices hd'
  rw [hsm] at hl ⊢
  exact ht d hd hl

theorem pfTotal_same {pf : PF K} (h : SameConfig s s') (hp : PFTotal pf s) : PFTotal pf s' := by
  intro ds
  obtain ⟨o, ho⟩ := hp ds
  refine ⟨o, ?_⟩
  rw [← ho]
  clear ho
  congr 1
  unfold Sim.pfIn
  congr 1
  · have := h.buses
    dsimp only
    generalize s.buses = l at *
    generalize s'.buses = l' at *
    induction this with
    | nil => rfl
    | cons hh _ ih =>
      obtain ⟨p, q, v, i, rfl⟩ := sameBus_iff.1 hh
      simp only [List.map_cons]
      rw [ih]
      rfl
  · have := h.branches
    dsimp only
    generalize s.branches = l at *
    generalize s'.branches = l' at *
    induction this with
    | nil => rfl
    | cons hh _ ih =>
      simp only [List.map_cons]
      rw [ih, hh]

/-! ### Reading the state vector -/

theorem mem_stateVars {k : ℕ} {v : Key × QUnit × Ident} (h : v ∈ flatten (stateReadings s k)) :
    ((v.1, v.2.1) ∈ [(Key.devP, QUnit.mw), (.devQ, .mvar), (.desSoc, .mwh), (.genPMax, .mw)] ∧
      Located s k v.1 v.2.2) ∨ ∃ i : ℕ, i < k ∧ v = (.aux, .none, .node i) := by
  simp only [flatten, stateReadings, List.mem_flatMap, List.mem_cons, List.not_mem_nil, or_false] at h
  obtain ⟨r, h, hv⟩ := h
  rcases h with rfl | rfl | rfl | rfl | rfl
  · left
    simp only [List.map_map, List.mem_map] at hv
    obtain ⟨d, hd, rfl⟩ := hv
    simp only [Function.comp_apply]
    exact ⟨by simp, Or.inr (Or.inl ⟨by simp, d, hd, rfl⟩)⟩
  · left
    simp only [List.map_map, List.mem_map] at hv
    obtain ⟨d, hd, rfl⟩ := hv
    simp only [Function.comp_apply]
    exact ⟨by simp, Or.inr (Or.inl ⟨by simp, d, hd, rfl⟩)⟩
  · left
    simp only [List.map_map, List.mem_map] at hv
    obtain ⟨d, hd, rfl⟩ := hv
    obtain ⟨h1, h2⟩ := List.mem_filter.1 hd
    simp only [Function.comp_apply]
    exact ⟨by simp, Or.inr (Or.inr (Or.inl ⟨rfl, d, h1, h2, rfl⟩))⟩
  · left
    simp only [List.map_map, List.mem_map] at hv
    obtain ⟨d, hd, rfl⟩ := hv
    obtain ⟨h1, h2⟩ := List.mem_filter.1 hd
    simp only [Function.comp_apply]
    exact ⟨by simp, Or.inr (Or.inr (Or.inr (Or.inl ⟨rfl, d, h1, h2, rfl⟩)))⟩
  · right
    simp only [List.map_map, List.mem_map] at hv
    obtain ⟨i, hi, rfl⟩ := hv
    exact ⟨i, List.mem_range.1 hi, rfl⟩

/-- Reading the state variables of a sane simulator succeeds and gives no NaN. -/
theorem extract_total {e : Env K ρ} {pi : K} {st : SimState K} {v : List (X K)} (hs : Sane e.sim)
    (hm : e.sim.baseMVA = .fin base) (hb : 0 < base) (hst : e.sim.state = some st)
    (hg : e.sim.gatherState pi = .ok st) (hk : e.nAux ≤ v.length) (haux : ∀ x ∈ lastN e.nAux v, X.NotNan x) :
    ∃ w, e.extract v (stateReadings e.sim e.nAux) = .ok w ∧ ∀ x ∈ w, X.NotNan x := by
  have hna := gather_aux hg
  have hread : ∀ i : ℕ, i < e.nAux → ∃ x, pyGet v ((i : ℤ) - e.nAux) = .ok x ∧ x ∈ lastN e.nAux v := by
    intro i hi
    refine ⟨_, pyGet_neg hi hk, ?_⟩
    unfold lastN
    refine List.mem_of_getElem? (i := i) ?_
    rw [List.getElem?_drop, List.getElem?_eq_getElem]
  have key : ∀ v' ∈ flatten (stateReadings e.sim e.nAux), ∃ x,
      Env.readVar e.sim.state v e.nAux v'.1 v'.2.1 v'.2.2 = .ok x ∧ X.NotNan x := by
    intro v' hv'
    rw [hst]
    rcases mem_stateVars hv' with ⟨h1, h2⟩ | ⟨i, hi, rfl⟩
    · have hne : v'.1 ≠ .aux := by
        intro h
        simp [h] at h1
      obtain ⟨x, hx⟩ := reading_total (u := v'.2.1) hg hne (by
        rw [hasUnit_iff]
        simp only [List.mem_cons, Prod.mk.injEq, List.not_mem_nil, or_false] at h1
        rcases h1 with ⟨e1, e2⟩ | ⟨e1, e2⟩ | ⟨e1, e2⟩ | ⟨e1, e2⟩ <;> rw [e1, e2] <;> simp [stateUnits]) h2
      exact ⟨x, (readVar_reading hne).2 hx, sane_reading hs hm hb hg h1 hx⟩
    · obtain ⟨x, hx, hx'⟩ := hread i hi
      exact ⟨x, (readVar_aux hna).trans hx, haux x hx'⟩
  obtain ⟨w, hw⟩ := mapE_total (f := fun v' : Key × QUnit × Ident =>
    Env.readVar e.sim.state v e.nAux v'.1 v'.2.1 v'.2.2) (l := flatten (stateReadings e.sim e.nAux))
    (fun v' hv' => (key v' hv').imp fun _ h => h.1)
  refine ⟨w, hw, fun x hx => ?_⟩
  obtain ⟨v', hv', h⟩ := forall₂_mem_right (mapE_ok.1 hw) hx
  obtain ⟨x', hx', hn⟩ := key v' hv'
  rw [h] at hx'
  cases hx'
  exact hn

theorem clip_contains {bs : List (X K × X K)} {xs : List (X K)} (hl : xs.length = bs.length)
    (ho : List.Forall₂ (fun l h => l ≤ h) (bs.map (·.1)) (bs.map (·.2))) (hn : ∀ x ∈ xs, X.NotNan x) :
    Box.contains { low := bs.map (·.1), high := bs.map (·.2) }
      (Env.clipVec xs (bs.map (·.1)) (bs.map (·.2))) false := by
  rw [Env.clipVec, List.zip_map', List.map_id']
  refine ⟨by simp, by simp [hl], ?_, ?_⟩ <;> dsimp only
  all_goals
    induction bs generalizing xs with
    | nil => cases xs <;> simp_all
    | cons p bs ih =>
      cases xs with
      | nil => simp at hl
      | cons x xs =>
        simp only [List.map_cons, List.forall₂_cons] at ho
        simp only [List.map_cons, List.zipWith_cons_cons, List.forall₂_cons]
        have := X.clip_mem (hn x (by simp)) ho.1
        exact ⟨by first | exact this.1 | exact this.2,
          ih (by simpa using hl) ho.2 (fun y hy => hn y (by simp [hy]))⟩

theorem setAux_total {aux st : List (X K)} {k m : ℕ} (hm : m ≤ k) (ha : aux.length = k) (hk : k ≤ st.length) :
    ∃ st', Env.setAux aux k m st = .ok st' := by
  induction m with
  | zero => exact ⟨st, rfl⟩
  | succ m ih =>
    obtain ⟨st1, h1⟩ := ih (by omega)
    have hl := (setAux_ok (by omega) h1).1
    obtain ⟨x, hx⟩ := idx_total (v := aux) (k := m) (by omega)
    simp only [Env.setAux, bind_ok]
    have : ∃ w, pyPut st1 ((m : ℤ) - k) x = .ok w := by
      unfold pyPut
      dsimp only
      rw [if_neg (show ¬ (0 : ℤ) ≤ (m : ℤ) - k by omega), if_pos (by constructor <;> omega)]
      exact ⟨_, rfl⟩
    obtain ⟨w, hw⟩ := this
    exact ⟨w, st1, h1, x, hx, hw⟩

end

namespace Spec
variable {K ρ : Type} [Field K] [LinearOrder K] [FloorRing K]

/-- An environment with the built-in observation `"state"` of a clean, documented network with workable
machines: the time step is positive, the discount factor is not 1 and the bounds of the observation space
are ordered. -/
structure Ready (c : EnvCtx K ρ) (a : EnvArgs K) (base t : K) (e : Env K ρ) : Prop where
  of : EnvOf c a e
  obs : a.observation = .state
  dt : a.deltaT = .fin t
  pos : 0 < t
  gamma : a.gamma ≠ .fin 1
  clean : CleanFile a.network base
  doc : Documented a.network
  workable : Workable e.sim
  loads : TameLoads e.sim
  box : ∀ b, e.obsSpace = some b → List.Forall₂ (fun l h => l ≤ h) b.low b.high

/-- The external solvers: an exact projection, and a load flow that raises no exception. -/
structure GoodSolvers (c : Ctx K) (s : Sim K) : Prop where
  exact : QPExact c.qp
  sound : QPSound 0 c.qp
  total : PFTotal c.pf s

end Spec

section
variable {K ρ : Type} [Field K] [LinearOrder K] [IsStrictOrderedRing K] [FloorRing K]
  {c : EnvCtx K ρ} {a : EnvArgs K} {base t : K} {e e' : Env K ρ}

theorem ready_call (H : Ready c a base t e) (h : EnvCall c e e') : Ready c a base t e' := by
  have hc := sameConfig_history (simHistory_call h)
  refine ⟨envOf_call H.of h, H.obs, H.dt, H.pos, H.gamma, H.clean, H.doc, workable_same hc H.workable,
    tameLoads_same hc H.loads, ?_⟩
  intro b hb
  have hs := sameEnv_call h
  obtain ⟨vs, bs, h1, h2, h3, -⟩ := builtin_space H.of (by rw [H.obs]; rfl)
  have := hs.obsSpace _ h3
  rw [hb] at this
  cases this
  exact H.box _ h3

theorem good_call {c' : Ctx K} (H : GoodSolvers c' e.sim) (h : EnvCall c e e') : GoodSolvers c' e'.sim :=
  ⟨H.exact, H.sound, pfTotal_same (sameConfig_history (simHistory_call h)) H.total⟩

/-- Observing a sane simulator raises no exception, and the observation is in its space. -/
theorem observe_total (H : Ready c a base t e) {s : Sim K} {r : ρ} {st : SimState K} {v : List (X K)}
    (hc : SameConfig e.sim s) (hs : Sane s) (hst : s.state = some st) (hg : s.gatherState c.sim.pi = .ok st)
    (hk : e.nAux ≤ v.length) (haux : ∀ x ∈ lastN e.nAux v, X.NotNan x) :
    ∃ w obs b, ({ e with sim := s, rng := r } : Env K ρ).extract v e.stateValues = .ok w ∧
      ({ e with sim := s, rng := r } : Env K ρ).observe w = .ok (obs, false) ∧ e.obsSpace = some b ∧
      b.contains obs false := by
  have hbase : s.baseMVA = .fin base := by
    rw [hc.base, (simOf_base (envOf_simOf H.of)).1, H.clean.base]
  have hb := basePos_of_simOf H.clean (envOf_simOf H.of)
  obtain ⟨vs, bs, h1, h2, h3, h4, -⟩ := builtin_space H.of (by rw [H.obs]; rfl)
  have hvs : vs = stateReadings s e.nAux := by
    obtain ⟨e0, I, hsm, -, hcf⟩ := envOf_inv H.of
    have hv := I.obsValues
    rw [H.obs, obsValues, Except.ok.injEq] at hv
    rw [hsm.obsValues, ← hv] at h2
    cases h2
    rw [I.stateValues, hsm.nAux, stateReadings_same (sameConfig_trans hcf hc)]
  have hsv : e.stateValues = stateReadings s e.nAux := by
    rw [envOf_stateValues H.of, stateReadings_same hc]
  obtain ⟨w, hw, hn⟩ := extract_total (e := { e with sim := s, rng := r }) (base := base) hs hbase hb hst hg hk haux
  have hL := extract_layout (e := { e with sim := s, rng := r }) hst hg hk hw
  have hla : (lastN e.nAux v).length = e.nAux := by rw [lastN, List.length_drop]; omega
  have hwl := StateLayout.length hL
  obtain ⟨w', hw', hn'⟩ := extract_total (e := { e with sim := s, rng := r }) (base := base) (v := w) hs hbase hb hst hg
    (by
      show e.nAux ≤ w.length
      have : (lastN e.nAux v).length = e.nAux := hla
      rw [hwl]
      show e.nAux ≤ _ + (lastN e.nAux v).length
      omega)
    (fun x hx => hn x (List.mem_of_mem_drop hx))
  refine ⟨w, Env.clipVec w' (bs.map (·.1)) (bs.map (·.2)), _, ?_, ?_, h3, ?_⟩
  · rw [hsv]; exact hw
  · simp only [Env.observe, h1, h2, h3, bind_ok, pure_ok, Prod.mk.injEq]
    exact ⟨w', by rw [hvs]; exact hw', rfl, trivial⟩
  · refine clip_contains ?_ (H.box _ h3) hn'
    rw [h4, hvs]
    exact mapE_length hw'

theorem tame_of_finite {s : Sim K} {b : Sim.Args K} (hl : TameLoads s) (hb : FiniteArgs s b) : TameInputs s b := by
  refine ⟨fun d hd h x hx => ?_, fun d hd h x hx => ?_, hl⟩
  · obtain ⟨y, hy⟩ := hb.load d hd h
    rw [hx] at hy
    cases hy
    trivial
  · obtain ⟨y, hy⟩ := hb.pot d hd h
    rw [hx] at hy
    cases hy
    trivial

/-- The actions of the action space are finite. -/
theorem action_finite (H : Ready c a base t e) {act : List (X K)} (h : e.actionSpace.contains act true) :
    act.length = (slots e.sim).length ∧ ∀ x ∈ act, ∃ y, x = .fin y := by
  obtain ⟨⟨h1, h2⟩, -⟩ := C45_actions H.of
  obtain ⟨-, hl, hlo, hhi⟩ := h
  have hbase : e.sim.baseMVA = .fin base := by
    rw [(simOf_base (envOf_simOf H.of)).1, H.clean.base]
  refine ⟨by rw [hl, h1, List.length_map], ?_⟩
  intro x hx
  obtain ⟨j, hj⟩ := List.mem_iff_getElem?.1 hx
  obtain ⟨lo, g1, g2⟩ := forall₂_get hlo hj
  obtain ⟨hi, g3, g4⟩ := forall₂_get hhi hj
  rw [h1, List.getElem?_map] at g1
  rw [h2, List.getElem?_map] at g3
  obtain ⟨sl, e1, rfl⟩ := Option.map_eq_some_iff.1 g1
  rw [e1] at g3
  cases g3
  have hfin : ∃ l h : K, slotBounds e.sim sl = (.fin l, .fin h) := by
    have hd : (sl.1 ∈ e.sim.devices ∧ sl.1.isNonSlackGen = true) ∨ (sl.1 ∈ e.sim.devices ∧ sl.1.isStorage = true) := by
      obtain ⟨i, ⟨h, _⟩ | ⟨h, _⟩ | ⟨h, _⟩ | ⟨h, _⟩⟩ := slots_get e1
      · exact .inl (List.mem_filter.1 (List.mem_of_getElem? h))
      · exact .inl (List.mem_filter.1 (List.mem_of_getElem? h))
      · exact .inr (List.mem_filter.1 (List.mem_of_getElem? h))
      · exact .inr (List.mem_filter.1 (List.mem_of_getElem? h))
    unfold slotBounds
    rw [hbase]
    rcases hd with ⟨hd, hk⟩ | ⟨hd, hk⟩
    · obtain ⟨g, hg⟩ := H.workable.gen _ hd hk
      rw [hg.pmin, hg.pmax, hg.qmin, hg.qmax]
      split
      · exact ⟨_, _, rfl⟩
      · exact ⟨_, _, rfl⟩
    · obtain ⟨g, hg, _⟩ := H.workable.des _ hd hk
      rw [hg.pmin, hg.pmax, hg.qmin, hg.qmax]
      split
      · exact ⟨_, _, rfl⟩
      · exact ⟨_, _, rfl⟩
  obtain ⟨l, h, hlh⟩ := hfin
  dsimp only at g2 g4
  rw [hlh] at g2 g4
  cases x <;> simp_all

/-- The arguments of the transition of a step. -/
theorem step_args (H : Ready c a base t e) {act vars : List (X K)} (hact : e.actionSpace.contains act true)
    (hv : vars.length = e.sim.nLoad + e.sim.nNonSlackGen + e.nAux) (hfin : ∀ x ∈ vars, ∃ y, x = .fin y) :
    ∃ args : Sim.Args K, Env.varDicts (vars.take e.sim.nLoad)
        (Sim.slice vars e.sim.nLoad (e.sim.nLoad + e.sim.nNonSlackGen)) e.sim.devices 0 0 ([], []) =
          .ok (args.pLoad, args.pPot) ∧
      Env.decode e.sim act = (args.pSet, args.qSet) ∧ FiniteArgs e.sim args := by
  have hsort := simOf_sorted (envOf_simOf H.of)
  obtain ⟨r, h1, d1, d2, -⟩ := distributed_of hsort hv
  obtain ⟨hl, hf⟩ := action_finite H hact
  obtain ⟨A, -⟩ := decode_applied hsort hl
  refine ⟨⟨r.1, r.2, (Env.decode e.sim act).1, (Env.decode e.sim act).2⟩, h1, rfl, ?_, ?_, ?_⟩
  · intro d hd h
    obtain ⟨j, hj⟩ := List.mem_iff_getElem?.1 (List.mem_filter.2 ⟨hd, h⟩)
    obtain ⟨x, g1, g2⟩ := d1 j d hj
    obtain ⟨y, rfl⟩ := hfin x (List.mem_of_getElem? g1)
    exact ⟨y, g2⟩
  · intro d hd h
    obtain ⟨j, hj⟩ := List.mem_iff_getElem?.1 (List.mem_filter.2 ⟨hd, h⟩)
    obtain ⟨x, g1, g2⟩ := d2 j d hj
    obtain ⟨y, rfl⟩ := hfin x (List.mem_of_getElem? g1)
    exact ⟨y, g2⟩
  · intro d hd h
    have hmem : ∀ b : Bool, (d, b) ∈ slots e.sim := by
      intro b
      unfold slots
      simp only [List.mem_append, List.mem_map, List.mem_filter, Prod.mk.injEq]
      rcases h with h | h <;> cases b <;> simp [hd, h]
    obtain ⟨j, hj⟩ := List.mem_iff_getElem?.1 (hmem true)
    obtain ⟨j', hj'⟩ := List.mem_iff_getElem?.1 (hmem false)
    obtain ⟨x, g1, g2⟩ := A j d true hj
    obtain ⟨x', g1', g2'⟩ := A j' d false hj'
    obtain ⟨y, rfl⟩ := hf x (List.mem_of_getElem? g1)
    obtain ⟨y', rfl⟩ := hf x' (List.mem_of_getElem? g1')
    exact ⟨y, y', g2, g2'⟩

theorem rewardOf_total (H : Ready c a base t e) (conv : Bool) (el p : X K) : ∃ r, e.rewardOf conv el p = .ok r := by
  have hg : e.gamma = a.gamma := by
    obtain ⟨e0, I, hs, -, -⟩ := envOf_inv H.of
    rw [hs.gamma, I.gamma]
  unfold Env.rewardOf
  cases conv with
  | true => exact ⟨_, rfl⟩
  | false =>
    have hne : (.fin 1 - e.gamma : X K) ≠ .fin 0 := by
      rw [hg]
      have := H.gamma
      cases hx : a.gamma with
      | fin x =>
        rw [X.fin_sub_fin]
        intro h
        injection h with h
        rw [hx] at this
        exact this (by rw [sub_eq_zero.1 h])
      | nan => intro h; cases h
      | pinf => intro h; cases h
      | ninf => intro h; cases h
    simp only [Bool.false_eq_true, if_false, X.pyDiv, bind_ok, guardE_ok, pure_ok]
    exact ⟨_, _, ⟨(), hne, rfl⟩, rfl⟩

/-- **C82, steps.** In an environment with the observation `"state"` of a documented network with workable
machines, with an exact projection solver and a load flow that raises no exception: if the states of charge
are finite and within their limits, every action of the action space can be applied, provided that
`next_vars` returns finite numbers of the right amount.  The states of charge stay within their limits. -/
theorem C82_step_total (H : Ready c a base t e) (G : GoodSolvers c.sim e.sim) (hsoc : SocFin e.sim)
    {y : EnvDyn K} (hy : e.dyn = some y) {act : List (X K)} (hact : e.actionSpace.contains act true)
    (hnext : y.terminated = false → ∃ vars r, c.nextVars y.state e.rng = .ok (vars, r) ∧
      vars.length = e.sim.nLoad + e.sim.nNonSlackGen + e.nAux ∧ ∀ x ∈ vars, ∃ z, x = .fin z) :
    ∃ e' out, e.step c act = .ok (e', out) ∧ SocFin e'.sim := by
  simp only [Env.step, bind_ok, guardE_ok, hy]
  cases hterm : y.terminated with
  | true => exact ⟨e, _, ⟨(), hact, by simp; rfl⟩, hsoc⟩
  | false =>
    obtain ⟨vars, r, hn, hv, hfin⟩ := hnext hterm
    obtain ⟨args, h1, h2, hargs⟩ := step_args H hact hv hfin
    have hsim := envOf_simOf H.of
    rw [H.dt] at hsim
    obtain ⟨s', o, htr⟩ := C72_transition_total G.exact H.pos H.clean hsim H.workable G.total hsoc hargs
    obtain ⟨hsane, hsoc'⟩ := sane_transition H.clean H.doc hsim H.pos G.sound (finiteCapacity_of H.workable)
      (socOk_of hsoc) (tame_of_finite H.loads hargs) htr
    have hcfg := sameConfig_transition htr
    have hsf : SocFin s' := socFin_of (workable_same hcfg H.workable) hsoc'
    obtain ⟨⟨rw', el, p⟩, hrw⟩ := rewardOf_total H o.converged o.eLoss o.penalty
    have hvec : ∃ w obs, ({ e with sim := s', rng := r } : Env K ρ).vectors o.converged y.state
        (vars.drop (e.sim.nLoad + e.sim.nNonSlackGen)) = .ok (w, obs) := by
      unfold Env.vectors
      cases hconv : o.converged with
      | false => exact ⟨_, _, rfl⟩
      | true =>
        have hal : (vars.drop (e.sim.nLoad + e.sim.nNonSlackGen)).length = e.nAux := by
          rw [List.length_drop, hv]; omega
        have hyl := (C49_state_layout H.of hy).1
        obtain ⟨w0, hw0⟩ := setAux_total (m := e.nAux) le_rfl hal (show e.nAux ≤ y.state.length by omega)
        obtain ⟨hk, hlast⟩ := setAux_last hal hw0
        obtain ⟨st, hst, hg⟩ := call_state (c := c.sim) (.inl ⟨args, o, htr⟩)
        obtain ⟨w, obs, b, g1, g2, g3, g4⟩ := observe_total H (r := r) hcfg hsane hst hg hk (by
          rw [hlast]
          intro x hx
          obtain ⟨z, rfl⟩ := hfin x (List.mem_of_mem_drop hx)
          trivial)
        refine ⟨w, obs, ?_⟩
        simp only [if_true, Env.observeStep, bind_ok]
        refine ⟨w0, hw0, w, g1, (obs, false), g2, ?_⟩
        simp only [g3, bind_ok, guardE_ok, pure_ok]
        exact ⟨(), g4, trivial⟩
    obtain ⟨w, obs, hvec⟩ := hvec
    have hadv : e.advance c y act = .ok
        ({ e with sim := s', rng := r
                  dyn := some { terminated := !o.converged, timestep := y.timestep + 1, eLoss := el,
                                penalty := p, state := w } },
         { obs := obs, reward := rw', terminated := !o.converged }) := by
      simp only [Env.advance, bind_ok, guardE_ok, pure_ok]
      exact ⟨(vars, r), hn, (), hv, (args.pLoad, args.pPot), h1, (s', o), by rw [h2]; exact htr,
        (rw', el, p), hrw, (w, obs), hvec, rfl⟩
    exact ⟨_, _, ⟨(), hact, by rw [if_neg (by simp)]; exact hadv⟩, hsf⟩

/-! ### Resets -/

/-- A reset of the simulator with a finite vector leaves a sane simulator. -/
theorem sane_reset {n : Network K} {lam : X K} {s s' : Sim K} {q : Ctx K} {init : List (X K)} {conv : Bool}
    (hn : CleanFile n base) (hdoc : Documented n) (hs : SimOf n (.fin t) lam s) (ht : 0 < t)
    (hq : QPSound 0 q.qp) (hw : Workable s) (hl : TameLoads s) (hfin : ∀ x ∈ init, ∃ y, x = .fin y)
    (h : s.reset q init = .ok (s', conv)) : Sane s' := by
  obtain ⟨b, ds, ds', s1, out, I, _⟩ := reset_ok h
  have hargs := resetArgs_finite hn hs hfin I.args
  obtain ⟨hc, hs1, hw1, hsoc1, hargs1⟩ := resetSoc_fin hn hs hw hargs I.soc
  obtain ⟨S, -⟩ := sane_transition hn hdoc hs1 ht hq (finiteCapacity_of hw1) (socOk_of hsoc1)
    (tame_of_finite (tameLoads_same hc hl) hargs1) I.trans
  have hb := basePos_of_simOf hn hs
  have hbase : s1.baseMVA = .fin base := by
    rw [(simOf_base (simOf_transition hs1 I.trans)).1, hn.base]
  obtain ⟨st, _, rfl⟩ := I.result
  have key : ∀ d' ∈ ds', ∃ d ∈ s1.devices, d'.p = d.p ∧ d'.q = d.q ∧ d'.pPot = d.pPot ∧
      d'.isNonSlackGen = d.isNonSlackGen ∧ (d'.isStorage = true → ∃ y, d'.soc = some (.fin y)) := by
    intro d' hd'
    obtain ⟨k, hk⟩ := List.mem_iff_getElem?.1 hd'
    obtain ⟨d, hd, e1, e2⟩ := assignSoc_get I.assign hk
    refine ⟨d, List.mem_of_getElem? hd, ?_⟩
    cases hst : d.isStorage with
    | false =>
      rw [e1 hst]
      exact ⟨rfl, rfl, rfl, rfl, fun h => by rw [hst] at h; cases h⟩
    | true =>
      obtain ⟨x, hx, e⟩ := e2 hst
      obtain ⟨y, rfl⟩ := hfin x (List.mem_of_getElem? (slice_get hx).1)
      rw [e, hbase, X.fin_div_fin (ne_of_gt hb)]
      exact ⟨rfl, rfl, rfl, rfl, fun _ => ⟨_, rfl⟩⟩
  refine ⟨?_, ?_, ?_, ?_⟩ <;> intro d' hd' <;> obtain ⟨d, hd, k1, k2, k3, k4, k5⟩ := key d' hd'
  · rw [k1]; exact S.p d hd
  · rw [k2]; exact S.q d hd
  · intro hst
    obtain ⟨y, hy⟩ := k5 hst
    exact ⟨_, hy, trivial⟩
  · intro hg
    rw [k3]
    exact S.pot d hd (k4 ▸ hg)

/-- The next `n` initial states are all rejected because the power flow does not converge. -/
inductive Spec.Failing (c : EnvCtx K ρ) : ℕ → Sim K → ρ → Prop where
  | zero {s : Sim K} {r : ρ} : Failing c 0 s r
  | succ {k : ℕ} {s s' : Sim K} {r r' : ρ} {v : List (X K)} : c.initState r = .ok (v, r') →
      s.reset c.sim v = .ok (s', false) → Failing c k s' r' → Failing c (k + 1) s r

/-- The hook `init_state` always returns finite numbers of the right amount. -/
def Spec.FiniteInit (c : EnvCtx K ρ) (size : ℕ) : Prop :=
  ∀ r, ∃ v r', c.initState r = .ok (v, r') ∧ v.length = size ∧ ∀ x ∈ v, ∃ y, x = .fin y

theorem search_total {n : Network K} {lam : X K} (hn : CleanFile n base) (ht : 0 < t) {size : ℕ}
    (hi : FiniteInit c size) (k : ℕ) {s : Sim K} (hs : SimOf n (.fin t) lam s) (hw : Workable s)
    (hsize : 2 * s.nDevice + s.nDes + s.nNonSlackGen ≤ size) (G : GoodSolvers c.sim s) (r : ρ) :
    (∃ x, Env.search c size (k + 1) s r = .ok x) ∨
      (Env.search c size (k + 1) s r = .error .attributeError ∧ Failing c k s r) := by
  induction k generalizing s r with
  | zero =>
    right
    obtain ⟨v, r', h1, h2, h3⟩ := hi r
    obtain ⟨s', conv, h4⟩ := C36_reset_total_partial G.exact ht hn hs hw G.total (h2 ▸ hsize) h3
    refine ⟨?_, .zero⟩
    rw [Env.search, h1]
    simp only [bind, Except.bind, h2, guardE, if_true, h4]
  | succ k ih =>
    obtain ⟨v, r', h1, h2, h3⟩ := hi r
    obtain ⟨s', conv, h4⟩ := C36_reset_total_partial G.exact ht hn hs hw G.total (h2 ▸ hsize) h3
    have hc := sameConfig_reset h4
    obtain ⟨c1, c2, c3, c4⟩ := counts_same hc
    have hstep : Env.search c size (k + 1 + 1) s r = if conv then .ok (s', v, r') else
        Env.search c size (k + 1) s' r' := by
      rw [Env.search, h1]
      simp only [bind, Except.bind, h2, guardE, if_true, h4]
      rw [if_neg (by omega)]
      rfl
    rw [hstep]
    cases conv with
    | true => exact .inl ⟨_, rfl⟩
    | false =>
      rcases ih (simOf_reset hs h4) (workable_same hc hw) (by rw [c1, c3, c4]; exact hsize)
        ⟨G.exact, G.sound, pfTotal_same hc G.total⟩ r' with h | ⟨h, h'⟩
      · exact .inl h
      · exact .inr ⟨h, .succ h1 h4 h'⟩

/-- **C82, resets.** In an environment with the observation `"state"` of a documented network with workable
machines, with an exact projection solver and a load flow that raises no exception, and if `init_state`
returns finite numbers of the right amount: a reset succeeds unless the power flow does not converge for
99 initial states in a row. -/
theorem C82_reset_total (H : Ready c a base t e) (G : GoodSolvers c.sim e.sim)
    (hi : FiniteInit c e.initSize) (seed : Option ℤ) :
    (∃ e' obs, e.reset c seed = .ok (e', obs)) ∨
      (e.reset c seed = .error .attributeError ∧
        Failing c 99 e.sim ((seed.map c.seeded).getD e.rng)) := by
  have hsim := envOf_simOf H.of
  rw [H.dt] at hsim
  rcases search_total H.clean H.pos hi 99 hsim H.workable (by rw [Env.initSize]; omega) G
    ((seed.map c.seeded).getD e.rng) with ⟨⟨s', v, r'⟩, h⟩ | ⟨h, h'⟩
  · left
    obtain ⟨s1, r1, g1, g2, g3, g4⟩ := search_ok h
    obtain ⟨v', r'', i1, i2, i3⟩ := hi r1
    rw [g2] at i1
    cases i1
    have hc1 := sameConfig_history g1
    have hc2 := sameConfig_reset g4
    have hs1 : SimOf a.network (.fin t) a.lamb s1 := by
      obtain ⟨s0, k1, k2⟩ := hsim
      exact ⟨s0, k1, sameConfig_trans k2 hc1⟩
    have hsane := sane_reset H.clean H.doc hs1 H.pos G.sound (workable_same hc1 H.workable)
      (tameLoads_same hc1 H.loads) i3 g4
    obtain ⟨st, hst, hg⟩ := call_state (c := c.sim) (.inr ⟨v, true, g4⟩)
    obtain ⟨w, obs, b, k1, k2, k3, k4⟩ := observe_total H (r := r') (sameConfig_trans hc1 hc2) hsane hst hg
      (by rw [g3, Env.initSize]; omega) (fun x hx => by
        obtain ⟨z, rfl⟩ := i3 x (List.mem_of_mem_drop hx)
        trivial)
    refine ⟨{ e with sim := s', rng := r', obsSpace := some b
                     dyn := some { terminated := false, timestep := 0, eLoss := 0, penalty := 0,
                                   state := w } }, obs, ?_⟩
    simp only [Env.reset, bind_ok, guardE_ok, pure_ok]
    refine ⟨(s', v, r'), h, w, k1, (obs, false), k2, (), ?_, ?_⟩
    · simp only [k3, Env.fixSpace]
      exact k4
    · simp only [k3, Env.fixSpace]
  · right
    refine ⟨?_, h'⟩
    simp only [Env.reset, h, bind, Except.bind]

/-- The states of charge returned by `init_state` are finite and within the limits. -/
def Spec.SocInit (c : EnvCtx K ρ) (s : Sim K) : Prop :=
  ∀ r v r', c.initState r = .ok (v, r') → ∀ (k : ℕ) d, (s.devices.filter Device.isStorage)[k]? = some d →
    ∀ x, v[2 * s.nDevice + k]? = some x → d.socMin ≤ x / s.baseMVA ∧ x / s.baseMVA ≤ d.socMax

theorem storage_position {l l2 : List (Device K)} (hdev : List.Forall₂ SameMachine l l2) {k : ℕ} {d : Device K}
    (hd : l2[k]? = some d) (hst : d.isStorage = true) :
    ∃ d0, (l.filter Device.isStorage)[((l2.take k).filter Device.isStorage).length]? = some d0 ∧
      SameMachine d0 d := by
  induction hdev generalizing k with
  | nil => simp at hd
  | @cons p q _ _ hh _ ih =>
    cases k with
    | zero =>
      simp only [List.getElem?_cons_zero, Option.some.injEq] at hd
      subst hd
      have : p.isStorage = true := by rw [hh] at hst; exact hst
      exact ⟨p, by simp [this], hh⟩
    | succ k =>
      simp only [List.getElem?_cons_succ] at hd
      obtain ⟨d0, f1, f2⟩ := ih hd
      refine ⟨d0, ?_, f2⟩
      have hpq : q.isStorage = p.isStorage := by rw [hh]; rfl
      simp only [List.take_succ_cons, List.filter_cons, hpq]
      split
      · simpa using f1
      · exact f1

/-- **C82, states of charge.** After a reset the states of charge are within their limits if those returned
by `init_state` are. -/
theorem C82_reset_soc (H : Ready c a base t e) (hi : SocInit c e.sim) {seed : Option ℤ} {obs : List (X K)}
    (h : e.reset c seed = .ok (e', obs)) : SocFin e'.sim := by
  obtain ⟨v, st, nr, I⟩ := env_reset_ok h
  obtain ⟨r', h1, -⟩ := I.search
  obtain ⟨s1, r1, g1, g2, g3, g4⟩ := search_ok h1
  have hc1 := sameConfig_history g1
  have hw := workable_same (sameConfig_trans hc1 (sameConfig_reset g4)) H.workable
  refine socFin_of hw ?_
  obtain ⟨b, ds, ds', s2, out, J, _⟩ := reset_ok g4
  obtain ⟨stt, _, hres⟩ := J.result
  rw [hres]
  intro d' hd' hst
  obtain ⟨k, hk⟩ := List.mem_iff_getElem?.1 (show d' ∈ ds' from hd')
  obtain ⟨d, hd, e1, e2⟩ := assignSoc_get J.assign hk
  have hst0 : d.isStorage = true := by
    by_contra hcon
    rw [e1 (by simpa using hcon)] at hst
    exact hcon hst
  obtain ⟨x, hx, hde⟩ := e2 hst0
  have hc2 : SameConfig s1 s2 := by
    have hc := sameConfig_reset g4
    refine ⟨?_, ?_, ?_, ?_, ?_, ?_⟩
    · exact (sameConfig_transition J.trans).base
    · exact (sameConfig_transition J.trans).dt
    · exact (sameConfig_transition J.trans).lamb
    · exact (sameConfig_transition J.trans).buses
    · exact (sameConfig_transition J.trans).branches
    · refine forall₂_trans (R := SameMachine) (S := SameMachine) (fun _ _ _ => sameMachine_trans)
        (J.soc.imp fun d d' hd => ?_) (sameConfig_transition J.trans).devices
      have := resetSoc_ok hd
      cases hs : d.isStorage with
      | false => rw [this.1 hs]; rfl
      | true => obtain ⟨p, _, rfl⟩ := this.2 hs; rfl
  have hcc := sameConfig_trans hc1 hc2
  obtain ⟨n1, n2, n3, n4⟩ := counts_same hc1
  obtain ⟨hx1, -⟩ := slice_get hx
  rw [n1, Nat.zero_add] at hx1
  have hpos := storage_position hcc.devices hd hst0
  obtain ⟨d0, f1, f2⟩ := hpos
  obtain ⟨b1, b2⟩ := hi r1 v r' g2 _ d0 f1 x hx1
  refine ⟨x / s2.baseMVA, by rw [hde], ?_, ?_⟩
  · rw [hcc.base, hde]
    rw [f2]
    exact b1
  · rw [hcc.base, hde]
    rw [f2]
    exact b2

end

end Anm
