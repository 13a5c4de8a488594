import Verif.Props.Slack
import Verif.Props.Projection
import Verif.Lemmas.Reset

/-! # C36, C72: when a transition or a reset raises no exception -/

set_option linter.unusedSectionVars false

namespace Anm

open Spec

namespace Spec
variable {K : Type} [Field K] [LinearOrder K]

/-- Non-slack generators and storage units have finite limits, storage units a positive efficiency, buses
a lower voltage limit, and the slack device is connected to a bus. -/
structure Workable (s : Sim K) : Prop where
  gen : ∀ d ∈ s.devices, d.isNonSlackGen = true → ∃ g, HasGenParams d g
  des : ∀ d ∈ s.devices, d.isStorage = true → ∃ g, HasDesParams d g ∧ 0 < g.eff
  vMin : ∀ b ∈ s.buses, b.vMin ≠ none
  slack : ∀ d ∈ s.devices, d.isSlack = true → ∃ b ∈ s.buses, b.id = d.busId

/-- Every storage unit has a finite state of charge within its limits. -/
def SocFin (s : Sim K) : Prop :=
  ∀ d ∈ s.devices, d.isStorage = true → ∃ x, d.soc = some (.fin x) ∧ d.socMin ≤ .fin x ∧ .fin x ≤ d.socMax

/-- The arguments of a transition contain a finite number for every device that needs one. -/
structure FiniteArgs (s : Sim K) (a : Sim.Args K) : Prop where
  load : ∀ d ∈ s.devices, d.isLoad = true → ∃ x, a.pLoad.get? d.id = some (.fin x)
  pot : ∀ d ∈ s.devices, d.isNonSlackGen = true → ∃ x, a.pPot.get? d.id = some (.fin x)
  set : ∀ d ∈ s.devices, d.isNonSlackGen = true ∨ d.isStorage = true →
    ∃ x y, a.pSet.get? d.id = some (.fin x) ∧ a.qSet.get? d.id = some (.fin y)

/-- The load flow raises no exception on the buses and branches of `s`, whatever the injections. -/
def PFTotal (pf : PF K) (s : Sim K) : Prop :=
  ∀ ds, ∃ o, pf (Sim.pfIn { s with devices := ds, buses := s.buses.map (Sim.busInjections ds) }) = .ok o

end Spec

section
variable {K : Type} [Field K] [LinearOrder K] [IsStrictOrderedRing K] [FloorRing K]
  {n : Network K} {base t : K} {lam : X K} {s s' : Sim K} {c : Ctx K} {a : Sim.Args K} {d : Device K}

theorem hasGen_same {d0 : Device K} {g : GenParams K} (h : SameMachine d0 d) (hg : HasGenParams d g) :
    HasGenParams d0 g := by
  rw [h] at hg
  exact ⟨hg.pmin, hg.pmax, hg.qmin, hg.qmax, hg.pplus, hg.qplus, hg.qminus⟩

theorem hasDes_same {d0 : Device K} {g : DesParams K} (h : SameMachine d0 d) (hg : HasDesParams d g) :
    HasDesParams d0 g := by
  rw [h] at hg
  exact ⟨hg.pmin, hg.pmax, hg.qmin, hg.qmax, hg.pplus, hg.pminus, hg.qplus, hg.qminus, hg.socMin,
    hg.socMax, hg.eff⟩

theorem not_load_of_gen (h : d.isNonSlackGen = true) : d.isLoad = false := by
  unfold Device.isNonSlackGen Device.isGen at h
  unfold Device.isLoad
  cases hk : d.kind <;> simp [hk] at h ⊢

theorem not_load_of_storage (h : d.isStorage = true) : d.isLoad = false ∧ d.isNonSlackGen = false := by
  unfold Device.isStorage at h
  unfold Device.isLoad Device.isNonSlackGen Device.isGen
  cases hk : d.kind <;> simp [hk] at h ⊢

theorem stepDevice_total (hq : QPExact c.qp) (ht : 0 < t) (hn : CleanFile n base)
    (hs : SimOf n (.fin t) lam s) (hw : Workable s) (hsoc : SocFin s) (ha : FiniteArgs s a)
    (hd : d ∈ s.devices) : ∃ d', Sim.stepDevice c.qp s.baseMVA s.deltaT a d = .ok d' := by
  obtain ⟨e1, e2, _⟩ := simOf_base hs
  rw [e1, e2, hn.base]
  have hb := basePos_of_simOf hn hs
  have hb' : base ≠ 0 := ne_of_gt hb
  unfold Sim.stepDevice
  by_cases h1 : d.isLoad = true
  · obtain ⟨x, hx⟩ := ha.load d hd h1
    simp only [h1, if_true, Dict.getE_ok.2 hx, bind_ok, pure_ok]
    exact ⟨_, _, rfl, rfl⟩
  by_cases h2 : d.isNonSlackGen = true
  · obtain ⟨pot, hpot⟩ := ha.pot d hd h2
    obtain ⟨p, q, hp, hq'⟩ := ha.set d hd (Or.inl h2)
    obtain ⟨g, hg⟩ := hw.gen d hd h2
    obtain ⟨r, hr, ids, d0, kind, hok, hmk, hsm, hsl⟩ := simOf_gen hn hs hd h2
    have hg0 := hasGen_same hsm hg
    have O := genParamsOk (C05_generator hok hb hmk hsl) hg0
    have hpp : ∃ v, g.pmin ≤ v ∧ (d.setPPot (X.clip (.fin pot / .fin base) d.pMin d.pMax)).pPot = .fin v := by
      unfold Device.setPPot
      rw [hg.pmin, hg.pmax, X.fin_div_fin hb']
      have hc : ∀ y : K, ∃ v, g.pmin ≤ v ∧ X.clip (.fin y) (.fin g.pmin) (.fin g.pmax) = .fin v := by
        intro y
        unfold X.clip X.minimum X.maximum
        simp only [reduceCtorEq, if_false, X.fin_le_fin]
        have := O.p1.trans O.p2
        split_ifs <;> simp_all <;> order
      obtain ⟨v, hv, e⟩ := hc (pot / base)
      rw [e]
      exact hc v
    obtain ⟨v, hv, hpot'⟩ := hpp
    obtain ⟨p', q', hmap, _⟩ := C16_generator (p0 := p / base) (q0 := q / base) hq hok hb hmk hsl hg0
      (d := d.setPPot (X.clip (.fin pot / .fin base) d.pMin d.pMax)) (by
        rw [SameMachine] at hsm ⊢
        unfold Device.setPPot
        rw [hsm]) hpot' hv
    rw [X.fin_div_fin hb'] at hmap
    have e0 : ∀ v, (d.setPPot v).id = d.id := fun _ => rfl
    simp only [h1, h2, if_true, Bool.false_eq_true, if_false, Dict.getE_ok.2 hpot, Dict.getE_ok.2 hp,
      Dict.getE_ok.2 hq', bind, Except.bind, X.fin_div_fin hb', e0, hmap]
    exact ⟨_, rfl⟩
  by_cases h3 : d.isStorage = true
  · obtain ⟨p, q, hp, hq'⟩ := ha.set d hd (Or.inr h3)
    obtain ⟨g, hg, heff⟩ := hw.des d hd h3
    obtain ⟨r, hr, ids, d0, hok, hmk, hsm, _⟩ := simOf_storage hn hs hd h3
    have hg0 := hasDes_same hsm hg
    obtain ⟨x, hx, hx1, hx2⟩ := hsoc d hd h3
    rw [hg.socMin, X.fin_le_fin] at hx1
    rw [hg.socMax, X.fin_le_fin] at hx2
    obtain ⟨p', q', hmap, _⟩ := C16_storage (p0 := p / base) (q0 := q / base) hq hok hb hmk hg0 hsm hx
      hx1 hx2 ht heff
    simp only [h1, h2, h3, if_true, Bool.false_eq_true, if_false, Dict.getE_ok.2 hp,
      Dict.getE_ok.2 hq', bind, Except.bind, X.fin_div_fin hb', hmap]
    simp only [Device.updateSoc, hx]
    exact ⟨_, rfl⟩
  · simp only [h1, h2, h3, Bool.false_eq_true, if_false, pure, Except.pure]
    split_ifs <;> exact ⟨_, rfl⟩

theorem gatherState_total (pi : K) (h : ∀ d ∈ s.devices, d.isStorage = true → d.soc ≠ none) :
    ∃ st, s.gatherState pi = .ok st := by
  unfold Sim.gatherState
  simp only [bind_ok, pure_ok]
  obtain ⟨l, hl⟩ := mapE_total (f := fun d : Device K =>
    match d.soc with
    | none => (.error .typeError : Except PyErr (Ident × X K))
    | some x => .ok (Ident.node d.id, x)) (l := s.devices.filter Device.isStorage) (by
      intro d hd
      rw [List.mem_filter] at hd
      have := h d hd.1 hd.2
      cases hs : d.soc with
      | none => exact absurd hs this
      | some x => exact ⟨_, rfl⟩)
  exact ⟨_, _, hl, rfl⟩

theorem computeReward_total (h : ∀ b ∈ s.buses, b.vMin ≠ none) : ∃ r, s.computeReward = .ok r := by
  unfold Sim.computeReward
  simp only [bind_ok, pure_ok]
  obtain ⟨l, hl⟩ := mapE_total (f := Sim.busPenalty) (l := s.buses) (by
    intro b hb
    have := h b hb
    unfold Sim.busPenalty
    cases hs : b.vMin with
    | none => exact absurd hs this
    | some x => exact ⟨_, rfl⟩)
  exact ⟨_, _, hl, rfl⟩

theorem applyPF_total (o : PFOut K)
    (h : ∀ d ∈ s.devices, d.isSlack = true → ∃ b ∈ s.buses, b.id = d.busId) :
    ∃ s', s.applyPF o = .ok s' := by
  unfold Sim.applyPF
  simp only [bind_ok, pure_ok]
  obtain ⟨l, hl⟩ := mapE_total (f := fun d : Device K =>
    if d.isSlack then
      match (s.buses.mapIdx fun k b =>
          { b with
            v := o.v k, i := o.i k
            p := if b.isSlack then Sim.nanToInf o.slackP else b.p
            q := if b.isSlack then Sim.nanToInf o.slackQ else b.q }).find? (fun b => b.id = d.busId) with
      | some b => (.ok { d with p := b.p, q := b.q } : Except PyErr (Device K))
      | none => .error .keyError
    else .ok d) (l := s.devices) (by
      intro d hd
      by_cases hsl : d.isSlack = true
      · obtain ⟨b, hb, e⟩ := h d hd hsl
        rw [if_pos hsl]
        split
        · exact ⟨_, rfl⟩
        · rename_i hf
          rw [List.find?_eq_none] at hf
          obtain ⟨k, hk⟩ := List.mem_iff_getElem?.1 hb
          have := hf _ (List.mem_of_getElem? (i := k) (by rw [List.getElem?_mapIdx, hk]; rfl))
          simp [e] at this
      · rw [if_neg hsl]; exact ⟨_, rfl⟩)
  exact ⟨_, _, hl, rfl⟩

/-- **C72.** For a workable network, an exact solver and a load flow that raises no exception, a
transition raises no exception, for every state with finite states of charge within their limits and all
finite arguments. -/
theorem C72_transition_total (hq : QPExact c.qp) (ht : 0 < t) (hn : CleanFile n base)
    (hs : SimOf n (.fin t) lam s) (hw : Workable s) (hpf : PFTotal c.pf s) (hsoc : SocFin s)
    (ha : FiniteArgs s a) : ∃ s' out, s.transition c a = .ok (s', out) := by
  obtain ⟨ds, hds⟩ := mapE_total fun d hd => stepDevice_total hq ht hn hs hw hsoc ha (d := d) hd
  obtain ⟨o, ho⟩ := hpf ds
  have hds' := mapE_ok.1 hds
  obtain ⟨s1, hs1⟩ := applyPF_total (s := { s with devices := ds, buses := s.buses.map (Sim.busInjections ds) }) o (by
    intro d hd hsl
    obtain ⟨d0, hd0, h0⟩ := forall₂_mem_right hds' hd
    have hsm := (stepDevice_ok h0).same
    rw [hsm] at hsl ⊢
    obtain ⟨b, hb, e⟩ := hw.slack d0 hd0 hsl
    exact ⟨Sim.busInjections ds b, List.mem_map_of_mem hb, e⟩)
  have A := applyPF_ok hs1
  have hsolve : s.solveStep c a = .ok { s1 with pfeConverged := some o.stable } := by
    simp only [Sim.solveStep, bind_ok, pure_ok]
    exact ⟨ds, hds, o, ho, s1, hs1, rfl⟩
  obtain ⟨st, hst⟩ := gatherState_total (s := { s1 with pfeConverged := some o.stable }) c.pi (by
    intro d' hd' hst
    obtain ⟨d, hd, h1⟩ := forall₂_mem_right A.devices hd'
    obtain ⟨d0, hd0, h0⟩ := forall₂_mem_right hds' hd
    have hst' : d.isStorage = true := by
      cases hsl : d.isSlack with
      | false => rw [h1.1 hsl] at hst; exact hst
      | true => obtain ⟨b, _, e⟩ := h1.2 hsl; rw [e] at hst; exact hst
    have hsoc' : d'.soc = d.soc := by
      cases hsl : d.isSlack with
      | false => rw [h1.1 hsl]
      | true => obtain ⟨b, _, e⟩ := h1.2 hsl; rw [e]
    rw [hsoc']
    have hsm := (stepDevice_ok h0).same
    have hst0 : d0.isStorage = true := by rw [hsm] at hst'; exact hst'
    obtain ⟨x, hx, _⟩ := hsoc d0 hd0 hst0
    have N := not_load_of_storage hst0
    unfold Sim.stepDevice at h0
    simp only [N.1, N.2, hst0, if_true, Bool.false_eq_true, if_false, bind_ok] at h0
    obtain ⟨_, _, _, _, d1, _, h5⟩ := h0
    unfold Device.updateSoc at h5
    split at h5
    · simp at h5
    · injection h5 with h5
      rw [← h5]
      simp)
  obtain ⟨r, hr⟩ := computeReward_total (s := { s1 with pfeConverged := some o.stable, state := some st }) (by
    intro b hb
    have hb : b ∈ s1.buses := hb
    rw [A.buses] at hb
    obtain ⟨k, hk⟩ := List.mem_iff_getElem?.1 hb
    rw [List.getElem?_mapIdx, List.getElem?_map] at hk
    cases hb0 : s.buses[k]? with
    | none => simp [hb0] at hk
    | some b0 =>
      simp only [hb0, Option.map_some, Option.some.injEq] at hk
      rw [← hk]
      exact hw.vMin b0 (List.mem_of_getElem? hb0))
  refine ⟨{ s1 with pfeConverged := some o.stable, state := some st }, ⟨r.1, r.2.1, r.2.2, o.stable⟩, ?_⟩
  simp only [Sim.transition, bind_ok, pure_ok]
  exact ⟨_, hsolve, st, hst, r, hr, rfl⟩

/-! ### reset -/

theorem idx_total {v : List (X K)} {k : ℕ} (h : k < v.length) : ∃ x, Sim.idx v k = .ok x := by
  refine ⟨v[k], ?_⟩
  rw [idx_ok]
  simp [h]

theorem resetArgs_total {pDev qDev pMax : List (X K)} (ds : List (Device K)) (i g : ℕ) (a : Sim.Args K)
    (h1 : i + ds.length ≤ pDev.length) (h2 : i + ds.length ≤ qDev.length)
    (h3 : g + (ds.filter Device.isNonSlackGen).length ≤ pMax.length) :
    ∃ a', Sim.resetArgs pDev qDev pMax ds i g a = .ok a' := by
  induction ds generalizing i g a with
  | nil => exact ⟨a, rfl⟩
  | cons d ds ih =>
    rw [List.length_cons] at h1 h2
    obtain ⟨x, hx⟩ := idx_total (v := pDev) (k := i) (by omega)
    obtain ⟨y, hy⟩ := idx_total (v := qDev) (k := i) (by omega)
    have hle : (ds.filter Device.isNonSlackGen).length ≤ ((d :: ds).filter Device.isNonSlackGen).length := by
      rw [List.filter_cons]; split <;> simp
    unfold Sim.resetArgs
    split_ifs with c1 c2 c3
    · rw [hx]
      exact ih _ _ _ (by omega) (by omega) (by omega)
    · have c3' : ((d :: ds).filter Device.isNonSlackGen).length =
          (ds.filter Device.isNonSlackGen).length + 1 := by simp [c3]
      obtain ⟨z, hz⟩ := idx_total (v := pMax) (k := g) (by omega)
      rw [hx, hy, hz]
      exact ih _ _ _ (by omega) (by omega) (by omega)
    · rw [hx, hy]
      exact ih _ _ _ (by omega) (by omega) (by omega)
    · exact ih _ _ _ (by omega) (by omega) (by omega)

theorem assignSoc_total {base : X K} {soc : List (X K)} (ds : List (Device K)) (k : ℕ)
    (h : k + (ds.filter Device.isStorage).length ≤ soc.length) :
    ∃ ds', Sim.assignSoc base soc ds k = .ok ds' := by
  induction ds generalizing k with
  | nil => exact ⟨[], rfl⟩
  | cons d ds ih =>
    unfold Sim.assignSoc
    rw [List.filter_cons] at h
    split_ifs with c1
    · rw [if_pos c1, List.length_cons] at h
      obtain ⟨x, hx⟩ := idx_total (v := soc) (k := k) (by omega)
      obtain ⟨ds', h'⟩ := ih (k + 1) (by omega)
      rw [hx]
      exact ⟨{ d with soc := some (x / base) } :: ds', by simp [h', bind, Except.bind, pure, Except.pure]⟩
    · rw [if_neg c1] at h
      obtain ⟨ds', h'⟩ := ih k h
      exact ⟨d :: ds', by simp [h', bind, Except.bind, pure, Except.pure]⟩

theorem workable_same (h : SameConfig s s') (hw : Workable s) : Workable s' := by
  have hdev : ∀ d' ∈ s'.devices, ∃ d ∈ s.devices, SameMachine d d' := fun d' hd' =>
    forall₂_mem_right h.devices hd'
  refine ⟨?_, ?_, ?_, ?_⟩
  · intro d' hd' hc
    obtain ⟨d, hd, hsm⟩ := hdev d' hd'
    obtain ⟨g, hg⟩ := hw.gen d hd (by rw [hsm] at hc; exact hc)
    exact ⟨g, hasGen_same (sameMachine_symm hsm) hg⟩
  · intro d' hd' hc
    obtain ⟨d, hd, hsm⟩ := hdev d' hd'
    obtain ⟨g, hg, he⟩ := hw.des d hd (by rw [hsm] at hc; exact hc)
    exact ⟨g, hasDes_same (sameMachine_symm hsm) hg, he⟩
  · intro b' hb'
    obtain ⟨b, hb, hsm⟩ := forall₂_mem_right h.buses hb'
    rw [hsm]
    exact hw.vMin b hb
  · intro d' hd' hc
    obtain ⟨d, hd, hsm⟩ := hdev d' hd'
    obtain ⟨b, hb, e⟩ := hw.slack d hd (by rw [hsm] at hc; exact hc)
    obtain ⟨b', hb', hsb⟩ := forall₂_mem_left h.buses hb
    refine ⟨b', hb', ?_⟩
    rw [hsb, hsm]
    exact e

/-- The arguments that `reset` takes from a finite vector are finite. -/
theorem resetArgs_finite (hn : CleanFile n base) (hs : SimOf n (.fin t) lam s) {init : List (X K)}
    (hfin : ∀ x ∈ init, ∃ y, x = .fin y)
    (ha : Sim.resetArgs (Sim.slice init 0 s.nDevice) (Sim.slice init s.nDevice (2 * s.nDevice))
      (Sim.slice init (2 * s.nDevice + s.nDes) (2 * s.nDevice + s.nDes + s.nNonSlackGen)) s.devices 0 0
      { pLoad := [], pPot := [], pSet := [], qSet := [] } = .ok a) : FiniteArgs s a := by
  have hget : ∀ {a b k : ℕ} {x : X K}, (Sim.slice init a b)[k]? = some x → ∃ y, x = .fin y := fun h =>
    hfin _ (List.mem_of_getElem? (slice_get h).1)
  have E := (resetArgs_ok (simOf_sorted hs) ha).2
  refine ⟨?_, ?_, ?_⟩
  · intro d hd hl
    obtain ⟨k, hk⟩ := List.mem_iff_getElem?.1 hd
    obtain ⟨x, hx, hx'⟩ := (E k d hk).load hl
    obtain ⟨y, rfl⟩ := hget hx
    exact ⟨y, hx'⟩
  · intro d hd hl
    obtain ⟨k, hk⟩ := List.mem_iff_getElem?.1 hd
    obtain ⟨x, hx, hx'⟩ := (E k d hk).pot (not_load_of_gen hl) hl
    obtain ⟨y, rfl⟩ := hget hx
    exact ⟨y, hx'⟩
  · intro d hd hl
    obtain ⟨k, hk⟩ := List.mem_iff_getElem?.1 hd
    have hnl : d.isLoad = false ∧ ((d.isGen || d.isStorage) && !d.isSlack) = true := by
      rcases hl with hl | hl
      · refine ⟨not_load_of_gen hl, ?_⟩
        unfold Device.isNonSlackGen at hl
        simp only [Bool.and_eq_true] at hl ⊢
        exact ⟨by simp [hl.1], hl.2⟩
      · obtain ⟨_, _, _, _, _, _, _, hsl⟩ := simOf_storage hn hs hd hl
        exact ⟨(not_load_of_storage hl).1, by simp [hl, hsl]⟩
    obtain ⟨x, y, hx, hy, hx', hy'⟩ := (E k d hk).set hnl.1 hnl.2
    obtain ⟨x, rfl⟩ := hget hx
    obtain ⟨y, rfl⟩ := hget hy
    exact ⟨x, y, hx', hy'⟩

/-- The states of charge that `reset` uses for its transition. -/
theorem resetSoc_fin (hn : CleanFile n base) (hs : SimOf n (.fin t) lam s) (hw : Workable s)
    (hargs : FiniteArgs s a) {ds : List (Device K)}
    (hds' : List.Forall₂ (fun d d' => Sim.resetSoc a.pSet d = .ok d') s.devices ds) :
    SameConfig s { s with state := none, devices := ds } ∧
    SimOf n (.fin t) lam { s with state := none, devices := ds } ∧
    Workable { s with state := none, devices := ds } ∧ SocFin { s with state := none, devices := ds } ∧
    FiniteArgs { s with state := none, devices := ds } a := by
  have hsm : ∀ d d', Sim.resetSoc a.pSet d = .ok d' → SameMachine d d' := by
    intro d d' hd
    have := resetSoc_ok hd
    cases hs : d.isStorage with
    | false => rw [this.1 hs]; rfl
    | true => obtain ⟨p, _, rfl⟩ := this.2 hs; rfl
  have hc : SameConfig s { s with state := none, devices := ds } :=
    ⟨rfl, rfl, rfl, List.forall₂_same.2 fun _ _ => rfl, List.forall₂_same.2 fun _ _ => rfl,
      hds'.imp hsm⟩
  have hs1 : SimOf n (.fin t) lam { s with state := none, devices := ds } := by
    obtain ⟨s0, h0, hc0⟩ := hs
    exact ⟨s0, h0, sameConfig_trans hc0 hc⟩
  have hw1 := workable_same hc hw
  have hsoc1 : SocFin { s with state := none, devices := ds } := by
    intro d' hd' hst
    obtain ⟨d, hd, h0⟩ := forall₂_mem_right hds' hd'
    have h1 := resetSoc_ok h0
    have hst0 : d.isStorage = true := by rw [hsm _ _ h0] at hst; exact hst
    obtain ⟨g, hg, _⟩ := hw.des d hd hst0
    obtain ⟨r, hr, ids, d0, hok, hmk, hsm0, _⟩ := simOf_storage hn hs hd hst0
    have O := desParamsOk (C06_storage hok (basePos_of_simOf hn hs) hmk) (hasDes_same hsm0 hg)
    obtain ⟨p, _, rfl⟩ := h1.2 hst0
    simp only [hg.socMin, hg.socMax]
    split_ifs
    · exact ⟨_, rfl, le_refl _, O.s1⟩
    · exact ⟨_, rfl, O.s1, le_refl _⟩
  have hargs1 : FiniteArgs { s with state := none, devices := ds } a := by
    refine ⟨?_, ?_, ?_⟩ <;> intro d' hd' hl <;> obtain ⟨d, hd, h0⟩ := forall₂_mem_right hds' hd' <;>
      have e := hsm _ _ h0 <;> rw [e] at hl ⊢
    · exact hargs.load d hd hl
    · exact hargs.pot d hd hl
    · exact hargs.set d hd hl
  exact ⟨hc, hs1, hw1, hsoc1, hargs1⟩

/-- **C36 (partial).** For a workable network (finite limits, positive efficiencies, a lower voltage limit
for every bus) with an exact solver, and a load flow that raises no exception, `reset` raises no exception
for every finite vector that is long enough.  Missing: the accepted networks that are not of this kind, for
which the claim is false (`C36_counterexample_gap`, `C36_counterexample_single`, `C36_counterexample_vmin`,
`C36_counterexample_eff`). -/
theorem C36_reset_total_partial (hq : QPExact c.qp) (ht : 0 < t) (hn : CleanFile n base)
    (hs : SimOf n (.fin t) lam s) (hw : Workable s) (hpf : PFTotal c.pf s) {init : List (X K)}
    (hlen : 2 * s.nDevice + s.nDes + s.nNonSlackGen ≤ init.length)
    (hfin : ∀ x ∈ init, ∃ y, x = .fin y) : ∃ s' conv, s.reset c init = .ok (s', conv) := by
  have hget : ∀ {a b k : ℕ} {x : X K}, (Sim.slice init a b)[k]? = some x → ∃ y, x = .fin y := fun h =>
    hfin _ (List.mem_of_getElem? (slice_get h).1)
  have hsl : ∀ a b : ℕ, b ≤ init.length → (Sim.slice init a b).length = b - a := by
    intro a b h
    simp [Sim.slice]
    omega
  obtain ⟨a, ha⟩ := resetArgs_total (pDev := Sim.slice init 0 s.nDevice)
    (qDev := Sim.slice init s.nDevice (2 * s.nDevice))
    (pMax := Sim.slice init (2 * s.nDevice + s.nDes) (2 * s.nDevice + s.nDes + s.nNonSlackGen))
    s.devices 0 0 { pLoad := [], pPot := [], pSet := [], qSet := [] }
    (by rw [hsl _ _ (by omega)]; simp [Sim.nDevice]) (by rw [hsl _ _ (by omega)]; simp [Sim.nDevice]; omega)
    (by rw [hsl _ _ (by omega)]; simp [Sim.nNonSlackGen])
  have hargs := resetArgs_finite hn hs hfin ha
  obtain ⟨ds, hds⟩ := mapE_total (f := Sim.resetSoc a.pSet) (l := s.devices) (by
    intro d hd
    unfold Sim.resetSoc
    split_ifs with hst
    · obtain ⟨x, y, hx, _⟩ := hargs.set d hd (Or.inr hst)
      simp only [Dict.getE_ok.2 hx, bind_ok, pure_ok]
      exact ⟨_, _, rfl, rfl⟩
    · exact ⟨_, rfl⟩)
  have hds' := mapE_ok.1 hds
  obtain ⟨hc, hs1, hw1, hsoc1, hargs1⟩ := resetSoc_fin hn hs hw hargs hds'
  obtain ⟨s2, out, h2⟩ := C72_transition_total hq ht hn hs1 hw1 (a := a) (c := c) hpf hsoc1 hargs1
  have hc2 := sameConfig_trans hc (sameConfig_transition h2)
  have hlen2 : (s2.devices.filter Device.isStorage).length = s.nDes := by
    have := filter_take_length (p := Device.isStorage) hc2.devices (fun d d' e => by rw [e]; rfl) s2.devices.length
    have hl : s.devices.length = s2.devices.length := hc2.devices.length_eq
    rw [List.take_length, ← hl, List.take_length] at this
    exact this
  obtain ⟨ds3, h3⟩ := assignSoc_total (base := s2.baseMVA)
    (soc := Sim.slice init (2 * s.nDevice) (2 * s.nDevice + s.nDes)) s2.devices 0 (by
      rw [hsl _ _ (by omega), hlen2]; omega)
  obtain ⟨st, hst⟩ := gatherState_total (s := { s2 with devices := ds3 }) c.pi (by
    intro d hd hst
    obtain ⟨k, hk⟩ := List.mem_iff_getElem?.1 (show d ∈ ds3 from hd)
    obtain ⟨d0, _, e1, e2⟩ := assignSoc_get h3 hk
    cases hs0 : d0.isStorage with
    | false => rw [e1 hs0, hs0] at hst; cases hst
    | true => obtain ⟨x, _, e⟩ := e2 hs0; rw [e]; simp)
  refine ⟨{ s2 with devices := ds3, state := some st }, out.converged, ?_⟩
  simp only [Sim.reset, bind_ok, pure_ok]
  exact ⟨a, ha, ds, hds, (s2, out), h2, ds3, h3, st, hst, rfl⟩

end

end Anm
