import Verif.Props.Dynamics

/-! # The slack bus and the slack device; C33: bus injections -/

set_option linter.unusedSectionVars false

namespace Anm

open Spec

namespace Spec
variable {K : Type} [Field K] [LinearOrder K]

/-- IDs are integers and bus types are 0 or 1, as the documentation of the network file says. -/
structure Documented (n : Network K) : Prop where
  ids : IntegralIds n
  types : ∀ r ∈ n.bus, r .busType = some (.fin 0) ∨ r .busType = some (.fin 1)

/-- `i` is the ID of the only slack bus, `j` that of the only slack device, which is connected to it; all
devices are connected to existing buses; IDs increase. -/
structure OneSlack (s : Sim K) (i j : ℤ) : Prop where
  busMem : ∃ b ∈ s.buses, b.id = i
  bus : ∀ b ∈ s.buses, b.isSlack = true ↔ b.id = i
  devMem : ∃ d ∈ s.devices, d.id = j
  dev : ∀ d ∈ s.devices, d.isSlack = true ↔ d.id = j
  on : ∀ d ∈ s.devices, d.isSlack = true → d.busId = i
  busOf : ∀ d ∈ s.devices, ∃ b ∈ s.buses, b.id = d.busId
  buses : s.buses.Pairwise fun a b => a.id < b.id
  devices : s.devices.Pairwise fun a b => a.id < b.id

end Spec

section
variable {K : Type} [Field K] [LinearOrder K] [IsStrictOrderedRing K] [FloorRing K]
  {n : Network K} {dt lam : X K} {s s' : Sim K} {i j : ℤ}

theorem exactlyOne_forall₂ {α β : Type} {P : α → Prop} {R : α → β → Prop} {l : List α} {l' : List β}
    (h : List.Forall₂ R l l') (hP : ExactlyOne P l) :
    ∃ a b, a ∈ l ∧ b ∈ l' ∧ R a b ∧ P a ∧ ∀ a' b', a' ∈ l → b' ∈ l' → R a' b' → P a' →
      (∀ x y z, R x y → R x z → y = z) → b' = b := by
  obtain ⟨k, a, hk, ha, hu⟩ := hP
  obtain ⟨b, hkb, hab⟩ := forall₂_get h.flip hk
  refine ⟨a, b, List.mem_of_getElem? hk, List.mem_of_getElem? hkb, hab, ha, ?_⟩
  intro a' b' ha' hb' hr hpa huniq
  obtain ⟨k', hk'⟩ := List.mem_iff_getElem?.1 ha'
  have := hu k' a' hk' hpa
  subst this
  rw [hk] at hk'
  injection hk' with hk'
  subst hk'
  exact huniq a b' b hr hab

theorem sorted_bus_inj {l : List (Bus K)} (h : l.Pairwise (fun a b => a.id < b.id)) {d d' : Bus K}
    (hd : d ∈ l) (hd' : d' ∈ l) (e : d.id = d'.id) : d = d' := by
  induction l with
  | nil => simp at hd
  | cons a l ih =>
    rw [List.pairwise_cons] at h
    rcases List.mem_cons.1 hd with h1 | h1 <;> rcases List.mem_cons.1 hd' with h2 | h2
    · rw [h1, h2]
    · have := h.1 _ h2
      rw [← h1, e] at this
      exact absurd this (lt_irrefl _)
    · have := h.1 _ h1
      rw [← h2, e] at this
      exact absurd this (lt_irrefl _)
    · exact ih h.2 h1 h2

theorem cellInt_fin_zero : cellInt (some (X.fin (0 : K))) = .ok 0 := by
  have := toInt_intCast (K := K) 0
  simpa [cellInt] using this

theorem cellInt_fin_one : cellInt (some (X.fin (1 : K))) = .ok 1 := by
  have := toInt_intCast (K := K) 1
  simpa [cellInt] using this

/-- A documented file gives a simulator with one slack bus and one slack device connected to it. -/
theorem oneSlack_mk (h : mkSim n dt lam = .ok s) (hb : n.baseMVA ≠ .nan) (hi : Documented n) :
    ∃ i j, OneSlack s i j := by
  have hn := noNan_of_mkSim h hb
  have W := (C01_checkNetwork_iff hn).1 (mkSim_ok.1 h).1.1
  obtain ⟨_, buses, branches, devices, bl, brl, dl, I, rfl⟩ := mkSim_ok.1 h
  obtain ⟨n1, n2, n3⟩ := nodup_of_accepted h hb hi.ids I
  obtain ⟨rb, b0, hrb, hb0, hrb0, hsb, hub⟩ := exactlyOne_forall₂ (mapE_ok.1 I.hbl) W.oneSlackBus
  obtain ⟨rd, d0, hrd, hd0, hrd0, hsd, hud⟩ := exactlyOne_forall₂ (mapE_ok.1 I.hdl) W.oneSlackDev
  have pb := I.perm_buses n1
  have pd := I.perm_devices n2
  have slackBus : ∀ r b, r ∈ n.bus → mkBus r = .ok b → (b.isSlack = true ↔ IsSlackBus r) := by
    intro r b hr hrb
    obtain ⟨t, h1, h2, h3⟩ := (mkBus_ok hrb).ty
    rcases hi.types r hr with h4 | h4
    · rw [h4, cellInt_fin_zero] at h1
      injection h1 with h1
      subst h1
      simp [h3, IsSlackBus, h4]
    · rw [h4, cellInt_fin_one] at h1
      injection h1 with h1
      subst h1
      simp [h3, IsSlackBus, h4]
  have slackDev : ∀ r d, mkDevice r (buses.map Bus.id) n.baseMVA = .ok d →
      (d.isSlack = true ↔ IsSlackDev r) := by
    intro r d hrd
    cases mkDevice_class hrd with
    | load ht _ _ hs | slack ht _ _ hs | classical ht _ _ hs | renewable ht _ _ hs
    | storage ht _ _ hs =>
      rw [hs, IsSlackDev, ht]
      simp
  have e0 : d0.busId = b0.id := by
    have C := mkDevice_common hrd0
    have e := W.slackMatch rb hrb rd hrd hsb hsd
    obtain ⟨x, c1, c2, c3⟩ := C.bus_eq
    have e1 := (mkBus_ok hrb0).id
    rw [e, c1] at e1
    rw [show cellInt (some x) = x.toInt from rfl, c3] at e1
    injection e1
  refine ⟨b0.id, d0.id, ⟨?_, ?_, ?_, ?_, ?_, ?_, ?_, I.devices_sorted⟩⟩
  · exact ⟨busBounds devices b0, List.mem_map_of_mem (pb.mem_iff.2 hb0), rfl⟩
  · intro b hb
    obtain ⟨b', hb', rfl⟩ := List.mem_map.1 hb
    obtain ⟨r, hr, hrb'⟩ := mapE_mem I.hbl (pb.mem_iff.1 hb')
    show b'.isSlack = true ↔ b'.id = b0.id
    constructor
    · intro hs
      rw [hub r b' hr (pb.mem_iff.1 hb') hrb' ((slackBus r b' hr hrb').1 hs)]
      intro x y z h1 h2
      rw [h1] at h2
      injection h2
    · intro hid
      have : b' = b0 := sorted_bus_inj I.buses_sorted hb' (pb.mem_iff.2 hb0) hid
      rw [this]
      exact (slackBus rb b0 hrb hrb0).2 hsb
  · exact ⟨d0, pd.mem_iff.2 hd0, rfl⟩
  · intro d hd
    obtain ⟨r, hr, hrd'⟩ := I.device_row hd
    constructor
    · intro hs
      rw [hud r d hr (pd.mem_iff.1 hd) hrd' ((slackDev r d hrd').1 hs)]
      intro x y z h1 h2
      rw [h1] at h2
      injection h2
    · intro hid
      rw [sorted_id_inj I.devices_sorted hd (pd.mem_iff.2 hd0) hid]
      exact (slackDev rd d0 hrd0).2 hsd
  · intro d hd hs
    obtain ⟨r, hr, hrd'⟩ := I.device_row hd
    rw [hud r d hr (pd.mem_iff.1 hd) hrd' ((slackDev r d hrd').1 hs)]
    · exact e0
    · intro x y z h1 h2
      rw [h1] at h2
      injection h2
  · intro d hd
    obtain ⟨r, hr, hrd'⟩ := I.device_row hd
    obtain ⟨x, c1, c2, c3⟩ := (mkDevice_common hrd').bus_eq
    have := (inIds_toInt c2 c3).2
    obtain ⟨b, hb, he⟩ := List.mem_map.1 this
    exact ⟨busBounds devices b, List.mem_map_of_mem hb, he⟩
  · exact List.pairwise_map.2 I.buses_sorted

theorem oneSlack_same (h : SameConfig s s') (ho : OneSlack s i j) : OneSlack s' i j := by
  have hbus : ∀ b' ∈ s'.buses, ∃ b ∈ s.buses, b'.id = b.id ∧ b'.isSlack = b.isSlack := by
    intro b' hb'
    obtain ⟨b, hb, hsm⟩ := forall₂_mem_right h.buses hb'
    exact ⟨b, hb, by rw [hsm], by rw [hsm]⟩
  have hbus' : ∀ b ∈ s.buses, ∃ b' ∈ s'.buses, b'.id = b.id := by
    intro b hb
    obtain ⟨b', hb', hsm⟩ := forall₂_mem_left h.buses hb
    exact ⟨b', hb', by rw [hsm]⟩
  have hdev : ∀ d' ∈ s'.devices, ∃ d ∈ s.devices, d'.id = d.id ∧ d'.isSlack = d.isSlack ∧
      d'.busId = d.busId := by
    intro b' hb'
    obtain ⟨b, hb, hsm⟩ := forall₂_mem_right h.devices hb'
    exact ⟨b, hb, by rw [hsm], by rw [hsm], by rw [hsm]⟩
  refine ⟨?_, ?_, ?_, ?_, ?_, ?_, ?_, ?_⟩
  · obtain ⟨b, hb, e⟩ := ho.busMem
    obtain ⟨b', hb', e'⟩ := hbus' b hb
    exact ⟨b', hb', e'.trans e⟩
  · intro b' hb'
    obtain ⟨b, hb, e1, e2⟩ := hbus b' hb'
    rw [e1, e2]
    exact ho.bus b hb
  · obtain ⟨b, hb, e⟩ := ho.devMem
    obtain ⟨b', hb', hsm⟩ := forall₂_mem_left h.devices hb
    exact ⟨b', hb', by rw [hsm]; exact e⟩
  · intro d' hd'
    obtain ⟨d, hd, e1, e2, e3⟩ := hdev d' hd'
    rw [e1, e2]
    exact ho.dev d hd
  · intro d' hd'
    obtain ⟨d, hd, e1, e2, e3⟩ := hdev d' hd'
    rw [e2, e3]
    exact ho.on d hd
  · intro d' hd'
    obtain ⟨d, hd, e1, e2, e3⟩ := hdev d' hd'
    obtain ⟨b, hb, e⟩ := ho.busOf d hd
    obtain ⟨b', hb', e'⟩ := hbus' b hb
    exact ⟨b', hb', by rw [e', e, e3]⟩
  · refine pairwise_forall₂ h.buses ho.buses ?_
    intro a b a' b' h1 h2 h3
    rw [h1, h2]
    exact h3
  · refine pairwise_forall₂ h.devices ho.devices ?_
    intro a b a' b' h1 h2 h3
    rw [h1, h2]
    exact h3

/-- Every simulator of a documented network has one slack bus and one slack device. -/
theorem oneSlack_of_file {base : K} (hn : CleanFile n base) (hd : Documented n) (hs : SimOf n dt lam s) :
    ∃ i j, OneSlack s i j := by
  obtain ⟨s0, h0, hc⟩ := hs
  obtain ⟨i, j, h⟩ := oneSlack_mk h0 (by rw [hn.base]; simp) hd
  exact ⟨i, j, oneSlack_same hc h⟩

end

/-! ### C33 -/

section
variable {K : Type} [Field K] [LinearOrder K] [IsStrictOrderedRing K] [FloorRing K]
  {n : Network K} {dt lam : X K} {s s' : Sim K} {i j : ℤ} {c : Ctx K} {a : Sim.Args K} {out : Sim.TransOut K}

/-- The devices connected to a bus. -/
def Spec.devicesAt (s : Sim K) (i : ℤ) : List (Device K) := s.devices.filter fun d => d.busId = i

theorem find?_bus {l : List (Bus K)} (hp : l.Pairwise fun a b => a.id < b.id) {b : Bus K} (hb : b ∈ l)
    {i : ℤ} (e : b.id = i) : l.find? (fun b => b.id = i) = some b := by
  induction l with
  | nil => simp at hb
  | cons x l ih =>
    rw [List.pairwise_cons] at hp
    rcases List.mem_cons.1 hb with rfl | hb
    · simp [e]
    · have := hp.1 b hb
      rw [List.find?_cons_of_neg, ih hp.2 hb]
      simp only [decide_eq_true_eq]
      omega

/-- After a transition the slack device has the injection of the slack bus. -/
theorem slack_device (ho : OneSlack s i j) (h : s.transition c a = .ok (s', out)) {b : Bus K}
    {d : Device K} (hb : b ∈ s'.buses) (hbs : b.isSlack = true) (hd : d ∈ s'.devices)
    (hds : d.isSlack = true) : d.p = b.p ∧ d.q = b.q := by
  have ho' := oneSlack_same (sameConfig_transition h) ho
  obtain ⟨ds, o, I⟩ := transition_ok h
  obtain ⟨d1, hd1, h1⟩ := forall₂_mem_right I.solve.apply.devices hd
  have e1 : d1.isSlack = true := by
    by_contra hc
    have := h1.1 (by simpa using hc)
    rw [this] at hds
    exact hc hds
  obtain ⟨b', hb', hde⟩ := h1.2 e1
  have e2 : d1.busId = i := by
    have := ho'.on d hd hds
    rwa [hde] at this
  rw [find?_bus ho'.buses hb (((ho'.bus b hb).1 hbs).trans e2.symm)] at hb'
  injection hb' with hb'
  subst hb'
  rw [hde]
  exact ⟨rfl, rfl⟩

theorem forall₂_filter_map {α β γ : Type} {R : α → β → Prop} {l : List α} {l' : List β}
    (h : List.Forall₂ R l l') {p : α → Bool} {p' : β → Bool} {f : α → γ} {f' : β → γ}
    (hp : ∀ a b, R a b → p a = p' b) (hf : ∀ a b, a ∈ l → R a b → p a = true → f a = f' b) :
    (l.filter p).map f = (l'.filter p').map f' := by
  induction h with
  | nil => rfl
  | @cons a b l l' hab _ ih =>
    have ih := ih fun a b ha => hf a b (by simp [ha])
    rw [List.filter_cons, List.filter_cons, ← hp a b hab]
    split_ifs with hc
    · simp only [List.map_cons, ih]
      rw [hf a b (by simp) hab hc]
    · exact ih

/-- **C33 (partial: no other device on the slack bus).** After a transition the injections of a bus are
the sums of those of its devices, for every bus that is not the slack bus, and for the slack bus if the
slack device is alone there.  Missing: slack buses with other devices, for which the claim is false
(`C33_slack_excess`, `C33_counterexample`). -/
theorem C33_bus_sum_partial (ho : OneSlack s i j) (h : s.transition c a = .ok (s', out)) {b : Bus K}
    (hb : b ∈ s'.buses)
    (hal : b.isSlack = true → ∀ d ∈ s'.devices, d.busId = b.id → d.isSlack = true) :
    b.p = sumX ((devicesAt s' b.id).map Device.p) ∧ b.q = sumX ((devicesAt s' b.id).map Device.q) := by
  have ho' := oneSlack_same (sameConfig_transition h) ho
  by_cases hbs : b.isSlack = true
  · obtain ⟨d, hd, hid⟩ := ho'.devMem
    have hds := (ho'.dev d hd).2 hid
    obtain ⟨e1, e2⟩ := slack_device ho h hb hbs hd hds
    have hone : devicesAt s' b.id = [d] := by
      have hmem : ∀ x, x ∈ devicesAt s' b.id ↔ x = d := by
        intro x
        simp only [devicesAt, List.mem_filter, decide_eq_true_eq]
        constructor
        · rintro ⟨hx, hxb⟩
          exact sorted_id_inj ho'.devices hx hd (((ho'.dev x hx).1 (hal hbs x hx hxb)).trans hid.symm)
        · rintro rfl
          exact ⟨hd, (ho'.on x hd hds).trans ((ho'.bus b hb).1 hbs).symm⟩
      have hnd : (devicesAt s' b.id).Nodup :=
        List.Nodup.filter _ (ho'.devices.imp fun h e => by rw [e] at h; exact lt_irrefl _ h)
      refine List.perm_singleton.1 ((List.perm_ext_iff_of_nodup hnd (List.nodup_singleton d)).2 ?_)
      intro x
      rw [hmem x]
      simp
    have z : ∀ x : X K, (0 : X K) + x = x := by
      intro x
      cases x <;> simp [X.zero_def] <;> rfl
    rw [hone]
    simp [sumX, z, e1, e2]
  · obtain ⟨ds, o, I⟩ := transition_ok h
    have A := I.solve.apply
    rw [A.buses] at hb
    obtain ⟨k, hk⟩ := List.mem_iff_getElem?.1 hb
    rw [List.getElem?_mapIdx, List.getElem?_map] at hk
    cases hb0 : s.buses[k]? with
    | none => simp [hb0] at hk
    | some b0 =>
      simp only [hb0, Option.map_some, Option.some.injEq] at hk
      have hsl : b0.isSlack = false := by
        have : b.isSlack = b0.isSlack := by rw [← hk]; rfl
        rw [← this]; simpa using hbs
      have hid : b.id = b0.id := by rw [← hk]; rfl
      have hbp : b.p = sumX ((ds.filter fun d => d.busId = b0.id).map Device.p) := by
        rw [← hk]
        simp [Sim.busInjections, hsl, sumX, List.foldl_map]
      have hbq : b.q = sumX ((ds.filter fun d => d.busId = b0.id).map Device.q) := by
        rw [← hk]
        simp [Sim.busInjections, hsl, sumX, List.foldl_map]
      have hns : ∀ d ∈ ds, d.busId = b0.id → d.isSlack = false := by
        intro d hd hdb
        by_contra hc
        have hc : d.isSlack = true := by simpa using hc
        obtain ⟨d0, hd0, hstep⟩ := forall₂_mem_right I.solve.step hd
        have hsm := (stepDevice_ok hstep).same
        have : d0.busId = i := ho.on d0 hd0 (by rw [← hc, hsm])
        have e : d.busId = d0.busId := by rw [hsm]
        have := (ho.bus b0 (List.mem_of_getElem? hb0)).2 (by rw [← hdb, e, this])
        rw [hsl] at this
        cases this
      have hdev : ∀ d d' : Device K, ((d.isSlack = false → d' = d) ∧ (d.isSlack = true → ∃ b,
          s'.buses.find? (fun b => b.id = d.busId) = some b ∧ d' = { d with p := b.p, q := b.q })) →
          d'.busId = d.busId ∧ (d.isSlack = false → d' = d) := by
        rintro d d' ⟨h1, h2⟩
        refine ⟨?_, h1⟩
        by_cases hc : d.isSlack = true
        · obtain ⟨b, _, rfl⟩ := h2 hc; rfl
        · rw [h1 (by simpa using hc)]
      rw [hbp, hbq, devicesAt, hid]
      constructor
      · rw [forall₂_filter_map A.devices (p' := fun d => d.busId = b0.id) (f' := Device.p)]
        · intro d d' hr
          rw [(hdev d d' hr).1]
        · intro d d' hd hr hp
          rw [(hdev d d' hr).2 (hns d hd (by simpa using hp))]
      · rw [forall₂_filter_map A.devices (p' := fun d => d.busId = b0.id) (f' := Device.q)]
        · intro d d' hr
          rw [(hdev d d' hr).1]
        · intro d d' hd hr hp
          rw [(hdev d d' hr).2 (hns d hd (by simpa using hp))]

end

end Anm
