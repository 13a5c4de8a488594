import Verif.Lemmas.LoadCase
import Verif.Props.Network
import Verif.Props.Components

/-! # C09, C10, C11, C41: from network file to simulator -/

set_option linter.unusedSectionVars false

namespace Anm

open Spec

namespace Spec
variable {K : Type} [Field K] [LinearOrder K]

/-- IDs of buses and devices are integers, as the documentation of the network file says. -/
def IntegralIds (n : Network K) : Prop :=
  (∀ r ∈ n.bus, ∃ i : ℤ, r .busId = some (.fin (i : K))) ∧
  (∀ r ∈ n.device, ∃ i : ℤ, r .devId = some (.fin (i : K)))

end Spec

section
variable {K : Type} [Field K] [LinearOrder K] [IsStrictOrderedRing K] [FloorRing K]
  {n n' : Network K} {dt lam : X K} {s : Sim K}

theorem mkDevice_common {row : DevRow K} {ids : List ℤ} {base : X K} {d : Device K}
    (h : mkDevice row ids base = .ok d) : CommonInv row ids d.id d.busId d.isSlack := by
  simp only [mkDevice, bind_ok] at h
  obtain ⟨ty, _, h⟩ := h
  split at h
  · exact (mkLoad_ok h).common
  split at h
  · exact (mkGen_ok h).common
  split at h
  · exact (mkGen_ok h).common
  split at h
  · exact (mkStorage_ok h).common
  · simp at h

/-- Which class a row gives. -/
inductive DevClass (row : DevRow K) (ids : List ℤ) (base : X K) (d : Device K) : Prop where
  | load : row .devType = some (.fin (-1)) → mkLoad row ids base = .ok d → d.kind = .load →
      d.isSlack = false → DevClass row ids base d
  | slack : row .devType = some (.fin 0) → mkGen .classical row ids base = .ok d →
      d.kind = .classical → d.isSlack = true → DevClass row ids base d
  | classical : row .devType = some (.fin 1) → mkGen .classical row ids base = .ok d →
      d.kind = .classical → d.isSlack = false → DevClass row ids base d
  | renewable : row .devType = some (.fin 2) → mkGen .renewable row ids base = .ok d →
      d.kind = .renewable → d.isSlack = false → DevClass row ids base d
  | storage : row .devType = some (.fin 3) → mkStorage row ids base = .ok d → d.kind = .storage →
      d.isSlack = false → DevClass row ids base d

theorem mkDevice_class {row : DevRow K} {ids : List ℤ} {base : X K} {d : Device K}
    (h : mkDevice row ids base = .ok d) : DevClass row ids base d := by
  have C := mkDevice_common h
  obtain ⟨t, ht, hin, hs⟩ := C.slack_eq
  obtain ⟨j, hj, hjt⟩ := hin
  rw [X.feq_iff] at hjt
  simp only [mkDevice, bind_ok, ht, cellInt] at h
  obtain ⟨ty, hty, h⟩ := h
  rw [hjt.1, toInt_intCast] at hty
  injection hty with hty
  subst hty
  have hz : ∀ i : ℤ, (X.feq (X.fin (i : K)) (0 : X K)) ↔ i = 0 := by
    intro i
    show X.feq (X.fin (i : K)) (X.fin 0) ↔ _
    rw [X.feq_fin]
    exact Int.cast_eq_zero
  rw [hjt.1] at hs ht
  simp only [List.mem_cons, List.not_mem_nil, or_false] at hj
  rcases hj with rfl | rfl | rfl | rfl | rfl
  · simp only [if_true] at h
    refine .load (by rw [ht]; norm_num) h (mkLoad_ok h).kind ?_
    rw [hs]; exact decide_eq_false (by rw [hz]; decide)
  · norm_num at h
    refine .slack (by rw [ht]; norm_num) h (mkGen_ok h).kind ?_
    rw [hs]; exact decide_eq_true (by rw [hz])
  · norm_num at h
    refine .classical (by rw [ht]; norm_num) h (mkGen_ok h).kind ?_
    rw [hs]; exact decide_eq_false (by rw [hz]; decide)
  · norm_num at h
    refine .renewable (by rw [ht]; norm_num) h (mkGen_ok h).kind ?_
    rw [hs]; exact decide_eq_false (by rw [hz]; decide)
  · norm_num at h
    refine .storage (by rw [ht]; norm_num) h (mkStorage_ok h).kind ?_
    rw [hs]; exact decide_eq_false (by rw [hz]; decide)

/-- An accepted network has no NaN in its topology cells. -/
theorem noNan_of_mkSim (h : mkSim n dt lam = .ok s) (hb : n.baseMVA ≠ .nan) : NoNanTopology n := by
  obtain ⟨_, buses, branches, devices, bl, brl, dl, I, _⟩ := mkSim_ok.1 h
  refine ⟨hb, fun r hr => ?_, fun r hr => ?_, fun r hr => ?_⟩
  · obtain ⟨b, _, hb⟩ := mapE_mem' I.hbl hr
    exact C08_bus_ids_partial hb
  · obtain ⟨d, _, hd⟩ := mapE_mem' I.hdl hr
    have C := mkDevice_common hd
    obtain ⟨x1, e1, h1⟩ := C.id_eq
    obtain ⟨x2, e2, h2, _⟩ := C.bus_eq
    obtain ⟨x3, e3, h3, _⟩ := C.slack_eq
    refine ⟨?_, ?_, ?_⟩ <;> intro hn
    · rw [hn] at e1; injection e1 with e1; subst e1; simp [X.toInt] at h1
    · rw [hn] at e2; injection e2 with e2; subst e2; exact not_inIds_nan h2
    · rw [hn] at e3; injection e3 with e3; subst e3; exact not_inIds_nan h3
  · obtain ⟨l, _, hl⟩ := mapE_mem' I.hbrl hr
    have L := mkLine_ok hl
    obtain ⟨xf, f1, f2, f3⟩ := L.f
    obtain ⟨xt, t1, t2, t3⟩ := L.t
    constructor <;> intro hn
    · rw [hn] at f1; injection f1 with f1; subst f1; exact not_inIds_nan f2
    · rw [hn] at t1; injection t1 with t1; subst t1; exact not_inIds_nan t2

theorem forall₂_map_eq {α β γ : Type} {R : α → β → Prop} {l : List α} {l' : List β} {f : α → γ}
    {g : β → γ} (h : List.Forall₂ R l l') (hfg : ∀ a ∈ l, ∀ b, R a b → f a = g b) :
    l.map f = l'.map g := by
  induction h with
  | nil => rfl
  | cons hab _ ih =>
    rw [List.map_cons, List.map_cons, hfg _ (by simp) _ hab,
      ih fun a ha b hb => hfg a (by simp [ha]) b hb]

theorem busIds_eq {bl : List (Bus K)} (h : mapE mkBus n.bus = .ok bl) (hi : IntegralIds n) :
    n.bus.map (· .busId) = bl.map (fun b => some (X.fin (b.id : K))) := by
  refine forall₂_map_eq (mapE_ok.1 h) fun r hr b hb => ?_
  obtain ⟨i, hi⟩ := hi.1 r hr
  have := (mkBus_ok hb).id
  rw [hi, cellInt, toInt_intCast] at this
  injection this with this
  rw [hi, this]

theorem devIds_eq {dl : List (Device K)} {ids : List ℤ}
    (h : mapE (fun r => mkDevice r ids n.baseMVA) n.device = .ok dl) (hi : IntegralIds n) :
    n.device.map (· .devId) = dl.map (fun d => some (X.fin (d.id : K))) := by
  refine forall₂_map_eq (mapE_ok.1 h) fun r hr b hb => ?_
  obtain ⟨i, hi⟩ := hi.2 r hr
  obtain ⟨x, hx, this⟩ := (mkDevice_common hb).id_eq
  rw [hi] at hx
  injection hx with hx
  rw [← hx, toInt_intCast] at this
  injection this with this
  rw [hi, this]

theorem branchEnds_eq {brl : List (Line K)} {ids : List ℤ}
    (h : mapE (fun r => mkLine r n.baseMVA ids) n.branch = .ok brl) :
    n.branch.map (fun r => (r .fBus, r .tBus)) =
      brl.map (fun l => (some (X.fin (l.fBus : K)), some (X.fin (l.tBus : K)))) := by
  refine forall₂_map_eq (mapE_ok.1 h) fun r hr b hb => ?_
  have L := mkLine_ok hb
  obtain ⟨xf, f1, f2, f3⟩ := L.f
  obtain ⟨xt, t1, t2, t3⟩ := L.t
  rw [f1, t1, (inIds_toInt f2 f3).1, (inIds_toInt t2 t3).1]

theorem nodup_of_map {α β γ : Type} (f : α → β) (g : β → γ) (l : List α)
    (h : (l.map (fun a => g (f a))).Nodup) : (l.map f).Nodup := by
  rw [List.Nodup, List.pairwise_map] at h ⊢
  exact h.imp fun hab e => hab (by rw [e])

/-- For integer IDs nothing is overwritten. -/
theorem nodup_of_accepted (h : mkSim n dt lam = .ok s) (hb : n.baseMVA ≠ .nan) (hi : IntegralIds n)
    {buses : List (Bus K)} {branches : List (Branch K)} {devices dl : List (Device K)}
    {bl : List (Bus K)} {brl : List (Line K)} (I : LoadInvs n bl brl dl buses branches devices) :
    (bl.map Bus.id).Nodup ∧ (dl.map Device.id).Nodup ∧ (brl.map (fun l => (l.fBus, l.tBus))).Nodup := by
  have hn := noNan_of_mkSim h hb
  have W := (C01_checkNetwork_iff hn).1 (mkSim_ok.1 h).1.1
  refine ⟨?_, ?_, ?_⟩
  · apply nodup_of_map _ (fun i : ℤ => (some (X.fin (i : K)) : Cell K))
    rw [← busIds_eq I.hbl hi]
    exact List.pairwise_map.2 W.busIds
  · apply nodup_of_map _ (fun i : ℤ => (some (X.fin (i : K)) : Cell K))
    rw [← devIds_eq I.hdl hi]
    exact List.pairwise_map.2 W.devIds
  · apply nodup_of_map _ (fun i : ℤ × ℤ =>
      ((some (X.fin (i.1 : K)), some (X.fin (i.2 : K))) : Cell K × Cell K))
    rw [← branchEnds_eq I.hbrl]
    refine List.pairwise_map.2 (W.simple.2.imp fun hab e => hab (Or.inl ?_))
    simpa using e

/-- **C10 (partial: integer IDs).** Nothing of the network file is dropped: buses and devices are the
rows of the file sorted by ID, branches are the rows in file order.  Missing: IDs that are not integers,
for which the claim is false (`C10_counterexample`). -/
theorem C10_nothing_dropped_partial (h : mkSim n dt lam = .ok s) (hb : n.baseMVA ≠ .nan)
    (hi : IntegralIds n) :
    (s.buses.map fun b => some (X.fin (b.id : K))).Perm (n.bus.map (· .busId)) ∧
    s.buses.Pairwise (fun a b => a.id < b.id) ∧
    (s.devices.map fun d => some (X.fin (d.id : K))).Perm (n.device.map (· .devId)) ∧
    s.devices.Pairwise (fun a b => a.id < b.id) ∧
    (s.branches.map fun b => (some (X.fin (b.line.fBus : K)), some (X.fin (b.line.tBus : K)))) =
      n.branch.map (fun r => (r .fBus, r .tBus)) := by
  obtain ⟨_, buses, branches, devices, bl, brl, dl, I, rfl⟩ := mkSim_ok.1 h
  obtain ⟨n1, n2, n3⟩ := nodup_of_accepted h hb hi I
  refine ⟨?_, ?_, ?_, I.devices_sorted, ?_⟩
  · rw [busIds_eq I.hbl hi, List.map_map]
    exact (I.perm_buses n1).map _
  · exact List.pairwise_map.2 I.buses_sorted
  · rw [devIds_eq I.hdl hi]
    exact (I.perm_devices n2).map _
  · rw [branchEnds_eq I.hbrl, I.eq_branches n3, List.map_map]
    rfl

/-- **C10**, consequence: the numbers of rows are kept. -/
theorem C10_sizes_partial (h : mkSim n dt lam = .ok s) (hb : n.baseMVA ≠ .nan) (hi : IntegralIds n) :
    s.nBus = n.bus.length ∧ s.nDevice = n.device.length ∧ s.branches.length = n.branch.length := by
  obtain ⟨h1, _, h2, _, h3⟩ := C10_nothing_dropped_partial h hb hi
  refine ⟨?_, ?_, ?_⟩
  · simpa [Sim.nBus] using h1.length_eq
  · simpa [Sim.nDevice] using h2.length_eq
  · simpa using congrArg List.length h3

/-! ### C09 -/

theorem exactlyOne_perm {α : Type} {P : α → Prop} {l l' : List α} (hp : l.Perm l')
    (h : ExactlyOne P l) : ExactlyOne P l' := by
  classical
  rw [← filter_length_one (fun a => decide (P a)) P _ (by simp)] at h ⊢
  rw [← h]
  exact (hp.filter _).length_eq.symm

theorem wellFormed_perm (hb : n'.baseMVA = n.baseMVA) (hbr : n'.branch = n.branch)
    (h1 : n.bus.Perm n'.bus) (h2 : n.device.Perm n'.device) (W : WellFormed n) : WellFormed n' := by
  refine ⟨?_, exactlyOne_perm h1 W.oneSlackBus, exactlyOne_perm h2 W.oneSlackDev, ?_, ?_, ?_, ?_, ?_⟩
  · rw [BasePos, hb]; exact W.basePos
  · intro b hb d hd
    exact W.slackMatch b (h1.mem_iff.2 hb) d (h2.mem_iff.2 hd)
  · exact (h1.pairwise_iff (fun h => Ne.symm h)).1 W.busIds
  · exact (h2.pairwise_iff (fun h => Ne.symm h)).1 W.devIds
  · rw [SimpleGraph, hbr]; exact W.simple
  · intro a ha
    rw [hbr] at ha
    obtain ⟨⟨b, hb, e⟩, b', hb', e'⟩ := W.endpoints a ha
    exact ⟨⟨b, h1.mem_iff.1 hb, e⟩, b', h1.mem_iff.1 hb', e'⟩

/-- **C09.** Permuting the bus and device rows of an accepted network (with integer IDs) gives the very
same simulator. -/
theorem C09_row_order (h : mkSim n dt lam = .ok s) (hb : n.baseMVA ≠ .nan) (hi : IntegralIds n)
    (e1 : n'.baseMVA = n.baseMVA) (e2 : n'.branch = n.branch)
    (p1 : n.bus.Perm n'.bus) (p2 : n.device.Perm n'.device) : mkSim n' dt lam = .ok s := by
  have hn := noNan_of_mkSim h hb
  have W := (C01_checkNetwork_iff hn).1 (mkSim_ok.1 h).1.1
  have hn' : NoNanTopology n' := by
    refine ⟨e1 ▸ hb, fun r hr => hn.bus r (p1.mem_iff.2 hr), fun r hr => hn.dev r (p2.mem_iff.2 hr), ?_⟩
    rw [e2]; exact hn.branch
  obtain ⟨_, buses, branches, devices, bl, brl, dl, I, rfl⟩ := mkSim_ok.1 h
  obtain ⟨n1, n2, n3⟩ := nodup_of_accepted h hb hi I
  obtain ⟨bl', hbl', pbl⟩ := mapE_perm I.hbl p1
  obtain ⟨dl', hdl', pdl⟩ := mapE_perm I.hdl p2
  refine mkSim_ok.2 ⟨⟨(C01_checkNetwork_iff hn').2 (wellFormed_perm e1 e2 p1 p2 W),
    (mkSim_ok.1 h).1.2⟩, buses, branches,
    devices, bl', brl, dl', ?_, by rw [e1]⟩
  refine ⟨hbl', by rw [e1, e2]; exact I.hbrl, by rw [e1]; exact hdl', ?_, I.hbranches, ?_⟩
  · refine sorted_perm_eq Bus.id I.buses_sorted (sortDict_strict _ _ (dictOf_inv _ _)) ?_
    refine (I.perm_buses n1).trans (pbl.trans ?_)
    refine List.Perm.symm (((sortDict_perm _).map _).trans ?_)
    rw [dictOf_distinct _ _ ((pbl.map Bus.id).nodup_iff.1 n1), List.map_map]
    simp [Function.comp_def]
  · refine sorted_perm_eq Device.id I.devices_sorted (sortDict_strict _ _ (dictOf_inv _ _)) ?_
    refine (I.perm_devices n2).trans (pdl.trans ?_)
    refine List.Perm.symm (((sortDict_perm _).map _).trans ?_)
    rw [dictOf_distinct _ _ ((pdl.map Device.id).nodup_iff.1 n2), List.map_map]
    simp [Function.comp_def]

/-! ### C11 -/

theorem count_classes (l : List (Device K))
    (h : ∀ d ∈ l, ∃ row ids base, DevClass row ids base d) :
    l.length = (l.filter (fun d => d.isSlack)).length + (l.filter Device.isLoad).length +
      (l.filter Device.isNonSlackGen).length + (l.filter Device.isStorage).length ∧
    (l.filter Device.isRenewable).length ≤ (l.filter Device.isNonSlackGen).length := by
  induction l with
  | nil => simp
  | cons d l ih =>
    obtain ⟨i1, i2⟩ := ih fun x hx => h x (by simp [hx])
    obtain ⟨row, ids, base, C⟩ := h d (by simp)
    cases C with
    | load _ _ hk hs | slack _ _ hk hs | classical _ _ hk hs | renewable _ _ hk hs
    | storage _ _ hk hs =>
      simp only [List.filter_cons, List.length_cons, Device.isLoad, Device.isNonSlackGen,
        Device.isGen, Device.isStorage, Device.isRenewable, hk, hs]
      simp
      omega

/-- **C11.** `N_device = 1 + N_load + N_non_slack_gen + N_des` and `N_gen_rer <= N_non_slack_gen` for
accepted networks with integer IDs. -/
theorem C11_counters (h : mkSim n dt lam = .ok s) (hb : n.baseMVA ≠ .nan) (hi : IntegralIds n) :
    s.nDevice = 1 + s.nLoad + s.nNonSlackGen + s.nDes ∧ s.nGenRer ≤ s.nNonSlackGen := by
  classical
  have hn := noNan_of_mkSim h hb
  have W := (C01_checkNetwork_iff hn).1 (mkSim_ok.1 h).1.1
  obtain ⟨_, buses, branches, devices, bl, brl, dl, I, rfl⟩ := mkSim_ok.1 h
  obtain ⟨n1, n2, n3⟩ := nodup_of_accepted h hb hi I
  have hc : ∀ d ∈ devices, ∃ row ids base, DevClass row ids base d := by
    intro d hd
    obtain ⟨r, _, hr⟩ := I.device_row hd
    exact ⟨r, _, _, mkDevice_class hr⟩
  have hslack : (devices.filter (fun d => d.isSlack)).length = 1 := by
    rw [((I.perm_devices n2).filter _).length_eq]
    have h1 := (filter_length_one (fun r : DevRow K => decide (IsSlackDev r)) IsSlackDev n.device
      (by simp)).2 W.oneSlackDev
    rw [← h1]
    have H := mapE_ok.1 I.hdl
    clear h1 I hc h hb hi n1 n2 n3 W hn
    revert H
    generalize n.device = rows
    intro H
    induction H with
    | nil => rfl
    | @cons r d _ _ hrd _ ih =>
      have e : d.isSlack = decide (IsSlackDev r) := by
        cases mkDevice_class hrd with
        | load ht _ _ hs | slack ht _ _ hs | classical ht _ _ hs | renewable ht _ _ hs
        | storage ht _ _ hs =>
          rw [hs, IsSlackDev, ht]
          simp
      rw [List.filter_cons, List.filter_cons, e]
      split
      · rw [List.length_cons, List.length_cons, ih]
      · exact ih
  have := count_classes devices hc
  simp only [Sim.nDevice, Sim.nLoad, Sim.nNonSlackGen, Sim.nDes, Sim.nGenRer]
  exact ⟨by omega, this.2⟩

/-! ### C41 -/

/-- Sum of a list of extended numbers (`sum`, starting from 0). -/
def sumX (l : List (X K)) : X K := l.foldl (· + ·) 0

/-- **C41.** The limits of a bus are the sums of the limits of the devices connected to it. -/
theorem C41_bus_limits (h : mkSim n dt lam = .ok s) {b : Bus K} (hb : b ∈ s.buses) :
    let here := s.devices.filter (fun d => d.busId = b.id)
    b.pMin = sumX (here.map Device.pMin) ∧ b.pMax = sumX (here.map Device.pMax) ∧
    b.qMin = sumX (here.map Device.qMin) ∧ b.qMax = sumX (here.map Device.qMax) := by
  obtain ⟨_, buses, branches, devices, bl, brl, dl, I, rfl⟩ := mkSim_ok.1 h
  obtain ⟨b', hb', rfl⟩ := List.mem_map.1 hb
  simp only [sumX, List.foldl_map]
  exact ⟨rfl, rfl, rfl, rfl⟩

end

/-! ### Examples -/

theorem demoNet_integral : IntegralIds demoNet := by
  constructor
  · intro r hr
    simp only [demoNet, Network.ofLists, List.map_cons, List.map_nil, List.mem_cons,
      List.not_mem_nil, or_false] at hr
    rcases hr with rfl | rfl | rfl
    exacts [⟨0, by decide +kernel⟩, ⟨1, by decide +kernel⟩, ⟨2, by decide +kernel⟩]
  · intro r hr
    simp only [demoNet, Network.ofLists, List.map_cons, List.map_nil, List.mem_cons,
      List.not_mem_nil, or_false] at hr
    rcases hr with rfl | rfl | rfl | rfl
    exacts [⟨0, by decide +kernel⟩, ⟨1, by decide +kernel⟩, ⟨2, by decide +kernel⟩,
      ⟨3, by decide +kernel⟩]

/-- The demo network is accepted (hypotheses of C09, C10, C11, C41). -/
theorem demoNet_sim : ∃ s, mkSim demoNet (.fin (1/4)) (.fin 100) = .ok s ∧
    (s.devices.map Device.id = [0, 1, 2, 3] ∧ s.nGenRer = 1) := exOk (by decide +kernel)

example : ∃ s, mkSim demoNet (.fin (1/4)) (.fin 100) = .ok s ∧
    mkSim { demoNet with device := demoNet.device.reverse, bus := demoNet.bus.reverse }
      (.fin (1/4)) (.fin 100) = .ok s := by
  obtain ⟨s, hs, _⟩ := demoNet_sim
  exact ⟨s, hs, C09_row_order hs (by decide) demoNet_integral rfl rfl (List.reverse_perm _).symm
    (List.reverse_perm _).symm⟩

/-- A network whose load has ID 1.5 and whose generator has ID 1. -/
def fracNet : Network ℚ := Network.ofLists (.fin 100)
  [[num 0, num 0, num 132, num 1, num 1], [num 1, num 1, num 33, num (11/10), num (9/10)]]
  [[num 0, num 1, num (1/100), num (1/10), num 0, num 32, num 1, num 0]]
  [[num 0, num 0, num 0, none, num 200, num (-200), num 200, num (-200), none, none, none, none, none, none, none],
   [num 1, num 1, num 2, none, num 30, num 0, num 30, num (-30), num 20, none, num 15, num (-15), none, none, none],
   [num (3/2), num 1, num (-1), num (1/5), num 0, num (-10), none, none, none, none, none, none, none, none, none]]

/-- **C10 is false** without the integrality hypothesis: the generator with ID 1 is silently replaced by
the load with ID 1.5. -/
theorem C10_counterexample : ∃ s, mkSim fracNet (.fin (1/4)) (.fin 100) = .ok s ∧
    (s.nDevice = 2 ∧ fracNet.device.length = 3 ∧ s.nNonSlackGen = 0 ∧ s.devices.map Device.id = [0, 1]) :=
  exOk (by decide +kernel)

/-- ... and the result then depends on the row order (C09 needs integer IDs). -/
theorem C09_counterexample_fractional :
    ∃ s, mkSim { fracNet with device := fracNet.device.reverse } (.fin (1/4)) (.fin 100) = .ok s ∧
      (s.nDevice = 2 ∧ s.nNonSlackGen = 1 ∧ s.nLoad = 0) := exOk (by decide +kernel)

end Anm
