import Verif.Demo
import Verif.Lemmas.Lists
import Verif.Spec.Network

/-! # C01, C02: network validation -/

set_option linter.unusedSectionVars false

namespace Anm

open Spec

section
variable {K : Type} [Field K] [LinearOrder K]

theorem cellEq_iff {a b : Cell K} (h : CellOk a) : cellEq a b ↔ a = b := by
  unfold CellOk at h
  cases a <;> cases b <;> simp_all [cellEq, X.feq_iff, X.notNan_iff]

theorem cellEqB_iff {a b : Cell K} (h : CellOk a) : cellEqB a b = true ↔ a = b := by
  simp [cellEqB, cellEq_iff h]

theorem cellEqB_false_iff {a b : Cell K} (h : CellOk a) : cellEqB a b = false ↔ a ≠ b := by
  simp [cellEqB, cellEq_iff h]

theorem pairEqB_false_iff {a b : Cell K × Cell K} (h1 : CellOk a.1) (h2 : CellOk a.2) :
    pairEqB a b = false ↔ a ≠ b := by
  rw [Ne, Prod.ext_iff, ← cellEqB_iff h1, ← cellEqB_iff h2, pairEqB]
  simp only [Bool.and_eq_false_iff, not_and_or, Bool.not_eq_true]

theorem filter_length_one {α : Type} (p : α → Bool) (P : α → Prop) (l : List α)
    (h : ∀ a ∈ l, p a = true ↔ P a) : (l.filter p).length = 1 ↔ ExactlyOne P l := by
  induction l with
  | nil => simp [ExactlyOne]
  | cons x l ih =>
    have ih := ih fun a ha => h a (by simp [ha])
    have hx := h x (by simp)
    by_cases hp : p x = true
    · rw [List.filter_cons_of_pos hp]
      simp only [List.length_cons, Nat.add_eq_right, List.length_eq_zero_iff,
        List.filter_eq_nil_iff]
      constructor
      · intro h0
        refine ⟨0, x, rfl, hx.1 hp, ?_⟩
        intro j b hj hb
        cases j with
        | zero => rfl
        | succ j =>
          have hm : b ∈ l := List.mem_of_getElem? (i := j) (by simpa using hj)
          exact absurd ((h b (by simp [hm])).2 hb) (h0 b hm)
      · rintro ⟨k, a, hk, ha, hu⟩ b hb hpb
        have h0 := hu 0 x rfl (hx.1 hp)
        obtain ⟨j, hj⟩ := List.mem_iff_getElem?.1 hb
        have h1 := hu (j + 1) b (by simpa using hj) ((h b (by simp [hb])).1 hpb)
        omega
    · rw [List.filter_cons_of_neg hp, ih]
      constructor
      · rintro ⟨k, a, hk, ha, hu⟩
        refine ⟨k + 1, a, by simpa using hk, ha, ?_⟩
        intro j b hj hb
        cases j with
        | zero =>
          simp at hj
          subst hj
          exact absurd (hx.2 hb) hp
        | succ j => rw [hu j b (by simpa using hj) hb]
      · rintro ⟨k, a, hk, ha, hu⟩
        cases k with
        | zero =>
          simp at hk
          subst hk
          exact absurd (hx.2 ha) hp
        | succ k =>
          refine ⟨k, a, by simpa using hk, ha, ?_⟩
          intro j b hj hb
          have := hu (j + 1) b (by simpa using hj) hb
          omega

variable {n : Network K}

theorem rule_base (h : NoNanTopology n) : (¬ n.baseMVA ≤ 0) ↔ BasePos n :=
  X.not_le_iff (X.notNan_iff.2 h.base) (b := X.fin 0) (by simp)

theorem slackBus_iff (h : NoNanTopology n) {r : BusRow K} (hr : r ∈ n.bus) :
    cellEqB (r .busType) (some 0) = true ↔ IsSlackBus r := cellEqB_iff (h.bus r hr).2

theorem slackDev_iff (h : NoNanTopology n) {r : DevRow K} (hr : r ∈ n.device) :
    cellEqB (r .devType) (some 0) = true ↔ IsSlackDev r := cellEqB_iff (h.dev r hr).2.2

theorem rule_slackBus (h : NoNanTopology n) :
    (n.bus.filter (fun r => cellEqB (r .busType) (some 0))).length = 1 ↔ OneSlackBus n :=
  filter_length_one _ _ _ fun _ ha => slackBus_iff h ha

theorem rule_slackDev (h : NoNanTopology n) :
    (n.device.filter (fun r => cellEqB (r .devType) (some 0))).length = 1 ↔ OneSlackDev n :=
  filter_length_one _ _ _ fun _ ha => slackDev_iff h ha

theorem rule_slackMatch (h : NoNanTopology n) :
    (∀ b ∈ n.bus.filter (fun r => cellEqB (r .busType) (some 0)),
      ∀ d ∈ n.device.filter (fun r => cellEqB (r .devType) (some 0)),
        cellEq (b .busId) (d .busId)) ↔ SlackMatch n := by
  simp only [List.mem_filter, SlackMatch]
  constructor
  · intro H b hb d hd hsb hsd
    exact (cellEq_iff (h.bus b hb).1).1
      (H b ⟨hb, (slackBus_iff h hb).2 hsb⟩ d ⟨hd, (slackDev_iff h hd).2 hsd⟩)
  · rintro H b ⟨hb, hsb⟩ d ⟨hd, hsd⟩
    exact (cellEq_iff (h.bus b hb).1).2
      (H b hb d hd ((slackBus_iff h hb).1 hsb) ((slackDev_iff h hd).1 hsd))

theorem rule_busIds (h : NoNanTopology n) :
    ((n.bus.map (· .busId)).length = (pySet cellEqB (n.bus.map (· .busId))).length) ↔
      BusIdsDistinct n := by
  rw [pySet_length_eq, List.pairwise_map, BusIdsDistinct]
  refine List.Pairwise.iff_of_mem fun {a b} ha hb => ?_
  rw [cellEqB_false_iff (h.bus b hb).1]
  exact ne_comm

theorem rule_devIds (h : NoNanTopology n) :
    ((n.device.map (· .devId)).length = (pySet cellEqB (n.device.map (· .devId))).length) ↔
      DevIdsDistinct n := by
  rw [pySet_length_eq, List.pairwise_map, DevIdsDistinct]
  refine List.Pairwise.iff_of_mem fun {a b} ha hb => ?_
  rw [cellEqB_false_iff (h.dev b hb).1]
  exact ne_comm

theorem rule_simple (h : NoNanTopology n) :
    ((setBranches n.branch).length = 2 * n.branch.length) ↔ SimpleGraph n := by
  rw [setBranches_eq]
  have hl : (n.branch.flatMap fun br =>
      [((br .fBus : Cell K), (br .tBus : Cell K)), (br .tBus, br .fBus)]).length
        = 2 * n.branch.length := by
    simp [List.length_flatMap, Nat.mul_comm]
  rw [← hl, eq_comm, pySet_length_eq, List.pairwise_flatMap, SimpleGraph]
  have hok := h.branch
  refine and_congr ?_ ?_
  · refine forall_congr' fun a => forall_congr' fun ha => ?_
    have := hok a ha
    simp only [List.pairwise_cons, List.mem_cons, List.not_mem_nil, or_false, forall_eq,
      false_imp_iff, implies_true, List.Pairwise.nil, and_true]
    rw [pairEqB_false_iff this.2 this.1, Ne, Prod.ext_iff]
    simp only [not_and, Ne]
    constructor
    · intro H e
      exact H e.symm e
    · intro H e _
      exact H e.symm
  · refine List.Pairwise.iff_of_mem fun {a b} ha hb => ?_
    have hb := hok b hb
    simp only [List.mem_cons, List.not_mem_nil, or_false, SameEnds]
    constructor
    · intro H
      have h1 := (pairEqB_false_iff (by exact hb.1) (by exact hb.2)).1
        (H _ (Or.inl rfl) _ (Or.inl rfl))
      have h2 := (pairEqB_false_iff (by exact hb.2) (by exact hb.1)).1
        (H _ (Or.inl rfl) _ (Or.inr rfl))
      simp only [Ne, Prod.mk.injEq] at h1 h2
      rintro (⟨e1, e2⟩ | ⟨e1, e2⟩)
      · exact h1 ⟨e1.symm, e2.symm⟩
      · exact h2 ⟨e1.symm, e2.symm⟩
    · intro H x hx y hy
      rcases hx with rfl | rfl <;> rcases hy with rfl | rfl
      · rw [pairEqB_false_iff hb.1 hb.2]; simp only [Ne, Prod.mk.injEq]; tauto
      · rw [pairEqB_false_iff hb.2 hb.1]; simp only [Ne, Prod.mk.injEq]; tauto
      · rw [pairEqB_false_iff hb.1 hb.2]; simp only [Ne, Prod.mk.injEq]; tauto
      · rw [pairEqB_false_iff hb.2 hb.1]; simp only [Ne, Prod.mk.injEq]; tauto

theorem pairEqB_iff {a b : Cell K × Cell K} (h1 : CellOk a.1) (h2 : CellOk a.2) :
    pairEqB a b = true ↔ a = b := by
  rw [Prod.ext_iff, ← cellEqB_iff h1, ← cellEqB_iff h2, pairEqB, Bool.and_eq_true]

theorem rule_endpoints (h : NoNanTopology n) :
    (∀ br ∈ setBranches n.branch,
      (n.bus.map (· .busId)).any (cellEqB br.1) ∧ (n.bus.map (· .busId)).any (cellEqB br.2)) ↔
      EndpointsExist n := by
  rw [setBranches_eq]
  have key : ∀ {c : Cell K}, CellOk c →
      ((n.bus.map (· .busId)).any (cellEqB c) = true ↔ ∃ b ∈ n.bus, b .busId = c) := by
    intro c hc
    rw [List.any_eq_true]
    simp only [List.mem_map]
    constructor
    · rintro ⟨x, ⟨b, hb, rfl⟩, hx⟩
      exact ⟨b, hb, ((cellEqB_iff hc).1 hx).symm⟩
    · rintro ⟨b, hb, rfl⟩
      exact ⟨_, ⟨b, hb, rfl⟩, (cellEqB_iff hc).2 rfl⟩
  constructor
  · intro H a ha
    have hok := h.branch a ha
    have hmem : (a .fBus, a .tBus) ∈ n.branch.flatMap fun br =>
        [((br .fBus : Cell K), (br .tBus : Cell K)), (br .tBus, br .fBus)] :=
      List.mem_flatMap.2 ⟨a, ha, by simp⟩
    -- the pair itself may be represented by an equal pair, which is the same pair (no NaN)
    have cov : ∃ b ∈ pySet pairEqB (n.branch.flatMap fun br =>
        [((br .fBus : Cell K), (br .tBus : Cell K)), (br .tBus, br .fBus)]),
        (a .fBus, a .tBus) = b := by
      have : ∀ (l s : List (Cell K × Cell K)), (a .fBus, a .tBus) ∈ l →
          (a .fBus, a .tBus) ∈ l.foldl (pySetAdd pairEqB) s := by
        intro l
        induction l with
        | nil => intro s h; simp at h
        | cons c l ih =>
          intro s hm
          rcases List.mem_cons.1 hm with e | hm
          · rw [List.foldl_cons]
            apply subset_foldl_pySetAdd
            rw [← e]
            unfold pySetAdd
            split
            · rename_i hany
              obtain ⟨b, hb1, hb2⟩ := List.any_eq_true.1 hany
              rw [(pairEqB_iff (by exact hok.1) (by exact hok.2)).1 hb2]
              exact hb1
            · simp
          · exact ih _ hm
      exact ⟨_, this _ [] hmem, rfl⟩
    obtain ⟨b, hb, rfl⟩ := cov
    have := H _ hb
    exact ⟨(key hok.1).1 this.1, (key hok.2).1 this.2⟩
  · intro H br hbr
    rcases mem_foldl_pySetAdd _ hbr with h0 | hbr
    · simp at h0
    obtain ⟨a, ha, hm⟩ := List.mem_flatMap.1 hbr
    have hok := h.branch a ha
    simp only [List.mem_cons, List.not_mem_nil, or_false] at hm
    rcases hm with rfl | rfl
    · exact ⟨(key hok.1).2 (H a ha).1, (key hok.2).2 (H a ha).2⟩
    · exact ⟨(key hok.2).2 (H a ha).2, (key hok.1).2 (H a ha).1⟩

/-- **C01.** `check_network_specs` accepts a network without NaN cells iff it is well-formed. -/
theorem C01_checkNetwork_iff (h : NoNanTopology n) :
    checkNetwork n = .ok () ↔ WellFormed n := by
  simp only [checkNetwork, bind_ok, guardE_ok, exists_and_left, exists_const]
  rw [rule_base h, rule_slackBus h, rule_slackDev h, rule_slackMatch h, rule_busIds h,
    rule_devIds h, rule_simple h, rule_endpoints h]
  constructor
  · rintro ⟨h1, h2, h3, h4, h5, h6, h7, h8⟩
    exact ⟨h1, h2, h3, h4, h5, h6, h7, h8⟩
  · rintro ⟨h1, h2, h3, h4, h5, h6, h7, h8⟩
    exact ⟨h1, h2, h3, h4, h5, h6, h7, h8⟩

/-- **C02.** On networks without NaN cells the exception is the one documented for the first violated
rule. -/
theorem C02_error_class (h : NoNanTopology n) (e : PyErr) :
    checkNetwork n = .error e ↔ FirstViolation n e := by
  simp only [checkNetwork, bind_error, guardE_error, guardE_ok, exists_and_left, exists_const]
  rw [rule_base h, rule_slackBus h, rule_slackDev h, rule_slackMatch h, rule_busIds h,
    rule_devIds h, rule_simple h, rule_endpoints h]
  constructor
  · rintro (⟨h1, rfl⟩ | ⟨h1, ⟨h2, rfl⟩ | ⟨h2, ⟨h3, rfl⟩ | ⟨h3, ⟨h4, rfl⟩ | ⟨h4, ⟨h5, rfl⟩ |
      ⟨h5, ⟨h6, rfl⟩ | ⟨h6, ⟨h7, rfl⟩ | ⟨h7, h8, rfl⟩⟩⟩⟩⟩⟩⟩)
    · exact .base h1
    · exact .slackBus h1 h2
    · exact .slackDev h1 h2 h3
    · exact .slackMatch h1 h2 h3 h4
    · exact .busIds h1 h2 h3 h4 h5
    · exact .devIds h1 h2 h3 h4 h5 h6
    · exact .simple h1 h2 h3 h4 h5 h6 h7
    · exact .endpoints h1 h2 h3 h4 h5 h6 h7 h8
  · intro H
    cases H <;> simp_all

/-- **C02.** Whatever the cells (NaN included), only the four documented classes can be raised. -/
theorem C02_error_classes_any (n : Network K) (e : PyErr) (h : checkNetwork n = .error e) :
    e = .baseMVAError ∨ e = .busSpecError ∨ e = .deviceSpecError ∨ e = .branchSpecError := by
  simp only [checkNetwork, bind_error, guardE_error, guardE_ok] at h
  rcases h with ⟨_, rfl⟩ | ⟨_, _, ⟨_, rfl⟩ | ⟨_, _, ⟨_, rfl⟩ | ⟨_, _, ⟨_, rfl⟩ | ⟨_, _, ⟨_, rfl⟩ |
      ⟨_, _, ⟨_, rfl⟩ | ⟨_, _, ⟨_, rfl⟩ | ⟨_, _, _, rfl⟩⟩⟩⟩⟩⟩⟩ <;> simp

end

/-! ### Non-vacuity: a concrete network -/

theorem demoNet_noNan : NoNanTopology demoNet := by
  constructor
  · decide
  · intro r hr
    simp only [demoNet, Network.ofLists, List.map_cons, List.map_nil, List.mem_cons,
      List.not_mem_nil, or_false] at hr
    rcases hr with rfl | rfl | rfl <;> constructor <;> simp [CellOk, rowOf, headersBus]
  · intro r hr
    simp only [demoNet, Network.ofLists, List.map_cons, List.map_nil, List.mem_cons,
      List.not_mem_nil, or_false] at hr
    rcases hr with rfl | rfl | rfl | rfl <;> refine ⟨?_, ?_, ?_⟩ <;>
      simp [CellOk, rowOf, headersDev]
  · intro r hr
    simp only [demoNet, Network.ofLists, List.map_cons, List.map_nil, List.mem_cons,
      List.not_mem_nil, or_false] at hr
    rcases hr with rfl | rfl <;> constructor <;> simp [CellOk, rowOf, headersBranch]

theorem demoNet_ok : checkNetwork demoNet = .ok () := by decide +kernel

/-- C01 applies to the demo network and says it is well-formed. -/
example : WellFormed demoNet := (C01_checkNetwork_iff demoNet_noNan).1 demoNet_ok

/-- A network with an anti-parallel duplicate branch (0,1), (1,0): rejected, and by C02 it violates
the graph rule. -/
def dupNet : Network ℚ :=
  { demoNet with branch := demoNet.branch ++
      [rowOf headersBranch [num 1, num 0, num (1/100), num (1/10), num 0, num 32, num 1, num 0]] }

example : checkNetwork dupNet = .error .branchSpecError := by decide +kernel

end Anm
