import Verif.Props.LoadCase
import Verif.Spec.Sim

/-!
# C120: which rows of a network file are accepted

Buses, lines, generators and storage units are accepted exactly if their data are coherent; coherent loads are not always accepted.
-/

namespace Anm

open Spec

set_option linter.unusedSectionVars false

section
variable {K : Type} [Field K] [LinearOrder K] [IsStrictOrderedRing K] [FloorRing K] {ids : List ℤ}

namespace Spec

/-- A coherent row for a bus of type `t`. -/
def CoherentBus (row : BusRow K) (t : ℤ) : Prop :=
  (t = 0 ∨ t = 1) ∧ (∃ v, row .baseKV = some v ∧ .fin 0 < v) ∧
    ∃ hi, row .vmax = some hi ∧ .fin 0 ≤ hi ∧ (t = 0 ∨ ∃ lo, row .vmin = some lo ∧ .fin 0 ≤ lo ∧ lo ≤ hi)

/-- A cell that is empty or holds a number of a set. -/
def CellIn (c : Cell K) (P : X K → Prop) : Prop := ∀ x, c = some x → P x

/-- A coherent row for a line. -/
def CoherentLine (row : BranchRow K) : Prop :=
  CellIn (row .r) (.fin 0 ≤ ·) ∧ CellIn (row .x) (.fin 0 ≤ ·) ∧
    (CellIn (row .r) (· = .fin 0) → CellIn (row .x) (· = .fin 0) → False) ∧ CellIn (row .b) (.fin 0 ≤ ·) ∧ CellIn (row .rate) (.fin 0 ≤ ·) ∧
    CellIn (row .tap) (.fin 0 < ·) ∧ CellIn (row .shift) fun x => .fin 0 ≤ x ∧ x ≤ .fin 360

/-- A coherent row for a generator, which is the slack device if `slack` holds: limits in MW and MVAr. -/
def CoherentGen (row : DevRow K) (slack : Prop) : Prop :=
  ∃ pmin, (row .pmin = some pmin ∨ row .pmin = none ∧ (slack ∧ pmin = .ninf ∨ ¬ slack ∧ pmin = .fin 0)) ∧
    let pmax := (row .pmax).getD .pinf
    let qmax := (row .qmax).getD .pinf
    let qmin := (row .qmin).getD .ninf
    let pp := (row .pPlus).getD pmax
    let qp := (row .qPlus).getD qmax
    let qm := (row .qMinus).getD qmin
    (¬ slack → .fin 0 ≤ pmin) ∧ pmin ≤ pp ∧ pp ≤ pmax ∧ qmin ≤ qm ∧ qm ≤ qp ∧ qp ≤ qmax

/-- A coherent row for a storage unit: limits in MW, MVAr and MWh. -/
def CoherentStorage (row : DevRow K) : Prop :=
  let pmax := (row .pmax).getD .pinf
  let pmin := (row .pmin).getD .ninf
  let qmax := (row .qmax).getD .pinf
  let qmin := (row .qmin).getD .ninf
  let pp := (row .pPlus).getD pmax
  let pm := (row .pMinus).getD pmin
  let qp := (row .qPlus).getD qmax
  let qm := (row .qMinus).getD qmin
  let smin := (row .socMin).getD (.fin 0)
  let eff := (row .eff).getD (.fin 1)
  pmin ≤ .fin 0 ∧ .fin 0 ≤ pmax ∧ pmin ≤ pm ∧ pm ≤ pp ∧ pp ≤ pmax ∧ qmin ≤ qm ∧ qm ≤ qp ∧ qp ≤ qmax ∧
    .fin 0 ≤ smin ∧ (∃ smax, row .socMax = some smax ∧ smin ≤ smax) ∧ .fin 0 ≤ eff ∧ eff ≤ .fin 1

/-- A coherent row for a load: it consumes power, with limits in MW. -/
def CoherentLoad (row : DevRow K) : Prop :=
  (∃ r, row .qp = some r) ∧ (row .pmin).getD .ninf ≤ (row .pmax).getD (.fin 0) ∧ (row .pmax).getD (.fin 0) ≤ .fin 0

end Spec

/-! ### Cells -/

theorem readCell_pure {α : Type} {c : Cell K} {y : α} {bad : X K → Prop} [DecidablePred bad] {e : PyErr} {conv : X K → α} {v : α} :
    readCell c (pure y) bad e conv = .ok v ↔ CellIn c (fun x => ¬ bad x) ∧ v = (c.map conv).getD y := by
  rw [readCell_ok]
  cases c with
  | none => simp [CellIn, pure, Except.pure, eq_comm]
  | some x => simp [CellIn]

theorem readCell_need {α : Type} {c : Cell K} {bad : X K → Prop} [DecidablePred bad] {e e' : PyErr} {conv : X K → α} {v : α} :
    readCell c (throw e') bad e conv = .ok v ↔ ∃ x, c = some x ∧ ¬ bad x ∧ v = conv x := by
  rw [readCell_ok]
  simp

theorem X.div_lt_div_iff {b : K} (hb : 0 < b) (x y : X K) : x / .fin b < y / .fin b ↔ x < y := by
  have hn : (X.nan / X.fin b : X K) = .nan := rfl
  cases x <;> cases y <;> simp [X.fin_div_fin hb.ne', X.pinf_div hb, X.ninf_div hb, hn, div_lt_div_iff_of_pos_right hb]

/-- A per-unit value is the number in the cell, or a default, divided by the base power. -/
theorem toPu_div {b : K} (c : Cell K) {y z : X K} (h : z = y / .fin b) : toPu c (.fin b) z = c.getD y / .fin b := by
  subst h
  cases c <;> rfl

theorem map_div {b : K} (c : Cell K) {y z : X K} (h : z = y / .fin b) : (c.map (· / X.fin b)).getD z = c.getD y / .fin b := by
  subst h
  cases c <;> rfl

theorem cellIn_getD {c : Cell K} {P : X K → Prop} {y : X K} (h : P (c.getD y)) : CellIn c P := by
  rintro x rfl
  exact h

theorem getD_cellIn {c : Cell K} {P : X K → Prop} {y : X K} (h : CellIn c P) (hy : P y) : P (c.getD y) := by
  cases c with
  | none => exact hy
  | some x => exact h x rfl

theorem X.zero_div' {b : K} (hb : 0 < b) : (0 : X K) = .fin 0 / .fin b := by rw [X.fin_div_fin hb.ne', zero_div, X.zero_def]

theorem getD_notNan {c : Cell K} {y : X K} (hc : CellOk c) (hy : X.NotNan y) : X.NotNan (c.getD y) := by
  cases c with
  | none => exact hy
  | some x => exact cell_notNan hc

theorem inIds_intCast {i : ℤ} : inIds (X.fin (i : K)) ids ↔ i ∈ ids := by
  simp [inIds]

/-- The only exceptions. -/
def OnlyErr {α : Type} (m : Except PyErr α) (l : List PyErr) : Prop := ∀ e, m = .error e → e ∈ l

theorem OnlyErr.bind {α β : Type} {m : Except PyErr α} {f : α → Except PyErr β} {x : List PyErr} (h : OnlyErr m x)
    (h' : ∀ a, m = .ok a → OnlyErr (f a) x) : OnlyErr (m >>= f) x := by
  intro e he
  rcases bind_error.1 he with h1 | ⟨a, h1, h2⟩
  · exact h e h1
  · exact h' a h1 e h2

theorem OnlyErr.guard {c : Prop} [Decidable c] {x : PyErr} {l : List PyErr} (h : x ∈ l := by simp) : OnlyErr (guardE c x) l :=
  fun _ h' => (guardE_error.1 h').2 ▸ h

theorem OnlyErr.pure {α : Type} {a : α} {x : List PyErr} : OnlyErr (pure a) x := fun _ h => absurd h (by simp)

theorem OnlyErr.cell {α : Type} {c : Cell K} {dflt : Except PyErr α} {bad : X K → Prop} [DecidablePred bad] {x : PyErr} {l : List PyErr}
    {conv : X K → α} (h : OnlyErr dflt l) (hx : x ∈ l := by simp) : OnlyErr (readCell c dflt bad x conv) l := by
  cases c with
  | none => exact h
  | some y => exact .bind (.guard hx) fun _ _ => .pure

theorem OnlyErr.throw {α : Type} {x : PyErr} {l : List PyErr} (h : x ∈ l := by simp) : OnlyErr (throw x : Except PyErr α) l := fun _ h' => by
  cases h'
  exact h

/-! ### Buses and lines -/

/-- **C120, buses.** A bus is accepted exactly if its row is coherent; otherwise `BusSpecError` is raised. -/
theorem C120_bus {row : BusRow K} (hok : RowOk row) {i t : ℤ} (hi : row .busId = some (.fin (i : K))) (ht : row .busType = some (.fin (t : K))) :
    ((∃ b, mkBus row = .ok b) ↔ CoherentBus row t) ∧ OnlyErr (mkBus row) [.busSpecError] := by
  constructor
  · simp only [mkBus, hi, ht, cellInt, toInt_intCast, bind_ok, guardE_ok, pure_ok, readCell_need, CoherentBus]
    constructor
    · rintro ⟨b, _, ⟨⟩, _, ⟨⟩, _, h2, kv, ⟨_, k1, k2, rfl⟩, vm, ⟨_, m1, m2, rfl⟩, lo, h5, _, h6, rfl⟩
      have n1 : X.NotNan kv := cell_notNan (k1 ▸ hok .baseKV)
      have n2 : X.NotNan vm := cell_notNan (m1 ▸ hok .vmax)
      refine ⟨h2, ⟨kv, k1, (X.not_le_iff n1 (X.notNan_fin _)).1 k2⟩, vm, m1, (X.not_lt_iff n2 (X.notNan_fin _)).1 m2, ?_⟩
      rcases h2 with h2 | h2
      · exact .inl h2
      · right
        subst h2
        rcases readCell_ok.1 h5 with ⟨-, h⟩ | ⟨x, h7, h8, rfl⟩
        · simp at h
        · have n3 : X.NotNan x := cell_notNan (h7 ▸ hok .vmin)
          simp at h8 h6
          exact ⟨x, h7, (X.not_lt_iff n3 (X.notNan_fin _)).1 h8, (X.not_lt_iff n2 n3).1 h6⟩
    · rintro ⟨h2, ⟨kv, k1, k2⟩, vm, m1, m2, h3⟩
      have n1 : X.NotNan kv := cell_notNan (k1 ▸ hok .baseKV)
      have n2 : X.NotNan vm := cell_notNan (m1 ▸ hok .vmax)
      have e1 : ¬ kv ≤ 0 := (X.not_le_iff n1 (X.notNan_fin _)).2 k2
      have e2 : ¬ vm < 0 := (X.not_lt_iff n2 (X.notNan_fin _)).2 m2
      rcases h3 with rfl | ⟨lo, l1, l2, l3⟩
      · refine ⟨_, _, rfl, _, rfl, (), h2, _, ⟨kv, k1, e1, rfl⟩, _, ⟨vm, m1, e2, rfl⟩, row .vmin, ?_, (), .inl rfl, rfl⟩
        cases row .vmin <;> simp [readCell, guardE, bind, Except.bind, pure, Except.pure]
      · have n3 : X.NotNan lo := cell_notNan (l1 ▸ hok .vmin)
        have e3 : ¬ lo < 0 := (X.not_lt_iff n3 (X.notNan_fin _)).2 l2
        have e4 : ¬ vm < lo := (X.not_lt_iff n2 n3).2 l3
        refine ⟨_, _, rfl, _, rfl, (), h2, _, ⟨kv, k1, e1, rfl⟩, _, ⟨vm, m1, e2, rfl⟩, some lo, ?_, (), .inr ?_, rfl⟩
        · rw [l1]
          simp [readCell, guardE, bind, Except.bind, pure, Except.pure, e3]
        · rintro m h
          cases h
          exact e4
  · unfold mkBus
    rw [hi, ht]
    simp only [cellInt, toInt_intCast]
    refine .bind .pure fun _ _ => .bind .pure fun _ _ => .bind .guard fun _ _ => .bind (.cell .throw) fun _ _ => .bind (.cell .throw) fun _ _ => .bind (.cell ?_) fun _ _ => .bind .guard fun _ _ => .pure
    split_ifs
    · exact .pure
    · exact .throw

theorem endpoint_intCast {c : Cell K} {i : ℤ} (hi : c = some (.fin (i : K))) {e : PyErr} {j : ℤ} : endpoint c ids e = .ok j ↔ i ∈ ids ∧ j = i := by
  subst hi
  simp only [endpoint, bind_ok, guardE_ok, toInt_intCast, inIds_intCast]
  exact ⟨fun ⟨_, h1, h2⟩ => ⟨h1, by cases h2; rfl⟩, fun ⟨h1, h2⟩ => ⟨(), h1, by rw [h2]⟩⟩

theorem OnlyErr.endpoint {c : Cell K} {i : ℤ} (hi : c = some (.fin (i : K))) {x : PyErr} {l : List PyErr} (hx : x ∈ l := by simp) :
    OnlyErr (endpoint c ids x) l := by
  subst hi
  refine .bind (.guard hx) fun _ _ => ?_
  rw [toInt_intCast]
  exact .pure

theorem cellIn_nonneg {c : Cell K} (hc : CellOk c) : CellIn c (fun x => ¬ x < 0) ↔ CellIn c (.fin 0 ≤ ·) := by
  unfold CellIn
  refine forall_congr' fun x => forall_congr' fun h => X.not_lt_iff (cell_notNan (h ▸ hc)) (X.notNan_fin _)

theorem cellIn_zero {c : Cell K} (hc : CellOk c) : X.feq ((c.map _root_.id).getD 0) 0 ↔ CellIn c (· = .fin 0) := by
  cases c with
  | none => simp [CellIn, X.zero_def]
  | some x => simp only [CellIn, Option.map_some, Option.getD_some, id, Option.some.injEq, forall_eq']; rw [X.feq_iff]; exact ⟨fun h => h.1, fun h => ⟨h, cell_notNan hc⟩⟩

/-- **C120, lines.** A line is accepted exactly if its row is coherent; otherwise `BranchSpecError` is raised. -/
theorem C120_line {row : BranchRow K} (hok : RowOk row) {base : K} {f t : ℤ} (hf : row .fBus = some (.fin (f : K))) (ht : row .tBus = some (.fin (t : K))) :
    ((∃ l, mkLine row (.fin base) ids = .ok l) ↔ f ∈ ids ∧ t ∈ ids ∧ CoherentLine row) ∧ OnlyErr (mkLine row (.fin base) ids) [.branchSpecError] := by
  constructor
  · have e1 : CellIn (row .tap) (fun x => ¬ x ≤ 0) ↔ CellIn (row .tap) (.fin 0 < ·) := by
      unfold CellIn
      exact forall_congr' fun x => forall_congr' fun h => X.not_le_iff (cell_notNan (h ▸ hok _)) (X.notNan_fin _)
    have e2 : CellIn (row .shift) (fun x => ¬ (x < 0 ∨ .fin 360 < x)) ↔ CellIn (row .shift) fun x => .fin 0 ≤ x ∧ x ≤ .fin 360 := by
      unfold CellIn
      refine forall_congr' fun x => forall_congr' fun h => ?_
      have n : X.NotNan x := cell_notNan (h ▸ hok _)
      refine not_or.trans ?_
      exact and_congr (X.not_lt_iff n (X.notNan_fin _)) (X.not_lt_iff (X.notNan_fin _) n)
    simp only [mkLine, bind_ok, guardE_ok, pure_ok, readCell_pure, endpoint_intCast hf, endpoint_intCast ht, CoherentLine, cellIn_nonneg (hok _), e1, e2]
    constructor
    · rintro ⟨l, _, ⟨h1, rfl⟩, _, ⟨h2, rfl⟩, _, ⟨h3, rfl⟩, _, ⟨h4, rfl⟩, _, h5, _, ⟨h6, -⟩, _, ⟨h7, -⟩, _, ⟨h8, -⟩, _, ⟨h9, -⟩, -⟩
      rw [cellIn_zero (hok _), cellIn_zero (hok _)] at h5
      exact ⟨h1, h2, h3, h4, fun a b => h5 ⟨a, b⟩, h6, h7, h8, h9⟩
    · rintro ⟨h1, h2, h3, h4, h5, h6, h7, h8, h9⟩
      refine ⟨_, _, ⟨h1, rfl⟩, _, ⟨h2, rfl⟩, _, ⟨h3, rfl⟩, _, ⟨h4, rfl⟩, (), ?_, _, ⟨h6, rfl⟩, _, ⟨h7, rfl⟩, _, ⟨h8, rfl⟩, _, ⟨h9, rfl⟩, rfl⟩
      rw [cellIn_zero (hok _), cellIn_zero (hok _)]
      exact fun h => h5 h.1 h.2
  · exact .bind (.endpoint hf) fun _ _ => .bind (.endpoint ht) fun _ _ => .bind (.cell .pure) fun _ _ => .bind (.cell .pure) fun _ _ => .bind .guard fun _ _ =>
      .bind (.cell .pure) fun _ _ => .bind (.cell .pure) fun _ _ => .bind (.cell .pure) fun _ _ => .bind (.cell .pure) fun _ _ => .pure

/-! ### Devices -/

theorem common_intCast {row : DevRow K} {j i t : ℤ} (hj : row .devId = some (.fin (j : K))) (hi : row .busId = some (.fin (i : K)))
    (ht : row .devType = some (.fin (t : K))) (htt : t ∈ ([-1, 0, 1, 2, 3] : List ℤ)) {c : ℤ × ℤ × Bool} :
    deviceCommon row ids = .ok c ↔ i ∈ ids ∧ c = (j, i, decide (t = 0)) := by
  have h0 : X.feq (X.fin (t : K)) 0 ↔ t = 0 := by rw [X.zero_def, X.feq_fin]; exact_mod_cast Iff.rfl
  simp only [deviceCommon, hj, ht, readCell, bind_ok, guardE_ok, pure_ok, endpoint_intCast hi, inIds_intCast, h0]
  constructor
  · rintro ⟨_, ⟨_, -, rfl⟩, _, h1, _, ⟨h2, rfl⟩, _, ⟨_, -, rfl⟩, rfl⟩
    rw [id, toInt_intCast] at h1
    cases h1
    exact ⟨h2, rfl⟩
  · rintro ⟨h2, rfl⟩
    exact ⟨_, ⟨(), by simp, rfl⟩, _, toInt_intCast _, _, ⟨h2, rfl⟩, _, ⟨(), not_not.2 htt, rfl⟩, rfl⟩

theorem OnlyErr.common {row : DevRow K} {j i t : ℤ} (ht : row .devType = some (.fin (t : K))) (htt : t ∈ ([-1, 0, 1, 2, 3] : List ℤ)) (hj : row .devId = some (.fin (j : K))) (hi : row .busId = some (.fin (i : K))) {l : List PyErr}
    (hl : .deviceSpecError ∈ l := by simp) : OnlyErr (deviceCommon row ids) l := by
  unfold deviceCommon
  rw [hj, ht]
  refine .bind (.cell (.throw hl) hl) fun a ha => .bind ?_ fun _ _ => .bind (.endpoint hi hl) fun _ _ => .bind ?_ fun _ _ => .pure
  rotate_left
  · intro e he
    simp only [readCell, bind_error, guardE_error, inIds_intCast] at he
    rcases he with ⟨h, -⟩ | ⟨_, -, h⟩
    · exact absurd htt (not_not.1 h)
    · simp at h
  simp only [readCell, bind_ok, guardE_ok, pure_ok] at ha
  obtain ⟨_, -, rfl⟩ := ha
  rw [id, toInt_intCast]
  exact .pure

/-- **C120, generators.** A generator is accepted exactly if its row is coherent; otherwise `DeviceSpecError` or `GenSpecError` is raised. -/
theorem C120_generator {row : DevRow K} (hok : RowOk row) {base : K} (hb : 0 < base) {kind : DevKind} {j i t : ℤ} (hj : row .devId = some (.fin (j : K)))
    (hi : row .busId = some (.fin (i : K))) (ht : row .devType = some (.fin (t : K))) (htt : t = 0 ∨ t = 1 ∨ t = 2) :
    ((∃ d, mkGen kind row ids (.fin base) = .ok d) ↔ i ∈ ids ∧ CoherentGen row (t = 0)) ∧
      OnlyErr (mkGen kind row ids (.fin base)) [.deviceSpecError, .genSpecError] := by
  constructor
  · have hc := fun c => common_intCast (ids := ids) hj hi ht (by simp; omega) (c := c)
    have e0 : (.pinf : X K) = .pinf / .fin base := (X.pinf_div hb).symm
    have e1 : (.ninf : X K) = .ninf / .fin base := (X.ninf_div hb).symm
    have e2 : (if decide (t = 0) = true then (.ninf : X K) else 0) = (if t = 0 then .ninf else .fin 0) / .fin base := by
      by_cases h : t = 0
      · simp [h, X.ninf_div hb]
      · simp only [h, decide_false, Bool.false_eq_true, if_false]
        exact X.zero_div' hb
    have n1 : X.NotNan ((row .pmax).getD .pinf) := getD_notNan (hok _) trivial
    have n2 : X.NotNan ((row .pmin).getD (if t = 0 then .ninf else .fin 0)) := getD_notNan (hok _) (by split_ifs <;> trivial)
    have n3 : X.NotNan ((row .qmax).getD .pinf) := getD_notNan (hok _) trivial
    have n4 : X.NotNan ((row .qmin).getD .ninf) := getD_notNan (hok _) trivial
    have n5 := getD_notNan (hok .pPlus) n1
    have n6 := getD_notNan (hok .qPlus) n3
    have n7 := getD_notNan (hok .qMinus) n4
    have g0 : ∀ c : Cell K, CellOk c → (CellIn c (fun x => ¬ (x < 0 ∧ decide (t = 0) = false)) ↔ (t ≠ 0 → CellIn c (.fin 0 ≤ ·))) := by
      intro c hc
      rw [← cellIn_nonneg hc]
      by_cases h : t = 0 <;> simp [h, CellIn]
    have g1 : CoherentGen row (t = 0) ↔ (t ≠ 0 → .fin 0 ≤ (row .pmin).getD (if t = 0 then .ninf else .fin 0)) ∧
        (row .pmin).getD (if t = 0 then .ninf else .fin 0) ≤ (row .pPlus).getD ((row .pmax).getD .pinf) ∧
        (row .pPlus).getD ((row .pmax).getD .pinf) ≤ (row .pmax).getD .pinf ∧
        (row .qmin).getD .ninf ≤ (row .qMinus).getD ((row .qmin).getD .ninf) ∧
        (row .qMinus).getD ((row .qmin).getD .ninf) ≤ (row .qPlus).getD ((row .qmax).getD .pinf) ∧
        (row .qPlus).getD ((row .qmax).getD .pinf) ≤ (row .qmax).getD .pinf := by
      unfold CoherentGen
      constructor
      · rintro ⟨pmin, h, h'⟩
        have e : (row .pmin).getD (if t = 0 then .ninf else .fin 0) = pmin := by
          rcases h with h | ⟨h, ⟨h1, h2⟩ | ⟨h1, h2⟩⟩
          · simp [h]
          · simp [h, h1, h2]
          · simp [h, h1, h2]
        rw [e]
        exact h'
      · intro h
        refine ⟨(row .pmin).getD (if t = 0 then .ninf else .fin 0), ?_, h⟩
        cases row .pmin with
        | some x => exact .inl rfl
        | none =>
          right
          by_cases h : t = 0 <;> simp [h]
    simp only [mkGen, bind_ok, guardE_ok, pure_ok, readCell_pure, hc, g1]
    constructor
    · rintro ⟨d, _, ⟨hin, rfl⟩, _, ⟨a1, rfl⟩, _, ⟨a2, rfl⟩, _, a3, _, a4, _, a5, _, a6, _, a7, _, a8, _, a9, -⟩
      simp only [g0 _ (hok _)] at a1 a2
      simp only [map_div _ e0, map_div _ e2, toPu_div _ e0, toPu_div _ e1, toPu_div _ rfl, X.div_lt_div_iff hb] at a3 a4 a5 a6 a7 a8 a9
      rw [X.not_lt_iff] at a5 a6 a7 a8 a9 <;> try assumption
      refine ⟨hin, fun h => getD_cellIn (P := (.fin 0 ≤ ·)) (a2 h) (by simp [h]), a5, a6, a8, a9, a7⟩
    · rintro ⟨hin, h1, h2, h3, h4, h5, h6⟩
      refine ⟨_, _, ⟨hin, rfl⟩, _, ⟨?_, rfl⟩, _, ⟨?_, rfl⟩, (), ?_, (), ?_, (), ?_, (), ?_, (), ?_, (), ?_, (), ?_, rfl⟩ <;>
        simp only [g0 _ (hok _), map_div _ e0, map_div _ e2, toPu_div _ e0, toPu_div _ e1, toPu_div _ rfl, X.div_lt_div_iff hb]
      · exact fun h => cellIn_getD (X.le_trans' (h1 h) (X.le_trans' h2 h3))
      · exact fun h => cellIn_getD (h1 h)
      · rw [X.not_lt_iff n1 n2]; exact X.le_trans' h2 h3
      · rw [X.not_lt_iff n3 n4]; exact X.le_trans' h4 (X.le_trans' h5 h6)
      · rw [X.not_lt_iff n5 n2]; exact h2
      · rw [X.not_lt_iff n1 n5]; exact h3
      · rw [X.not_lt_iff n3 n6]; exact h6
      · rw [X.not_lt_iff n7 n4]; exact h4
      · rw [X.not_lt_iff n6 n7]; exact h5
  · exact .bind (.common ht (by simp; omega) hj hi) fun _ _ => .bind (.cell .pure) fun _ _ => .bind (.cell .pure) fun _ _ => .bind .guard fun _ _ => .bind .guard fun _ _ =>
      .bind .guard fun _ _ => .bind .guard fun _ _ => .bind .guard fun _ _ => .bind .guard fun _ _ => .bind .guard fun _ _ => .pure

theorem cellIn_nonpos {c : Cell K} (hc : CellOk c) : CellIn c (fun x => ¬ X.fin 0 < x) ↔ CellIn c (· ≤ .fin 0) := by
  unfold CellIn
  refine forall_congr' fun x => forall_congr' fun h => X.not_lt_iff (X.notNan_fin _) (cell_notNan (h ▸ hc))

/-- **C120, storage units.** A storage unit is accepted exactly if its row is coherent; otherwise `DeviceSpecError` or `StorageSpecError` is
raised. -/
theorem C120_storage {row : DevRow K} (hok : RowOk row) {base : K} (hb : 0 < base) {j i : ℤ} (hj : row .devId = some (.fin (j : K)))
    (hi : row .busId = some (.fin (i : K))) (ht : row .devType = some (.fin 3)) :
    ((∃ d, mkStorage row ids (.fin base) = .ok d) ↔ i ∈ ids ∧ CoherentStorage row) ∧
      OnlyErr (mkStorage row ids (.fin base)) [.deviceSpecError, .storageSpecError] := by
  refine ⟨?_, .bind (.common (t := 3) (by exact_mod_cast ht) (by simp) hj hi) fun _ _ => .bind (.cell .pure) fun _ _ => .bind (.cell .pure) fun _ _ => .bind .guard fun _ _ => .bind .guard fun _ _ =>
      .bind .guard fun _ _ => .bind .guard fun _ _ => .bind .guard fun _ _ => .bind .guard fun _ _ => .bind .guard fun _ _ => .bind .guard fun _ _ =>
      .bind .guard fun _ _ => .bind .guard fun _ _ => .bind (.cell .pure) fun _ _ => .bind (.cell .throw) fun _ _ => .bind .guard fun _ _ =>
      .bind (.cell .pure) fun _ _ => .pure⟩
  have hc := fun c => common_intCast (ids := ids) (t := 3) hj hi (by exact_mod_cast ht) (by simp) (c := c)
  have e0 : (.pinf : X K) = .pinf / .fin base := (X.pinf_div hb).symm
  have e1 : (.ninf : X K) = .ninf / .fin base := (X.ninf_div hb).symm
  have e2 := X.zero_div' hb
  have n1 : X.NotNan ((row .pmax).getD .pinf) := getD_notNan (hok _) trivial
  have n2 : X.NotNan ((row .pmin).getD .ninf) := getD_notNan (hok _) trivial
  have n3 : X.NotNan ((row .qmax).getD .pinf) := getD_notNan (hok _) trivial
  have n4 : X.NotNan ((row .qmin).getD .ninf) := getD_notNan (hok _) trivial
  have n5 := getD_notNan (hok .pPlus) n1
  have n6 := getD_notNan (hok .qPlus) n3
  have n7 := getD_notNan (hok .qMinus) n4
  have n8 := getD_notNan (hok .pMinus) n2
  have n9 : X.NotNan ((row .socMin).getD (.fin 0)) := getD_notNan (hok _) trivial
  have e3 : CellIn (row .eff) (fun x => ¬ (x < 0 ∨ .fin 1 < x)) ↔ CellIn (row .eff) fun x => .fin 0 ≤ x ∧ x ≤ .fin 1 := by
    unfold CellIn
    refine forall_congr' fun x => forall_congr' fun h => ?_
    have n : X.NotNan x := cell_notNan (h ▸ hok _)
    refine not_or.trans ?_
    exact and_congr (X.not_lt_iff n (X.notNan_fin _)) (X.not_lt_iff (X.notNan_fin _) n)
  simp only [mkStorage, bind_ok, guardE_ok, pure_ok, readCell_pure, readCell_need, hc, CoherentStorage, e3]
  constructor
  · rintro ⟨d, _, ⟨hin, rfl⟩, _, ⟨a1, rfl⟩, _, ⟨a2, rfl⟩, _, a3, _, a4, _, a5, _, a6, _, a7, _, a8, _, a9, _, b1, _, b2, _, b3, _, ⟨b4, rfl⟩,
      _, ⟨sm, b5, b6, rfl⟩, _, b7, _, ⟨b8, -⟩, -⟩
    have n10 : X.NotNan sm := cell_notNan (b5 ▸ hok _)
    simp only [map_div _ e0, map_div _ e1, map_div _ e2, toPu_div _ e0, toPu_div _ e1,
      toPu_div _ rfl, X.div_lt_div_iff hb] at a3 a4 a5 a6 a7 a8 a9 b1 b2 b3 b7
    rw [X.not_lt_iff] at a5 a6 a7 a8 a9 b1 b2 b3 b7 <;> try assumption
    rw [cellIn_nonneg (hok _)] at a1 b4
    rw [cellIn_nonpos (hok _)] at a2
    have hy : X.fin 0 ≤ X.fin (1 : K) ∧ X.fin (1 : K) ≤ X.fin 1 := ⟨by simp, by simp⟩
    have he := getD_cellIn (P := fun x => .fin 0 ≤ x ∧ x ≤ .fin 1) b8 hy
    exact ⟨hin, getD_cellIn (P := (· ≤ .fin 0)) a2 trivial, getD_cellIn (P := (.fin 0 ≤ ·)) a1 trivial, a7, a9, a6, b2, b3, b1,
      getD_cellIn (P := (.fin 0 ≤ ·)) b4 (by simp), ⟨sm, b5, b7⟩, he.1, he.2⟩
  · rintro ⟨hin, h1, h2, h3, h4, h5, h6, h7, h8, h9, ⟨sm, g1, g2⟩, g3, g4⟩
    have n10 : X.NotNan sm := cell_notNan (g1 ▸ hok _)
    refine ⟨_, _, ⟨hin, rfl⟩, _, ⟨?_, rfl⟩, _, ⟨?_, rfl⟩, (), ?_, (), ?_, (), ?_, (), ?_, (), ?_, (), ?_, (), ?_, (), ?_, (), ?_, (), ?_,
      _, ⟨?_, rfl⟩, _, ⟨sm, g1, ?_, rfl⟩, (), ?_, _, ⟨cellIn_getD (y := .fin 1) ⟨g3, g4⟩, rfl⟩, rfl⟩ <;>
      try simp only [map_div _ e0, map_div _ e1, map_div _ e2, toPu_div _ e0, toPu_div _ e1, toPu_div _ rfl, X.div_lt_div_iff hb]
    · rw [cellIn_nonneg (hok _)]; exact cellIn_getD h2
    · rw [cellIn_nonpos (hok _)]; exact cellIn_getD h1
    · rw [X.not_lt_iff n1 n2]; exact X.le_trans' h1 h2
    · rw [X.not_lt_iff n3 n4]; exact X.le_trans' h6 (X.le_trans' h7 h8)
    · rw [X.not_lt_iff n5 n2]; exact X.le_trans' h3 h4
    · rw [X.not_lt_iff n1 n5]; exact h5
    · rw [X.not_lt_iff n8 n2]; exact h3
    · rw [X.not_lt_iff n1 n8]; exact X.le_trans' h4 h5
    · rw [X.not_lt_iff n5 n8]; exact h4
    · rw [X.not_lt_iff n3 n6]; exact h8
    · rw [X.not_lt_iff n7 n4]; exact h6
    · rw [X.not_lt_iff n6 n7]; exact h7
    · rw [cellIn_nonneg (hok _)]; exact cellIn_getD h9
    · exact (X.not_lt_iff n10 (X.notNan_fin _)).2 (X.le_trans' h9 g2)
    · rw [X.not_lt_iff n10 n9]; exact g2

/-- **C120, loads (partial).** A load whose maximum is zero or not given is accepted exactly if its row is coherent. Missing: maxima below zero,
see `C120_counterexample_load`. -/
theorem C120_load_partial {row : DevRow K} (hok : RowOk row) {base : K} (hb : 0 < base) {j i : ℤ} (hj : row .devId = some (.fin (j : K)))
    (hi : row .busId = some (.fin (i : K))) (ht : row .devType = some (.fin (-1))) (hmax : CellIn (row .pmax) (· = .fin 0)) :
    (∃ d, mkLoad row ids (.fin base) = .ok d) ↔ i ∈ ids ∧ CoherentLoad row := by
  have hc := fun c => common_intCast (ids := ids) (t := -1) hj hi (by rw [ht]; simp) (by simp) (c := c)
  have e1 : (.ninf : X K) = .ninf / .fin base := (X.ninf_div hb).symm
  have n2 : X.NotNan ((row .pmin).getD .ninf) := getD_notNan (hok _) trivial
  have m0 : ((row .pmax).map _root_.id).getD 0 = .fin 0 := by
    cases h : row .pmax with
    | none => rfl
    | some x => exact hmax x h
  have m1 : (row .pmax).getD (.fin 0) = .fin 0 := getD_cellIn (P := (· = .fin 0)) hmax rfl
  have e2 : X.fin (0 : K) = .fin 0 / .fin base := X.zero_div' hb
  have hty : cellEq (row .devType) (some (.fin (-1))) := by rw [ht]; simp [cellEq]
  simp only [mkLoad, bind_ok, guardE_ok, pure_ok, readCell_pure, readCell_need, hc, CoherentLoad, m1]
  constructor
  · rintro ⟨d, _, ⟨hin, rfl⟩, _, -, _, ⟨r, h1, -, -⟩, _, ⟨h2, rfl⟩, _, h3, -⟩
    rw [m0, toPu_div _ e1, e2, X.div_lt_div_iff hb, X.not_lt_iff (X.notNan_fin _) n2] at h3
    exact ⟨hin, ⟨r, h1⟩, h3, by simp⟩
  · rintro ⟨hin, ⟨r, h1⟩, h3, -⟩
    refine ⟨_, _, ⟨hin, rfl⟩, (), hty, _, ⟨r, h1, by simp, rfl⟩, _, ⟨?_, rfl⟩, (), ?_, rfl⟩
    · intro x hx
      rw [hmax x hx]
      simp
    · rw [m0, toPu_div _ e1, e2, X.div_lt_div_iff hb, X.not_lt_iff (X.notNan_fin _) n2]
      exact h3

/-! ### Files -/

namespace Spec

/-- A network file without NaN cells whose IDs and types are integers. -/
structure IntFile (n : Network K) (base : K) : Prop extends CleanFile n base where
  busInt : ∀ r ∈ n.bus, ∃ i t : ℤ, r .busId = some (.fin (i : K)) ∧ r .busType = some (.fin (t : K))
  lineInt : ∀ r ∈ n.branch, ∃ f t : ℤ, r .fBus = some (.fin (f : K)) ∧ r .tBus = some (.fin (t : K))
  devInt : ∀ r ∈ n.device, ∃ j i t : ℤ, r .devId = some (.fin (j : K)) ∧ r .busId = some (.fin (i : K)) ∧ r .devType = some (.fin (t : K))

/-- A coherent row for a device of type `t`. -/
def CoherentDevice (row : DevRow K) (t : ℤ) : Prop :=
  t = -1 ∧ CoherentLoad row ∨ (t = 0 ∨ t = 1 ∨ t = 2) ∧ CoherentGen row (t = 0) ∨ t = 3 ∧ CoherentStorage row

/-- Some bus of the file has the number `i`. -/
def HasBus (n : Network K) (i : ℤ) : Prop := ∃ r ∈ n.bus, r .busId = some (.fin (i : K))

/-- A coherent file: the eight rules on the topology, coherent rows, devices at existing buses, and bus numbers that are not negative (or a few negative
ones that python reads as positions from the end). -/
structure Coherent (n : Network K) : Prop where
  topology : WellFormed n
  bus : ∀ r ∈ n.bus, ∀ t : ℤ, r .busType = some (.fin (t : K)) → CoherentBus r t
  line : ∀ r ∈ n.branch, CoherentLine r
  device : ∀ r ∈ n.device, ∀ t : ℤ, r .devType = some (.fin (t : K)) → CoherentDevice r t
  place : ∀ r ∈ n.device, ∃ b ∈ n.bus, b .busId = r .busId
  top : ∃ i : ℤ, -1 ≤ i ∧ HasBus n i
  low : ∀ r ∈ n.branch, ∀ e : ℤ, r .fBus = some (.fin (e : K)) ∨ r .tBus = some (.fin (e : K)) → ∃ i : ℤ, -(i + 1) ≤ e ∧ HasBus n i

end Spec

theorem le_foldl_max {l : List ℤ} {a b : ℤ} : b ≤ l.foldl max a ↔ b ≤ a ∨ ∃ x ∈ l, b ≤ x := by
  induction l generalizing a with
  | nil => simp
  | cons x l ih =>
    rw [List.foldl_cons, ih, le_max_iff]
    simp only [List.mem_cons, exists_eq_or_imp]
    tauto

theorem top_le {l : List ℤ} (h : l ≠ []) {b : ℤ} : b ≤ l.foldl max (l.headD 0) ↔ ∃ x ∈ l, b ≤ x := by
  rw [le_foldl_max]
  obtain ⟨x, l, rfl⟩ := List.exists_cons_of_ne_nil h
  simp

theorem intFile_cast {i j : ℤ} : (some (X.fin (i : K)) : Cell K) = some (.fin (j : K)) ↔ i = j := by
  simp

theorem mkDevice_intCast {row : DevRow K} {base : X K} {t : ℤ} (ht : row .devType = some (.fin (t : K))) :
    mkDevice row ids base = if t = -1 then mkLoad row ids base else if t = 0 ∨ t = 1 then mkGen .classical row ids base
      else if t = 2 then mkGen .renewable row ids base else if t = 3 then mkStorage row ids base else throw .notImplemented := by
  unfold mkDevice
  rw [ht]
  simp only [cellInt, toInt_intCast]
  rfl

/-- A device is accepted exactly if its row is coherent and its bus exists, apart from loads with a maximum below zero. -/
theorem device_accepted {row : DevRow K} (hok : RowOk row) {base : K} (hb : 0 < base) {j i t : ℤ} (hj : row .devId = some (.fin (j : K)))
    (hi : row .busId = some (.fin (i : K))) (ht : row .devType = some (.fin (t : K))) (hmax : t = -1 → CellIn (row .pmax) (· = .fin 0)) :
    (∃ d, mkDevice row ids (.fin base) = .ok d) ↔ i ∈ ids ∧ CoherentDevice row t := by
  rw [mkDevice_intCast ht]
  unfold CoherentDevice
  by_cases h1 : t = -1
  · rw [if_pos h1]
    subst h1
    rw [C120_load_partial hok hb hj hi (by rw [ht]; simp) (hmax rfl)]
    simp
  rw [if_neg h1]
  by_cases h2 : t = 0 ∨ t = 1
  · rw [if_pos h2, (C120_generator hok hb hj hi ht (by omega)).1]
    have : t = 0 ∨ t = 1 ∨ t = 2 := by omega
    have h3 : t ≠ 3 := by omega
    simp [h1, this, h3]
  rw [if_neg h2]
  by_cases h3 : t = 2
  · rw [if_pos h3, (C120_generator hok hb hj hi ht (by omega)).1]
    simp [h3]
  rw [if_neg h3]
  by_cases h4 : t = 3
  · rw [if_pos h4, (C120_storage hok hb hj hi (by rw [ht, h4]; simp)).1]
    simp [h4]
  rw [if_neg h4]
  constructor
  · rintro ⟨d, hd⟩
    cases hd
  · rintro ⟨-, ⟨h, -⟩ | ⟨h, -⟩ | ⟨h, -⟩⟩ <;> omega

/-- **C121 (partial).** The simulator accepts a network file exactly if it is coherent, whatever the time step and the weight of the penalty. Missing:
loads with a maximum below zero, see `C120_counterexample_load`. -/
theorem C121_accepted_partial {n : Network K} {base : K} (hn : IntFile n base) (dt lam : X K)
    (hmax : ∀ r ∈ n.device, r .devType = some (.fin (-1)) → CellIn (r .pmax) (· = .fin 0)) :
    (∃ s, mkSim n dt lam = .ok s) ↔ Coherent n := by
  have ht : NoNanTopology n := by
    refine ⟨by rw [hn.base]; simp, fun r hr => ⟨hn.bus r hr _, hn.bus r hr _⟩, fun r hr => ⟨hn.device r hr _, hn.device r hr _, hn.device r hr _⟩,
      fun r hr => ⟨hn.branch r hr _, hn.branch r hr _⟩⟩
  have key : ∀ {bl : List (Bus K)}, mapE mkBus n.bus = .ok bl → ∀ i, i ∈ ((sortDict (dictOf Bus.id bl)).map (·.2)).map Bus.id ↔ HasBus n i := by
    intro bl hbl i
    have e : ((sortDict (dictOf Bus.id bl)).map (·.2)).map Bus.id = (sortDict (dictOf Bus.id bl)).map (·.1) := by
      rw [List.map_map]
      refine List.map_congr_left fun e he => ?_
      exact (dictOf_mem _ _ ((sortDict_perm _).mem_iff.1 he)).1.symm
    rw [e, ((sortDict_perm _).map _).mem_iff, dictOf_keys, List.mem_map]
    constructor
    · rintro ⟨b, hb, rfl⟩
      obtain ⟨r, hr, h⟩ := mapE_mem hbl hb
      obtain ⟨i, t, h1, -⟩ := hn.busInt r hr
      have h2 := (mkBus_ok h).id
      rw [h1] at h2
      simp only [cellInt, toInt_intCast] at h2
      cases h2
      exact ⟨r, hr, h1⟩
    · rintro ⟨r, hr, h1⟩
      obtain ⟨b, hb, h⟩ := mapE_mem' hbl hr
      have h2 := (mkBus_ok h).id
      rw [h1] at h2
      simp only [cellInt, toInt_intCast] at h2
      injection h2 with h2
      exact ⟨b, hb, h2.symm⟩
  have hload : ∀ r ∈ n.device, ∀ t : ℤ, r .devType = some (.fin (t : K)) → t = -1 → CellIn (r .pmax) (· = .fin 0) := by
    rintro r hr t h rfl
    exact hmax r hr (by rw [h]; simp)
  constructor
  · rintro ⟨s, hs⟩
    obtain ⟨⟨h1, h2⟩, buses, branches, devices, bl, brl, dl, I, rfl⟩ := mkSim_ok.1 hs
    have W := (C01_checkNetwork_iff ht).1 h1
    have hb : 0 < base := by simpa [BasePos, hn.base] using W.basePos
    have ids := key I.hbl
    rw [← I.hbuses] at ids
    have hdl := I.hdl
    have hbrl := I.hbrl
    rw [hn.base] at hdl hbrl
    have e0 : ((buses.map (busBounds devices)).map Bus.id) = buses.map Bus.id := by
      rw [List.map_map]; rfl
    simp only [e0, ybusCheck, bind_ok, guardE_ok] at h2
    obtain ⟨_, h2, h3⟩ := h2
    have hne : buses.map Bus.id ≠ [] := by
      obtain ⟨k, r, hk, -⟩ := W.oneSlackBus
      have hr := List.mem_of_getElem? hk
      obtain ⟨i, t, h, -⟩ := hn.busInt r hr
      intro h0
      have := (ids i).2 ⟨r, hr, h⟩
      rw [h0] at this
      simp at this
    have lines : ∀ r ∈ n.branch, ∀ f t : ℤ, r .fBus = some (.fin (f : K)) → r .tBus = some (.fin (t : K)) → CoherentLine r ∧
        ∃ b ∈ branches, b.line.fBus = f ∧ b.line.tBus = t := by
      intro r hr f t hf ht'
      obtain ⟨l, hl, h⟩ := mapE_mem' hbrl hr
      refine ⟨((C120_line (hn.branch r hr) hf ht').1.1 ⟨l, h⟩).2.2, ?_⟩
      have L := mkLine_ok h
      have e1 : l.fBus = f := by
        obtain ⟨x, q1, -, q2⟩ := L.f
        rw [hf] at q1
        cases q1
        rw [toInt_intCast] at q2
        injection q2 with q2
        exact q2.symm
      have e2 : l.tBus = t := by
        obtain ⟨x, q1, -, q2⟩ := L.t
        rw [ht'] at q1
        cases q1
        rw [toInt_intCast] at q2
        injection q2 with q2
        exact q2.symm
      have hm : (f, t) ∈ (dictOf (fun l : Line K => (l.fBus, l.tBus)) brl).map (·.1) := by
        rw [dictOf_keys]
        exact List.mem_map.2 ⟨l, hl, by rw [e1, e2]⟩
      obtain ⟨e, he, h'⟩ := List.mem_map.1 hm
      have := (dictOf_mem _ _ he).1
      rw [h'] at this
      refine ⟨{ line := e.2 }, ?_, ?_⟩
      · rw [I.hbranches]
        exact List.mem_map_of_mem (List.mem_map_of_mem he)
      · simp only [Prod.mk.injEq] at this
        exact ⟨this.1.symm, this.2.symm⟩
    refine ⟨W, fun r hr t h => ?_, fun r hr => ?_, fun r hr t h => ?_, fun r hr => ?_, ?_, fun r hr e h => ?_⟩
    · obtain ⟨b, -, h'⟩ := mapE_mem' I.hbl hr
      obtain ⟨i, _, h1, -⟩ := hn.busInt r hr
      exact (C120_bus (hn.bus r hr) h1 h).1.1 ⟨b, h'⟩
    · obtain ⟨f, t, hf, ht'⟩ := hn.lineInt r hr
      exact (lines r hr f t hf ht').1
    · obtain ⟨d, -, h'⟩ := mapE_mem' hdl hr
      obtain ⟨j, i, _, q1, q2, -⟩ := hn.devInt r hr
      exact ((device_accepted (hn.device r hr) hb q1 q2 h (hload r hr t h)).1 ⟨d, h'⟩).2
    · obtain ⟨d, -, h'⟩ := mapE_mem' hdl hr
      obtain ⟨j, i, t, q1, q2, q3⟩ := hn.devInt r hr
      obtain ⟨r', hr', h4⟩ := (ids i).1 ((device_accepted (hn.device r hr) hb q1 q2 q3 (hload r hr t q3)).1 ⟨d, h'⟩).1
      exact ⟨r', hr', h4.trans q2.symm⟩
    · obtain ⟨i, hi, h4⟩ := (top_le hne (b := -1)).1 (by omega)
      exact ⟨i, h4, (ids i).1 hi⟩
    · obtain ⟨f, t, hf, ht'⟩ := hn.lineInt r hr
      obtain ⟨-, b, hb', rfl, rfl⟩ := lines r hr f t hf ht'
      have h5 := h3 (b.line.fBus, b.line.tBus) (List.mem_map.2 ⟨b, hb', rfl⟩)
      have : -((buses.map Bus.id).foldl max ((buses.map Bus.id).headD 0) + 1) ≤ e := by
        rcases h with h | h
        · rw [hf, intFile_cast] at h
          rw [← h]; exact h5.1.1
        · rw [ht', intFile_cast] at h
          rw [← h]; exact h5.2.1
      obtain ⟨i, hi, h6⟩ := (top_le hne).1 (le_refl ((buses.map Bus.id).foldl max ((buses.map Bus.id).headD 0)))
      exact ⟨i, by omega, (ids i).1 hi⟩
  · intro C
    have W := C.topology
    have hb : 0 < base := by simpa [BasePos, hn.base] using W.basePos
    obtain ⟨bl, hbl⟩ := mapE_total (f := mkBus) (l := n.bus) fun r hr => by
      obtain ⟨i, t, h1, h2⟩ := hn.busInt r hr
      exact (C120_bus (hn.bus r hr) h1 h2).1.2 (C.bus r hr t h2)
    have ids := key hbl
    obtain ⟨brl, hbrl⟩ := mapE_total (f := fun r => mkLine r (.fin base) (((sortDict (dictOf Bus.id bl)).map (·.2)).map Bus.id)) (l := n.branch) fun r hr => by
      obtain ⟨f, t, hf, ht'⟩ := hn.lineInt r hr
      obtain ⟨⟨r1, hr1, h1⟩, r2, hr2, h2⟩ := W.endpoints r hr
      exact (C120_line (hn.branch r hr) hf ht').1.2 ⟨(ids f).2 ⟨r1, hr1, h1.trans hf⟩, (ids t).2 ⟨r2, hr2, h2.trans ht'⟩, C.line r hr⟩
    obtain ⟨dl, hdl⟩ := mapE_total (f := fun r => mkDevice r (((sortDict (dictOf Bus.id bl)).map (·.2)).map Bus.id) (.fin base)) (l := n.device) fun r hr => by
      obtain ⟨j, i, t, q1, q2, q3⟩ := hn.devInt r hr
      obtain ⟨r', hr', h4⟩ := C.place r hr
      exact (device_accepted (hn.device r hr) hb q1 q2 q3 (hload r hr t q3)).2 ⟨(ids i).2 ⟨r', hr', h4.trans q2⟩, C.device r hr t q3⟩
    refine ⟨_, mkSim_ok.2 ⟨⟨(C01_checkNetwork_iff ht).2 W, ?_⟩, _, _, _, bl, brl, dl, ⟨hbl, by rw [hn.base]; exact hbrl, by rw [hn.base]; exact hdl, rfl, rfl, rfl⟩, rfl⟩⟩
    have e0 : ∀ (devices : List (Device K)) (buses : List (Bus K)), ((buses.map (busBounds devices)).map Bus.id) = buses.map Bus.id := by
      intro devices buses
      rw [List.map_map]; rfl
    have hne : ((sortDict (dictOf Bus.id bl)).map (·.2)).map Bus.id ≠ [] := by
      obtain ⟨i, -, h⟩ := C.top
      exact List.ne_nil_of_mem ((ids i).2 h)
    simp only [e0, ybusCheck, bind_ok, guardE_ok]
    refine ⟨(), ?_, fun e he => ?_⟩
    · obtain ⟨i, h, h'⟩ := C.top
      have := (top_le hne).2 ⟨i, (ids i).2 h', h⟩
      omega
    · obtain ⟨b, hb', rfl⟩ := List.mem_map.1 he
      obtain ⟨l, hl, rfl⟩ := List.mem_map.1 hb'
      obtain ⟨p, hp, rfl⟩ := List.mem_map.1 hl
      obtain ⟨r, hr, h⟩ := mapE_mem hbrl (dictOf_mem _ _ hp).2
      have L := mkLine_ok h
      obtain ⟨f, t, hf, ht'⟩ := hn.lineInt r hr
      have e1 : p.2.fBus = f := by
        obtain ⟨x, q1, -, q2⟩ := L.f
        rw [hf] at q1
        cases q1
        rw [toInt_intCast] at q2
        injection q2 with q2
        exact q2.symm
      have e2 : p.2.tBus = t := by
        obtain ⟨x, q1, -, q2⟩ := L.t
        rw [ht'] at q1
        cases q1
        rw [toInt_intCast] at q2
        injection q2 with q2
        exact q2.symm
      have low : ∀ e : ℤ, r .fBus = some (.fin (e : K)) ∨ r .tBus = some (.fin (e : K)) →
          -((((sortDict (dictOf Bus.id bl)).map (·.2)).map Bus.id).foldl max ((((sortDict (dictOf Bus.id bl)).map (·.2)).map Bus.id).headD 0) + 1) ≤ e ∧
          e < (((sortDict (dictOf Bus.id bl)).map (·.2)).map Bus.id).foldl max ((((sortDict (dictOf Bus.id bl)).map (·.2)).map Bus.id).headD 0) + 1 := by
        intro e h
        obtain ⟨i, h1, h2⟩ := C.low r hr e h
        have h3 := (top_le hne).2 ⟨i, (ids i).2 h2, le_refl i⟩
        have h4 : HasBus n e := by
          obtain ⟨⟨r1, hr1, q1⟩, r2, hr2, q2⟩ := W.endpoints r hr
          rcases h with h | h
          · exact ⟨r1, hr1, q1.trans h⟩
          · exact ⟨r2, hr2, q2.trans h⟩
        have h5 := (top_le hne).2 ⟨e, (ids e).2 h4, le_refl e⟩
        omega
      dsimp only
      rw [e1, e2]
      exact ⟨low f (.inl hf), low t (.inr ht')⟩

/-- **C121.** Bus numbers that are not negative can index the admittance matrix. -/
theorem C121_numbers {n : Network K} {base : K} (hn : IntFile n base) (W : WellFormed n)
    (h : ∀ r ∈ n.bus, ∀ i : ℤ, r .busId = some (.fin (i : K)) → 0 ≤ i) :
    (∃ i : ℤ, -1 ≤ i ∧ HasBus n i) ∧
      ∀ r ∈ n.branch, ∀ e : ℤ, r .fBus = some (.fin (e : K)) ∨ r .tBus = some (.fin (e : K)) → ∃ i : ℤ, -(i + 1) ≤ e ∧ HasBus n i := by
  constructor
  · obtain ⟨k, r, hk, -⟩ := W.oneSlackBus
    have hr := List.mem_of_getElem? hk
    obtain ⟨i, t, h1, -⟩ := hn.busInt r hr
    exact ⟨i, by have := h r hr i h1; omega, r, hr, h1⟩
  · intro r hr e he
    obtain ⟨⟨r1, hr1, q1⟩, r2, hr2, q2⟩ := W.endpoints r hr
    rcases he with he | he
    · exact ⟨e, by have := h r1 hr1 e (q1.trans he); omega, r1, hr1, q1.trans he⟩
    · exact ⟨e, by have := h r2 hr2 e (q2.trans he); omega, r2, hr2, q2.trans he⟩

end

/-! ### Cases that meet the hypotheses -/

/-- A load that consumes between 1 and 10 MW. -/
def shedRow : DevRow ℚ
  | .devId => some (.fin 1)
  | .busId => some (.fin 1)
  | .devType => some (.fin (-1))
  | .qp => some (.fin (1/5))
  | .pmax => some (.fin (-1))
  | .pmin => some (.fin (-10))
  | _ => none

/-- **C120, counterexample.** A load that consumes between 1 and 10 MW is coherent, but it is rejected: the maximum in MW is compared with the minimum in
per-unit. -/
theorem C120_counterexample_load : RowOk shedRow ∧ CoherentLoad shedRow ∧ mkLoad shedRow [0, 1] (.fin 100) = .error .loadSpecError := by
  refine ⟨fun c => by cases c <;> simp [shedRow, CellOk], ⟨⟨_, rfl⟩, ?_, ?_⟩, by decide +kernel⟩ <;> norm_num [shedRow]

example : RowOk genRow ∧ CoherentGen genRow (2 = 0) := by
  refine ⟨rowOk_rowOf _ _ (by decide +kernel), .fin 0, .inl rfl, ?_⟩
  decide +kernel

example : RowOk desRow ∧ CoherentStorage desRow := by
  refine ⟨rowOk_rowOf _ _ (by decide +kernel), ?_⟩
  refine ⟨?_, ?_, ?_, ?_, ?_, ?_, ?_, ?_, ?_, ⟨.fin 100, rfl, ?_⟩, ?_, ?_⟩ <;> decide +kernel

example : RowOk brRow ∧ CoherentLine brRow := by
  refine ⟨rowOk_rowOf _ _ (by decide +kernel), ?_⟩
  refine ⟨?_, ?_, fun h => absurd (h (.fin (1/100)) rfl) (by decide +kernel), ?_, ?_, ?_, ?_⟩ <;>
    (intro x hx; have := Option.some.inj hx; subst this; decide +kernel)

/-- The network of three buses is a file with integer IDs whose load has a maximum of zero; it is accepted, hence coherent. -/
theorem demoNet_coherent : IntFile demoNet 100 ∧ (∀ r ∈ demoNet.device, r .devType = some (.fin (-1)) → CellIn (r .pmax) (· = .fin 0)) ∧
    Coherent demoNet := by
  have h1 : IntFile demoNet 100 := by
    refine ⟨⟨rfl, ?_, ?_, ?_⟩, ?_, ?_, ?_⟩
    · simp only [demoNet, Network.ofLists, List.mem_map]
      rintro r ⟨l, hl, rfl⟩
      exact rowOk_rowOf _ _ (by revert hl l; decide +kernel)
    · simp only [demoNet, Network.ofLists, List.mem_map]
      rintro r ⟨l, hl, rfl⟩
      exact rowOk_rowOf _ _ (by revert hl l; decide +kernel)
    · simp only [demoNet, Network.ofLists, List.mem_map]
      rintro r ⟨l, hl, rfl⟩
      exact rowOk_rowOf _ _ (by revert hl l; decide +kernel)
    · intro r hr
      simp only [demoNet, Network.ofLists, List.map_cons, List.map_nil, List.mem_cons, List.not_mem_nil, or_false] at hr
      rcases hr with rfl | rfl | rfl
      · exact ⟨0, 0, by decide +kernel⟩
      · exact ⟨1, 1, by decide +kernel⟩
      · exact ⟨2, 1, by decide +kernel⟩
    · intro r hr
      simp only [demoNet, Network.ofLists, List.map_cons, List.map_nil, List.mem_cons, List.not_mem_nil, or_false] at hr
      rcases hr with rfl | rfl
      · exact ⟨0, 1, by decide +kernel⟩
      · exact ⟨1, 2, by decide +kernel⟩
    · intro r hr
      simp only [demoNet, Network.ofLists, List.map_cons, List.map_nil, List.mem_cons, List.not_mem_nil, or_false] at hr
      rcases hr with rfl | rfl | rfl | rfl
      · exact ⟨0, 0, 0, by decide +kernel⟩
      · exact ⟨1, 1, -1, by decide +kernel⟩
      · exact ⟨2, 1, 2, by decide +kernel⟩
      · exact ⟨3, 2, 3, by decide +kernel⟩
  have h2 : ∀ r ∈ demoNet.device, r .devType = some (.fin (-1)) → CellIn (r .pmax) (· = .fin 0) := by
    intro r hr
    simp only [demoNet, Network.ofLists, List.map_cons, List.map_nil, List.mem_cons, List.not_mem_nil, or_false] at hr
    rcases hr with rfl | rfl | rfl | rfl
    · exact fun h => absurd h (by decide +kernel)
    · exact fun _ x hx => by have := Option.some.inj hx; subst this; rfl
    · exact fun h => absurd h (by decide +kernel)
    · exact fun h => absurd h (by decide +kernel)
  refine ⟨h1, h2, ?_⟩
  obtain ⟨s, h, -⟩ := exOk (r := mkSim demoNet (.fin (1/4)) (.fin 100)) (P := fun _ => True) (by decide +kernel)
  exact (C121_accepted_partial h1 (.fin (1/4)) (.fin 100) h2).1 ⟨s, h⟩

/-- The network of three buses with a load that consumes between 1 and 10 MW. -/
def shedNet : Network ℚ := { demoNet with device := demoNet.device.map fun r => if r .devType = some (.fin (-1)) then shedRow else r }

/-- **C121, counterexample.** The network of three buses with a load that consumes between 1 and 10 MW is coherent, but it is rejected. -/
theorem C121_counterexample : Coherent shedNet ∧ ¬ ∃ s, mkSim shedNet (.fin (1/4)) (.fin 100) = .ok s := by
  obtain ⟨I, -, C⟩ := demoNet_coherent
  have hdev : ∀ r ∈ shedNet.device, r = shedRow ∨ r ∈ demoNet.device ∧ r .devType ≠ some (.fin (-1)) := by
    intro r hr
    obtain ⟨r', hr', rfl⟩ := List.mem_map.1 hr
    split_ifs with h
    · exact .inl rfl
    · exact .inr ⟨hr', h⟩
  have hshed : RowOk shedRow := C120_counterexample_load.1
  have ht : NoNanTopology shedNet := by
    refine ⟨by simp [shedNet, demoNet, Network.ofLists], fun r hr => ⟨I.bus r hr _, I.bus r hr _⟩, fun r hr => ?_, fun r hr => ⟨I.branch r hr _, I.branch r hr _⟩⟩
    rcases hdev r hr with rfl | ⟨h, -⟩
    · exact ⟨hshed _, hshed _, hshed _⟩
    · exact ⟨I.device r h _, I.device r h _, I.device r h _⟩
  refine ⟨⟨(C01_checkNetwork_iff ht).1 (by decide +kernel), C.bus, C.line, fun r hr t h => ?_, fun r hr => ?_, C.top, C.low⟩, ?_⟩
  · rcases hdev r hr with rfl | ⟨h', -⟩
    · refine .inl ⟨?_, C120_counterexample_load.2.1⟩
      simp only [shedRow, Option.some.injEq, X.fin.injEq] at h
      exact_mod_cast h.symm
    · exact C.device r h' t h
  · rcases hdev r hr with rfl | ⟨h', -⟩
    · obtain ⟨i, hi⟩ : ∃ i, demoNet.bus[1]? = some i := ⟨_, rfl⟩
      refine ⟨i, List.mem_of_getElem? hi, ?_⟩
      cases hi
      decide +kernel
    · exact C.place r h'
  · rintro ⟨s, hs⟩
    have : (mkSim shedNet (.fin (1/4)) (.fin 100)).toOption.isSome = false := by decide +kernel
    rw [hs] at this
    cases this

end Anm
