import Verif.Demo
import Verif.Lemmas.Components
import Verif.Spec.Components

/-! # C03-C08: what the constructors accept -/

set_option linter.unusedSectionVars false

namespace Anm

open Spec

section
variable {K : Type} [Field K] [LinearOrder K] [IsStrictOrderedRing K]

theorem isPu_toPu {c : Cell K} {base : K} {dflt : X K} (hb : 0 < base) :
    IsPu c base dflt (toPu c (.fin base) dflt) := by
  rcases c with _ | (_ | _ | x | _)
  · rfl
  · rfl
  · exact X.ninf_div hb
  · exact X.fin_div_fin hb.ne'
  · exact X.pinf_div hb

theorem isPu_div {x : X K} {base : K} {dflt : X K} (hb : 0 < base) :
    IsPu (some x) base dflt (x / .fin base) := isPu_toPu (c := some x) hb

theorem toPu_notNan {c : Cell K} {base : K} {dflt : X K} (hb : 0 < base) (hc : CellOk c)
    (hd : X.NotNan dflt) : X.NotNan (toPu c (.fin base) dflt) := by
  rcases c with _ | x
  · exact hd
  · exact X.div_notNan hb (X.notNan_iff.2 fun h => hc (by rw [h]))

theorem cell_notNan {x : X K} (h : CellOk (some x)) : X.NotNan x :=
  X.notNan_iff.2 fun h' => h (by rw [h'])

theorem zero_le_div {x : X K} {base : K} (hb : 0 < base) (h : X.fin 0 ≤ x) :
    X.fin 0 ≤ x / .fin base := by
  have := X.div_pos_le_div hb h
  rwa [X.fin_div_fin hb.ne', zero_div] at this

theorem div_le_zero {x : X K} {base : K} (hb : 0 < base) (h : x ≤ X.fin 0) :
    x / .fin base ≤ X.fin 0 := by
  have := X.div_pos_le_div hb h
  rwa [X.fin_div_fin hb.ne', zero_div] at this

variable [FloorRing K] {row : DevRow K} {ids : List ℤ} {base : K} {d : Device K}

/-- **C03.** Accepted loads only withdraw power and have ordered limits. -/
theorem C03_load (hok : RowOk row) (hb : 0 < base) (h : mkLoad row ids (.fin base) = .ok d) :
    LoadSpec row base d := by
  have I := mkLoad_ok h
  have hmin : X.NotNan d.pMin := by
    rw [I.pMin]; exact toPu_notNan hb (hok _) trivial
  have hmax : X.NotNan d.pMax ∧ d.pMax ≤ .fin 0 := by
    rcases I.pMax with ⟨_, h0⟩ | ⟨h0, h1⟩
    · rw [h0]; exact ⟨trivial, le_refl (0 : K)⟩
    · have hn : X.NotNan d.pMax := cell_notNan (h0 ▸ hok _)
      exact ⟨hn, (X.not_lt_iff (X.notNan_fin _) hn).1 h1⟩
  exact ⟨(X.not_lt_iff hmax.1 hmin).1 I.ord, hmax.2, I.pMin ▸ isPu_toPu hb,
    ⟨_, I.qp, I.qMin, I.qMax⟩⟩

/-- **C05.** Accepted non-slack generators have a coherent capability curve. -/
theorem C05_generator {kind : DevKind} (hok : RowOk row) (hb : 0 < base)
    (h : mkGen kind row ids (.fin base) = .ok d) (hs : d.isSlack = false) : GenSpec row base d := by
  have I := mkGen_ok h
  have hpMax : X.NotNan d.pMax ∧ IsPu (row .pmax) base .pinf d.pMax := by
    rcases I.pMax with ⟨h1, h0⟩ | ⟨x, h0, h1, h2⟩
    · rw [h0, h1]; exact ⟨trivial, rfl⟩
    · rw [h2, h0]
      exact ⟨X.div_notNan hb (cell_notNan (h0 ▸ hok _)), isPu_div hb⟩
  have hpMin : X.NotNan d.pMin ∧ .fin 0 ≤ d.pMin ∧ IsPu (row .pmin) base (.fin 0) d.pMin := by
    rcases I.pMin with ⟨h1, h0⟩ | ⟨x, h0, h1, h2⟩
    · rw [h0, h1, hs]; exact ⟨trivial, le_refl (0 : K), rfl⟩
    · rw [h2, h0]
      have hx : X.NotNan x := cell_notNan (h0 ▸ hok _)
      refine ⟨X.div_notNan hb hx, zero_le_div hb ?_, isPu_div hb⟩
      exact (X.not_lt_iff hx (X.notNan_fin _)).1 fun h => h1 ⟨h, hs⟩
  have hqMax : X.NotNan d.qMax := I.qMax ▸ toPu_notNan hb (hok _) trivial
  have hqMin : X.NotNan d.qMin := I.qMin ▸ toPu_notNan hb (hok _) trivial
  have hpp : X.NotNan d.pPlus := I.pPlus ▸ toPu_notNan hb (hok _) hpMax.1
  have hqp : X.NotNan d.qPlus := I.qPlus ▸ toPu_notNan hb (hok _) hqMax
  have hqm : X.NotNan d.qMinus := I.qMinus ▸ toPu_notNan hb (hok _) hqMin
  exact ⟨hpMin.2.1, (X.not_lt_iff hpp hpMin.1).1 I.pPlus_lo, (X.not_lt_iff hpMax.1 hpp).1 I.pPlus_hi,
    (X.not_lt_iff hqm hqMin).1 I.qMinus_lo, (X.not_lt_iff hqp hqm).1 I.ordQpm,
    (X.not_lt_iff hqMax hqp).1 I.qPlus_hi, hpMax.2, hpMin.2.2, I.qMax ▸ isPu_toPu hb,
    I.qMin ▸ isPu_toPu hb, I.pPlus ▸ isPu_toPu hb, I.qPlus ▸ isPu_toPu hb, I.qMinus ▸ isPu_toPu hb⟩

/-- **C06.** Accepted storage units have a coherent capability curve, capacity and efficiency. -/
theorem C06_storage (hok : RowOk row) (hb : 0 < base)
    (h : mkStorage row ids (.fin base) = .ok d) : StorageSpec row base d := by
  have I := mkStorage_ok h
  have hpMax : X.NotNan d.pMax ∧ .fin 0 ≤ d.pMax ∧ IsPu (row .pmax) base .pinf d.pMax := by
    rcases I.pMax with ⟨h1, h0⟩ | ⟨x, h0, h1, h2⟩
    · rw [h0, h1]; exact ⟨trivial, trivial, rfl⟩
    · rw [h2, h0]
      have hx : X.NotNan x := cell_notNan (h0 ▸ hok _)
      exact ⟨X.div_notNan hb hx, zero_le_div hb ((X.not_lt_iff hx (X.notNan_fin _)).1 h1), isPu_div hb⟩
  have hpMin : X.NotNan d.pMin ∧ d.pMin ≤ .fin 0 ∧ IsPu (row .pmin) base .ninf d.pMin := by
    rcases I.pMin with ⟨h1, h0⟩ | ⟨x, h0, h1, h2⟩
    · rw [h0, h1]; exact ⟨trivial, trivial, rfl⟩
    · rw [h2, h0]
      have hx : X.NotNan x := cell_notNan (h0 ▸ hok _)
      exact ⟨X.div_notNan hb hx, div_le_zero hb ((X.not_lt_iff (X.notNan_fin _) hx).1 h1), isPu_div hb⟩
  have hqMax : X.NotNan d.qMax := I.qMax ▸ toPu_notNan hb (hok _) trivial
  have hqMin : X.NotNan d.qMin := I.qMin ▸ toPu_notNan hb (hok _) trivial
  have hpp : X.NotNan d.pPlus := I.pPlus ▸ toPu_notNan hb (hok _) hpMax.1
  have hpm : X.NotNan d.pMinus := I.pMinus ▸ toPu_notNan hb (hok _) hpMin.1
  have hqp : X.NotNan d.qPlus := I.qPlus ▸ toPu_notNan hb (hok _) hqMax
  have hqm : X.NotNan d.qMinus := I.qMinus ▸ toPu_notNan hb (hok _) hqMin
  have hsMin : X.NotNan d.socMin ∧ .fin 0 ≤ d.socMin ∧ IsPu (row .socMin) base (.fin 0) d.socMin := by
    rcases I.socMin with ⟨h1, h0⟩ | ⟨x, h0, h1, h2⟩
    · rw [h0, h1]; exact ⟨trivial, le_refl (0 : K), rfl⟩
    · rw [h2, h0]
      have hx : X.NotNan x := cell_notNan (h0 ▸ hok _)
      exact ⟨X.div_notNan hb hx, zero_le_div hb ((X.not_lt_iff hx (X.notNan_fin _)).1 h1), isPu_div hb⟩
  obtain ⟨sm, hs0, hs1, hs2⟩ := I.socMax
  have hsm : X.NotNan sm := cell_notNan (hs0 ▸ hok _)
  have hsMax : X.NotNan d.socMax := hs2 ▸ X.div_notNan hb hsm
  have heff : .fin 0 ≤ d.eff ∧ d.eff ≤ .fin 1 := by
    rcases I.eff with ⟨_, h0⟩ | ⟨h0, h1⟩
    · rw [h0]; exact ⟨zero_le_one (α := K), le_refl (1 : K)⟩
    · have hx : X.NotNan d.eff := cell_notNan (h0 ▸ hok _)
      exact ⟨(X.not_lt_iff hx (X.notNan_fin _)).1 fun h => h1 (Or.inl h),
        (X.not_lt_iff (X.notNan_fin _) hx).1 fun h => h1 (Or.inr h)⟩
  have heffC : d.eff = (row .eff).getD (.fin 1) := by
    rcases I.eff with ⟨h0, h1⟩ | ⟨h0, _⟩
    · rw [h0, h1]; rfl
    · rw [h0]; rfl
  exact ⟨hpMin.2.1, hpMax.2.1, (X.not_lt_iff hpm hpMin.1).1 I.pMinus_lo,
    (X.not_lt_iff hpp hpm).1 I.ordPpm, (X.not_lt_iff hpMax.1 hpp).1 I.pPlus_hi,
    (X.not_lt_iff hqm hqMin).1 I.qMinus_lo, (X.not_lt_iff hqp hqm).1 I.ordQpm,
    (X.not_lt_iff hqMax hqp).1 I.qPlus_hi, hsMin.2.1, (X.not_lt_iff hsMax hsMin.1).1 I.ordSoc,
    heff.1, heff.2, heffC, hpMax.2.2, hpMin.2.2, I.qMax ▸ isPu_toPu hb, I.qMin ▸ isPu_toPu hb,
    I.pPlus ▸ isPu_toPu hb, I.pMinus ▸ isPu_toPu hb, I.qPlus ▸ isPu_toPu hb,
    I.qMinus ▸ isPu_toPu hb, hsMin.2.2, ⟨sm, hs0, hs2 ▸ isPu_div hb⟩⟩

theorem toInt_intCast (i : ℤ) : (X.fin (i : K)).toInt = .ok i := by
  simp only [X.toInt]
  split
  · simp
  · rw [show (-(i : K)) = ((-i : ℤ) : K) by push_cast; rfl, Int.floor_intCast]; simp

theorem inIds_toInt {x : X K} {i : ℤ} (h : inIds x ids) (h' : x.toInt = .ok i) :
    x = .fin (i : K) ∧ i ∈ ids := by
  obtain ⟨j, hj, hx⟩ := h
  rw [X.feq_iff] at hx
  rw [hx.1, toInt_intCast] at h'
  injection h' with h'
  subst h'
  exact ⟨hx.1, hj⟩

/-- **C07.** Accepted branches have a well-defined physical model (the admittance part is
`C07_series_admittance` in `Props/PowerFlow`). -/
theorem C07_branch {row : BranchRow K} {l : Line K} (hok : RowOk row) (hb : 0 < base)
    (h : mkLine row (.fin base) ids = .ok l) : LineSpec row base ids l := by
  have I := mkLine_ok h
  obtain ⟨xf, f1, f2, f3⟩ := I.f
  obtain ⟨xt, t1, t2, t3⟩ := I.t
  have f4 := inIds_toInt f2 f3
  have t4 := inIds_toInt t2 t3
  have z : ∀ {c : Cell K} {v : X K}, CellOk c → ((c = none ∧ v = 0) ∨ (c = some v ∧ ¬ v < 0)) →
      X.NotNan v ∧ .fin 0 ≤ v := by
    rintro c v hc (⟨_, h0⟩ | ⟨h0, h1⟩)
    · rw [h0]; exact ⟨trivial, le_refl (0 : K)⟩
    · have hx : X.NotNan v := cell_notNan (h0 ▸ hc)
      exact ⟨hx, (X.not_lt_iff hx (X.notNan_fin _)).1 h1⟩
  have v : ∀ {c : Cell K} {v d : X K} {P : Prop}, ((c = none ∧ v = d) ∨ (c = some v ∧ P)) →
      v = c.getD d := by
    rintro c v d P (⟨h0, h1⟩ | ⟨h0, _⟩)
    · rw [h0, h1]; rfl
    · rw [h0]; rfl
  have hr := z (hok _) I.r
  have hx := z (hok _) I.x
  have hbb := z (hok _) I.b
  refine ⟨⟨f1.trans (by rw [f4.1]), f4.2⟩, ⟨t1.trans (by rw [t4.1]), t4.2⟩, hr.2, hx.2, ?_, hbb.2,
    ?_, ?_, ?_, ?_, ?_, v I.r, v I.x, v I.b, v I.tap, v I.shift⟩
  · by_contra hcon
    push Not at hcon
    exact I.rx ⟨X.feq_iff.2 ⟨hcon.1, hr.1⟩, X.feq_iff.2 ⟨hcon.2, hx.1⟩⟩
  · rcases I.rate with ⟨_, h0⟩ | ⟨x, h0, h1, h2⟩
    · rw [h0]; trivial
    · rw [h2]
      have hx : X.NotNan x := cell_notNan (h0 ▸ hok _)
      exact zero_le_div hb ((X.not_lt_iff hx (X.notNan_fin _)).1 h1)
  · rcases I.rate with ⟨h1, h0⟩ | ⟨x, h0, h1, h2⟩
    · rw [h0, h1]; rfl
    · rw [h2, h0]; exact isPu_div hb
  · rcases I.tap with ⟨_, h0⟩ | ⟨h0, h1⟩
    · rw [h0]; exact zero_lt_one (α := K)
    · have hx : X.NotNan l.tapMagn := cell_notNan (h0 ▸ hok _)
      exact (X.not_le_iff hx (X.notNan_fin _)).1 h1
  · rcases I.shift with ⟨_, h0⟩ | ⟨h0, h1⟩
    · rw [h0]; exact le_refl (0 : K)
    · have hx : X.NotNan l.shiftDeg := cell_notNan (h0 ▸ hok _)
      exact (X.not_lt_iff hx (X.notNan_fin _)).1 fun h => h1 (Or.inl h)
  · rcases I.shift with ⟨_, h0⟩ | ⟨h0, h1⟩
    · rw [h0]
      have : (0 : K) ≤ 360 := by norm_num
      exact this
    · have hx : X.NotNan l.shiftDeg := cell_notNan (h0 ▸ hok _)
      exact (X.not_lt_iff (X.notNan_fin _) hx).1 fun h => h1 (Or.inr h)

/-! ### C04: load limits in per-unit -/

/-- **C04, partial.** The MW limit reported for a load (per-unit limit times `baseMVA`) is the PMAX
cell *when PMAX is missing or 0, or when `baseMVA = 1`*.  Missing: every other accepted PMAX, for which
the claim is false (`C04_counterexample`). -/
theorem C04_load_pmax_partial (h : mkLoad row ids (.fin base) = .ok d)
    (hp : row .pmax = none ∨ row .pmax = some (.fin 0) ∨ base = 1) :
    d.pMax * .fin base = (row .pmax).getD (.fin 0) := by
  have I := mkLoad_ok h
  rcases I.pMax with ⟨h1, h0⟩ | ⟨h1, h0⟩
  · rw [h0, h1]; simp [X.zero_def]
  · rw [h1] at hp ⊢
    simp only [reduceCtorEq, Option.some.injEq, false_or, Option.getD_some] at hp ⊢
    rcases hp with hp | rfl
    · rw [hp]; simp
    · exact X.mul_fin_one _

theorem not_inIds_nan : ¬ inIds (X.nan : X K) ids := by
  rintro ⟨i, _, h⟩
  exact X.not_feq_nan h

/-- **C08, partial** (devices). A NaN in an identifier or type column is rejected.  Missing: the limit
columns, for which the claim is false (`C08_counterexample_*`). -/
theorem C08_device_ids_partial (h : mkDevice row ids (.fin base) = .ok d) (col : DevCol)
    (hc : col ∈ [DevCol.devId, DevCol.busId, DevCol.devType]) : CellOk (row col) := by
  have hcom : ∃ i b s, CommonInv row ids i b s := by
    simp only [mkDevice, bind_ok] at h
    obtain ⟨ty, _, h⟩ := h
    split at h
    · exact ⟨_, _, _, (mkLoad_ok h).common⟩
    split at h
    · exact ⟨_, _, _, (mkGen_ok h).common⟩
    split at h
    · exact ⟨_, _, _, (mkGen_ok h).common⟩
    split at h
    · exact ⟨_, _, _, (mkStorage_ok h).common⟩
    · simp at h
  obtain ⟨i, b, s, I⟩ := hcom
  obtain ⟨x1, e1, h1⟩ := I.id_eq
  obtain ⟨x2, e2, h2, _⟩ := I.bus_eq
  obtain ⟨x3, e3, h3, _⟩ := I.slack_eq
  simp only [List.mem_cons, List.not_mem_nil, or_false] at hc
  intro hn
  rcases hc with rfl | rfl | rfl
  · rw [hn] at e1; injection e1 with e1; subst e1; simp [X.toInt] at h1
  · rw [hn] at e2; injection e2 with e2; subst e2; exact not_inIds_nan h2
  · rw [hn] at e3; injection e3 with e3; subst e3; exact not_inIds_nan h3

/-- **C08, partial** (branches): NaN end points are rejected. -/
theorem C08_branch_ids_partial {row : BranchRow K} {l : Line K}
    (h : mkLine row (.fin base) ids = .ok l) : CellOk (row .fBus) ∧ CellOk (row .tBus) := by
  have I := mkLine_ok h
  obtain ⟨xf, f1, f2, f3⟩ := I.f
  obtain ⟨xt, t1, t2, t3⟩ := I.t
  constructor
  · intro hn; rw [hn] at f1; injection f1 with f1; subst f1; exact not_inIds_nan f2
  · intro hn; rw [hn] at t1; injection t1 with t1; subst t1; exact not_inIds_nan t2

/-- **C08, partial** (buses): NaN in the ID or type column is rejected. -/
theorem C08_bus_ids_partial {row : BusRow K} {b : Bus K} (h : mkBus row = .ok b) :
    CellOk (row .busId) ∧ CellOk (row .busType) := by
  have I := mkBus_ok h
  obtain ⟨t, ht, _⟩ := I.ty
  have hi := I.id
  constructor
  · intro hn; rw [hn] at hi; simp [cellInt, X.toInt] at hi
  · intro hn; rw [hn] at ht; simp [cellInt, X.toInt] at ht

end

/-! ### Examples and counterexamples over ℚ -/

/-- A load row with PMAX = -5 MW, PMIN = -10 MW. -/
def loadRow (pmax pmin : ℚ) : DevRow ℚ := rowOf headersDev
  [num 1, num 1, num (-1), num (1/5), num pmax, num pmin, none, none, none, none, none, none, none,
   none, none]

/-- C03 is not vacuous. -/
example : ∃ d, mkLoad (loadRow 0 (-10)) [0, 1] (.fin 100) = .ok d ∧ d.pMin = .fin (-1/10) :=
  exOk (by decide +kernel)

/-- **C04 is false**: with PMAX = -1/20 MW, PMIN = -10 MW and baseMVA = 100 the load is accepted with an
upper limit of -1/20 p.u. = -5 MW. -/
theorem C04_counterexample : ∃ d, mkLoad (loadRow (-1/20) (-10)) [0, 1] (.fin 100) = .ok d ∧
    d.pMax * .fin 100 = .fin (-5) ∧ (loadRow (-1/20) (-10)) .pmax = some (.fin (-1/20)) :=
  exOk (by decide +kernel)

/-- ... and a load with limits [-10 MW, -5 MW] is rejected as if PMAX < PMIN. -/
theorem C04_counterexample_rejected :
    mkLoad (loadRow (-5) (-10)) [0, 1] (.fin 100) = .error .loadSpecError := by decide +kernel

/-- A renewable generator row and its device: C05 applies. -/
def genRow : DevRow ℚ := rowOf headersDev
  [num 2, num 1, num 2, none, num 30, num 0, num 30, num (-30), num 20, none, num 15, num (-15), none,
   none, none]

example : ∃ d, mkGen .renewable genRow [0, 1] (.fin 100) = .ok d ∧ d.isSlack = false ∧
    d.pPlus = .fin (1/5) ∧ d.tau1 = .fin (-3/2) := exOk (by decide +kernel)

theorem rowOk_rowOf {C : Type} [DecidableEq C] (hs : List C) (l : List (Cell ℚ))
    (h : ∀ c ∈ l, c ≠ some .nan) : RowOk (rowOf hs l) := by
  intro col
  unfold CellOk rowOf
  cases hx : l[hs.idxOf col]? with
  | none => simp
  | some c => exact h c (List.mem_of_getElem? hx)

example : RowOk genRow := rowOk_rowOf _ _ (by decide +kernel)
example : RowOk (loadRow 0 (-10)) := rowOk_rowOf _ _ (by decide +kernel)

/-- A storage row. -/
def desRow : DevRow ℚ := rowOf headersDev
  [num 3, num 2, num 3, none, num 50, num (-50), num 50, num (-50), num 30, num (-30), num 25,
   num (-25), num 100, num 0, num (9/10)]

example : RowOk desRow := rowOk_rowOf _ _ (by decide +kernel)
example : ∃ d, mkStorage desRow [0, 2] (.fin 100) = .ok d ∧ d.socMax = .fin 1 ∧
    d.eff = .fin (9/10) := exOk (by decide +kernel)

/-- A branch row. -/
def brRow : BranchRow ℚ := rowOf headersBranch
  [num 0, num 1, num (1/100), num (1/10), num 0, num 32, num 1, num 0]

example : RowOk brRow := rowOk_rowOf _ _ (by decide +kernel)
example : ∃ l, mkLine brRow (.fin 100) [0, 1] = .ok l ∧ l.rate = .fin (8/25) :=
  exOk (by decide +kernel)

/-! ### C08: NaN cells -/

/-- A NaN cell. -/
abbrev nanC : Cell ℚ := some .nan

/-- **C08 is false** for generators: NaN limits in every limit column are accepted. -/
theorem C08_counterexample_gen : ∃ d, mkGen .renewable (rowOf headersDev
    [num 2, num 1, num 2, none, nanC, nanC, nanC, nanC, nanC, none, nanC, nanC, none, none, none])
    [0, 1] (.fin 100) = .ok d ∧ d.pMax = .nan ∧ d.rho1 = .nan := exOk (by decide +kernel)

/-- **C08 is false** for storage units. -/
theorem C08_counterexample_storage : ∃ d, mkStorage (rowOf headersDev
    [num 3, num 2, num 3, none, nanC, nanC, nanC, nanC, nanC, nanC, nanC, nanC, nanC, nanC, nanC])
    [0, 2] (.fin 100) = .ok d ∧ d.eff = .nan := exOk (by decide +kernel)

/-- **C08 is false** for loads. -/
theorem C08_counterexample_load : ∃ d, mkLoad (rowOf headersDev
    [num 1, num 1, num (-1), nanC, nanC, nanC, none, none, none, none, none, none, none, none, none])
    [0, 1] (.fin 100) = .ok d ∧ d.pMax = .nan := exOk (by decide +kernel)

/-- **C08 is false** for branches. -/
theorem C08_counterexample_branch : ∃ l, mkLine (rowOf headersBranch
    [num 0, num 1, nanC, nanC, nanC, nanC, nanC, nanC]) (.fin 100) [0, 1] = .ok l ∧ l.r = .nan :=
  exOk (by decide +kernel)

/-- **C08 is false** for buses. -/
theorem C08_counterexample_bus : ∃ b, mkBus (rowOf headersBus [num 1, num 1, nanC, nanC, nanC]) = .ok b ∧
    b.vMax = .nan := exOk (by decide +kernel)

end Anm
