import Verif.Props.Components
import Verif.Spec.Region
import Mathlib.Tactic.Linarith
import Mathlib.Tactic.FieldSimp
import Mathlib.Tactic.Ring

/-! # C12-C15: the constraint systems and their feasibility -/

set_option linter.unusedSectionVars false

namespace Anm

open Spec

section
variable {K : Type} [Field K] [LinearOrder K] [IsStrictOrderedRing K]

theorem lineAt_eq {x0 y0 x1 y1 x : K} (h : x1 - x0 ≠ 0) :
    lineAt x0 y0 x1 y1 x = y0 - (y1 - y0) / (x1 - x0) * x0 + (y1 - y0) / (x1 - x0) * x := by
  unfold lineAt; field_simp; ring

/-- The upper cut on the right: trivial left of `x0`. -/
theorem cut_hi_right {x0 y0 x1 y1 x q : K} (h : x0 < x1) (hy : y1 ≤ y0) (hq : q ≤ y0) :
    (-((y1 - y0) / (x1 - x0)) * x + q ≤ y0 - (y1 - y0) / (x1 - x0) * x0) ↔
      (x0 < x → q ≤ lineAt x0 y0 x1 y1 x) := by
  have h' : x1 - x0 ≠ 0 := (sub_pos.2 h).ne'
  rw [lineAt_eq h']
  have ht : (y1 - y0) / (x1 - x0) ≤ 0 :=
    div_nonpos_of_nonpos_of_nonneg (by linarith) (sub_pos.2 h).le
  generalize (y1 - y0) / (x1 - x0) = t at ht ⊢
  constructor
  · intro H _; linarith
  · intro H
    rcases lt_or_ge x0 x with hx | hx
    · linarith [H hx]
    · nlinarith

theorem cut_lo_right {x0 y0 x1 y1 x q : K} (h : x0 < x1) (hy : y0 ≤ y1) (hq : y0 ≤ q) :
    ((y1 - y0) / (x1 - x0) * x + -q ≤ -(y0 - (y1 - y0) / (x1 - x0) * x0)) ↔
      (x0 < x → lineAt x0 y0 x1 y1 x ≤ q) := by
  have h' : x1 - x0 ≠ 0 := (sub_pos.2 h).ne'
  rw [lineAt_eq h']
  have ht : 0 ≤ (y1 - y0) / (x1 - x0) := div_nonneg (by linarith) (sub_pos.2 h).le
  generalize (y1 - y0) / (x1 - x0) = t at ht ⊢
  constructor
  · intro H _; linarith
  · intro H
    rcases lt_or_ge x0 x with hx | hx
    · linarith [H hx]
    · nlinarith

/-- The upper cut on the left (`x1 < x0`), slope `(y0-y1)/(x0-x1)`. -/
theorem cut_hi_left {x0 y0 x1 y1 x q : K} (h : x1 < x0) (hy : y1 ≤ y0) (hq : q ≤ y0) :
    (-((y0 - y1) / (x0 - x1)) * x + q ≤ y0 - (y0 - y1) / (x0 - x1) * x0) ↔
      (x < x0 → q ≤ lineAt x0 y0 x1 y1 x) := by
  have h' : x1 - x0 ≠ 0 := (sub_neg.2 h).ne
  rw [lineAt_eq h']
  have e : (y1 - y0) / (x1 - x0) = (y0 - y1) / (x0 - x1) := by
    rw [← neg_sub y0, ← neg_sub x0, neg_div_neg_eq]
  rw [e]
  have ht : 0 ≤ (y0 - y1) / (x0 - x1) := div_nonneg (by linarith) (sub_pos.2 h).le
  generalize (y0 - y1) / (x0 - x1) = t at ht ⊢
  constructor
  · intro H _; linarith
  · intro H
    rcases lt_or_ge x x0 with hx | hx
    · linarith [H hx]
    · nlinarith

theorem cut_lo_left {x0 y0 x1 y1 x q : K} (h : x1 < x0) (hy : y0 ≤ y1) (hq : y0 ≤ q) :
    ((y0 - y1) / (x0 - x1) * x + -q ≤ -(y0 - (y0 - y1) / (x0 - x1) * x0)) ↔
      (x < x0 → lineAt x0 y0 x1 y1 x ≤ q) := by
  have h' : x1 - x0 ≠ 0 := (sub_neg.2 h).ne
  rw [lineAt_eq h']
  have e : (y1 - y0) / (x1 - x0) = (y0 - y1) / (x0 - x1) := by
    rw [← neg_sub y0, ← neg_sub x0, neg_div_neg_eq]
  rw [e]
  have ht : (y0 - y1) / (x0 - x1) ≤ 0 :=
    div_nonpos_of_nonpos_of_nonneg (by linarith) (sub_pos.2 h).le
  generalize (y0 - y1) / (x0 - x1) = t at ht ⊢
  constructor
  · intro H _; linarith
  · intro H
    rcases lt_or_ge x x0 with hx | hx
    · linarith [H hx]
    · nlinarith

/-- The slope of a capability line in per-unit numbers. -/
def slope (x0 y0 x1 y1 : K) : K := if x1 = x0 then 0 else (y1 - y0) / (x1 - x0)

theorem slope_fin {x0 y0 x1 y1 : K} :
    (if X.feq (.fin x1) (.fin x0 : X K) then 0 else (X.fin y1 - X.fin y0) / (X.fin x1 - X.fin x0)) =
      X.fin (slope x0 y0 x1 y1) := by
  unfold slope
  simp only [X.feq_fin]
  split
  · rfl
  · rename_i h
    rw [X.fin_sub_fin, X.fin_sub_fin, X.fin_div_fin (sub_ne_zero.2 h)]

theorem slope_eq {x0 y0 x1 y1 : K} (h : x0 ≠ x1) : slope x0 y0 x1 y1 = (y1 - y0) / (x1 - x0) :=
  if_neg (Ne.symm h)

theorem slope_self {x0 y0 y1 : K} : slope x0 y0 x0 y1 = 0 := if_pos rfl

variable [FloorRing K] {row : DevRow K} {ids : List ℤ} {base : K} {d0 d : Device K}

theorem Spec.SameMachine.fields (h : SameMachine d0 d) :
    d.pMin = d0.pMin ∧ d.pMax = d0.pMax ∧ d.qMin = d0.qMin ∧ d.qMax = d0.qMax ∧ d.pPlus = d0.pPlus ∧
    d.pMinus = d0.pMinus ∧ d.qPlus = d0.qPlus ∧ d.qMinus = d0.qMinus ∧ d.tau1 = d0.tau1 ∧
    d.tau2 = d0.tau2 ∧ d.tau3 = d0.tau3 ∧ d.tau4 = d0.tau4 ∧ d.rho1 = d0.rho1 ∧ d.rho2 = d0.rho2 ∧
    d.rho3 = d0.rho3 ∧ d.rho4 = d0.rho4 := by
  rw [h]; simp

/-- Coherent generator parameters. -/
structure GenParamsOk (g : GenParams K) : Prop where
  p1 : g.pmin ≤ g.pplus
  p2 : g.pplus ≤ g.pmax
  q1 : g.qmin ≤ g.qminus
  q2 : g.qminus ≤ g.qplus
  q3 : g.qplus ≤ g.qmax

theorem genParamsOk {g : GenParams K} (hs : GenSpec row base d0) (hg : HasGenParams d0 g) :
    GenParamsOk g := by
  have h1 := hs.p1; have h2 := hs.p2; have h3 := hs.q1; have h4 := hs.q2; have h5 := hs.q3
  rw [hg.pmin, hg.pplus] at h1
  rw [hg.pplus, hg.pmax] at h2
  rw [hg.qmin, hg.qminus] at h3
  rw [hg.qminus, hg.qplus] at h4
  rw [hg.qplus, hg.qmax] at h5
  exact ⟨h1, h2, h3, h4, h5⟩

theorem genRows_eq {kind : DevKind} {g : GenParams K} {pot : K}
    (h : mkGen kind row ids (.fin base) = .ok d0) (hg : HasGenParams d0 g)
    (hd : SameMachine d0 d) (hpot : d.pPot = .fin pot) :
    d.genConstraints =
      [⟨.fin (-1), .fin 0, .fin (-g.pmin)⟩, ⟨.fin 1, .fin 0, .fin g.pmax⟩, ⟨.fin 1, .fin 0, .fin pot⟩,
       ⟨.fin 0, .fin (-1), .fin (-g.qmin)⟩, ⟨.fin 0, .fin 1, .fin g.qmax⟩,
       ⟨.fin (-slope g.pplus g.qmax g.pmax g.qplus), .fin 1,
        .fin (g.qmax - slope g.pplus g.qmax g.pmax g.qplus * g.pplus)⟩,
       ⟨.fin (slope g.pplus g.qmin g.pmax g.qminus), .fin (-1),
        .fin (-(g.qmin - slope g.pplus g.qmin g.pmax g.qminus * g.pplus))⟩] := by
  have I := mkGen_ok h
  obtain ⟨e1, e2, e3, e4, _, _, _, _, t1, t2, _, _, r1, r2, _⟩ := hd.fields
  have ht1 : d0.tau1 = .fin (slope g.pplus g.qmax g.pmax g.qplus) := by
    rw [I.tau1, hg.pmax, hg.pplus, hg.qplus, hg.qmax]; exact slope_fin
  have ht2 : d0.tau2 = .fin (slope g.pplus g.qmin g.pmax g.qminus) := by
    rw [I.tau2, hg.pmax, hg.pplus, hg.qminus, hg.qmin]; exact slope_fin
  have hr1 : d0.rho1 = .fin (g.qmax - slope g.pplus g.qmax g.pmax g.qplus * g.pplus) := by
    rw [I.rho1, ht1, hg.pplus, hg.qmax]; simp
  have hr2 : d0.rho2 = .fin (g.qmin - slope g.pplus g.qmin g.pmax g.qminus * g.pplus) := by
    rw [I.rho2, ht2, hg.pplus, hg.qmin]; simp
  simp only [Device.genConstraints, e1, e2, e3, e4, t1, t2, r1, r2, ht1, ht2, hr1, hr2, hpot, hg.pmin,
    hg.pmax, hg.qmin, hg.qmax, X.one_def, X.zero_def, X.neg_fin]

/-- **C12.** For an accepted non-slack generator with finite limits and any potential, the rows given
to the projection describe exactly the documented capability region. -/
theorem C12_gen_region {kind : DevKind} {g : GenParams K} {pot p q : K}
    (hok : RowOk row) (hb : 0 < base) (h : mkGen kind row ids (.fin base) = .ok d0)
    (hs : d0.isSlack = false) (hg : HasGenParams d0 g)
    (hd : SameMachine d0 d) (hpot : d.pPot = .fin pot) :
    Feasible d.genConstraints (.fin p) (.fin q) ↔ GenRegion g pot p q := by
  have O := genParamsOk (C05_generator hok hb h hs) hg
  rw [genRows_eq h hg hd hpot]
  simp only [Feasible, List.mem_cons, List.not_mem_nil, or_false, forall_eq_or_imp, forall_eq,
    X.fin_mul_fin, X.fin_add_fin, X.fin_le_fin, zero_mul, add_zero, zero_add, neg_mul, one_mul,
    neg_le_neg_iff]
  have key : g.pplus < g.pmax → g.qmin ≤ q → q ≤ g.qmax →
      ((-(slope g.pplus g.qmax g.pmax g.qplus * p) + q ≤
          g.qmax - slope g.pplus g.qmax g.pmax g.qplus * g.pplus) ↔
        (g.pplus < p → q ≤ lineAt g.pplus g.qmax g.pmax g.qplus p)) ∧
      ((slope g.pplus g.qmin g.pmax g.qminus * p + -q ≤
          -(g.qmin - slope g.pplus g.qmin g.pmax g.qminus * g.pplus)) ↔
        (g.pplus < p → lineAt g.pplus g.qmin g.pmax g.qminus p ≤ q)) := by
    intro hp h1 h2
    rw [slope_eq hp.ne, slope_eq hp.ne, ← neg_mul]
    exact ⟨cut_hi_right hp O.q3 h2, cut_lo_right hp O.q1 h1⟩
  constructor
  · rintro ⟨h1, h2, h3, h4, h5, h6, h7⟩
    rcases O.p2.lt_or_eq with hp | hp
    · obtain ⟨k1, k2⟩ := key hp h4 h5
      exact ⟨h1, h2, h3, h4, h5, k1.1 h6, k2.1 h7⟩
    · have hc : ¬ g.pplus < p := by rw [hp]; exact not_lt.2 h2
      exact ⟨h1, h2, h3, h4, h5, fun h => absurd h hc, fun h => absurd h hc⟩
  · rintro ⟨h1, h2, h3, h4, h5, h6, h7⟩
    refine ⟨h1, h2, h3, h4, h5, ?_⟩
    rcases O.p2.lt_or_eq with hp | hp
    · obtain ⟨k1, k2⟩ := key hp h4 h5
      exact ⟨k1.2 h6, k2.2 h7⟩
    · rw [hp, slope_self, slope_self]
      constructor <;> linarith

/-- **C14, partial.** The projection problem of an accepted non-slack generator with finite limits is
feasible, whatever the potential set by the setter (unless NaN).  Missing: infinite limits, for which the
claim is false (`C14_counterexample`). -/
theorem C14_gen_feasible_partial {kind : DevKind} {g : GenParams K} {v : X K}
    (hok : RowOk row) (hb : 0 < base) (h : mkGen kind row ids (.fin base) = .ok d0)
    (hs : d0.isSlack = false) (hg : HasGenParams d0 g)
    (hd : SameMachine d0 d) (hv : X.NotNan v) :
    ∃ p q, Feasible (d.setPPot v).genConstraints (.fin p) (.fin q) := by
  have S := C05_generator hok hb h hs
  have O := genParamsOk S hg
  obtain ⟨e1, e2, _⟩ := hd.fields
  have hle : d.pMin ≤ d.pMax := by
    rw [e1, e2]; exact X.le_trans' S.p1 S.p2
  have hm := X.clip_mem hv hle
  rw [e1, e2, hg.pmin, hg.pmax] at hm
  obtain ⟨pot, hpot⟩ : ∃ pot, X.clip v d.pMin d.pMax = .fin pot := by
    rw [e1, e2, hg.pmin, hg.pmax]
    revert hm
    cases X.clip v (.fin g.pmin) (.fin g.pmax) <;> simp
  have hd' : SameMachine d0 (d.setPPot v) := by
    rw [SameMachine, Device.setPPot]; rw [SameMachine] at hd; rw [hd]
  have hpl : g.pmin ≤ pot := by
    have := hm.1
    rw [← hg.pmin, ← hg.pmax, ← e1, ← e2, hpot, e1, hg.pmin] at this
    exact this
  refine ⟨g.pmin, g.qminus, (C12_gen_region hok hb h hs hg hd' hpot).2
    ⟨le_refl _, O.p1.trans O.p2, hpl, O.q1, O.q2.trans O.q3, ?_, ?_⟩⟩
  · intro hc; exact absurd O.p1 (not_le.2 hc)
  · intro hc; exact absurd O.p1 (not_le.2 hc)

theorem exists_fin_between {a b : X K} (h : a ≤ b) (ha : a ≠ .pinf) (hb : b ≠ .ninf) :
    ∃ x : K, a ≤ .fin x ∧ .fin x ≤ b := by
  cases a <;> cases b <;> simp at h ha hb ⊢
  · exact ⟨_, le_refl _⟩
  · rename_i a b; exact ⟨b, h, le_refl _⟩
  · rename_i a; exact ⟨a, le_refl _⟩

/-- **C14, partial** (second sufficient condition).  No P+ given (the capability region is a box),
finite PMAX; the reactive limits may be infinite. -/
theorem C14_gen_feasible_box_partial {kind : DevKind} {pm : K} {v : X K}
    (hok : RowOk row) (hb : 0 < base) (h : mkGen kind row ids (.fin base) = .ok d0)
    (hs : d0.isSlack = false) (hpm : d0.pMax = .fin pm) (hpp : row .pPlus = none)
    (hq1 : d0.qMin ≠ .pinf) (hq2 : d0.qMax ≠ .ninf)
    (hd : SameMachine d0 d) (hv : X.NotNan v) :
    ∃ p q, Feasible (d.setPPot v).genConstraints (.fin p) (.fin q) := by
  have S := C05_generator hok hb h hs
  have I := mkGen_ok h
  obtain ⟨e1, e2, e3, e4, _, _, _, _, t1, t2, _, _, r1, r2, _⟩ := hd.fields
  have hp1 : d0.pPlus = .fin pm := by rw [I.pPlus, hpp, ← hpm]; rfl
  have hle := X.le_trans' S.p1 S.p2
  obtain ⟨a, ha⟩ : ∃ a, d0.pMin = .fin a := by
    have := S.nonneg
    rw [hpm] at hle
    cases hm : d0.pMin <;> rw [hm] at this hle <;> simp at this hle
    exact ⟨_, rfl⟩
  obtain ⟨q, hq⟩ := exists_fin_between (X.le_trans' S.q1 (X.le_trans' S.q2 S.q3)) hq1 hq2
  have ht1 : d0.tau1 = .fin 0 := by
    rw [I.tau1, hpm, hp1, if_pos (by simp)]; rfl
  have ht2 : d0.tau2 = .fin 0 := by
    rw [I.tau2, hpm, hp1, if_pos (by simp)]; rfl
  have hsub : ∀ x : X K, x - .fin (0 * pm) = x := by
    intro x
    cases x with
    | fin a => rw [zero_mul, X.fin_sub_fin, sub_zero]
    | _ => rfl
  have hr1 : d0.rho1 = d0.qMax := by
    rw [I.rho1, ht1, hp1, X.fin_mul_fin]; exact hsub _
  have hr2 : d0.rho2 = d0.qMin := by
    rw [I.rho2, ht2, hp1, X.fin_mul_fin]; exact hsub _
  have hm := (X.clip_mem hv (e1 ▸ e2 ▸ hle : d.pMin ≤ d.pMax)).1
  rw [e1, ha] at hm
  have hneg : ∀ {x : X K} {y : K}, x ≤ .fin y → X.fin (-y) ≤ -x := by
    intro x y; cases x <;> simp
  rw [hpm, ha] at hle
  refine ⟨a, q, ?_⟩
  simp only [Feasible, Device.genConstraints, Device.setPPot, List.mem_cons, List.not_mem_nil, or_false,
    forall_eq_or_imp, forall_eq, e1, e2, e3, e4, t1, t2, r1, r2, ht1, ht2, hr1, hr2, ha, hpm,
    X.one_def, X.zero_def, X.neg_fin, X.fin_mul_fin, X.fin_add_fin, X.fin_le_fin, neg_zero, zero_mul,
    zero_add, one_mul, add_zero, neg_mul, le_refl, true_and]
  exact ⟨hle, by rw [e2, hpm] at hm; exact hm, hneg hq.1, hq.2, hq.2, hneg hq.1⟩

/-! ### Storage units -/

/-- Coherent storage parameters. -/
structure DesParamsOk (g : DesParams K) : Prop where
  p0 : g.pmin ≤ 0
  p0' : 0 ≤ g.pmax
  p1 : g.pmin ≤ g.pminus
  p2 : g.pminus ≤ g.pplus
  p3 : g.pplus ≤ g.pmax
  q1 : g.qmin ≤ g.qminus
  q2 : g.qminus ≤ g.qplus
  q3 : g.qplus ≤ g.qmax
  s0 : 0 ≤ g.socMin
  s1 : g.socMin ≤ g.socMax
  e0 : 0 ≤ g.eff
  e1 : g.eff ≤ 1

theorem desParamsOk {g : DesParams K} (hs : StorageSpec row base d0) (hg : HasDesParams d0 g) :
    DesParamsOk g := by
  obtain ⟨h1, h2, h3, h4, h5, h6, h7, h8, h9, h10, h11, h12, _⟩ := hs
  rw [hg.pmin] at h1 h3
  rw [hg.pmax] at h2 h5
  rw [hg.pminus] at h3 h4
  rw [hg.pplus] at h4 h5
  rw [hg.qmin, hg.qminus] at h6
  rw [hg.qminus, hg.qplus] at h7
  rw [hg.qplus, hg.qmax] at h8
  rw [hg.socMin] at h9 h10
  rw [hg.socMax] at h10
  rw [hg.eff] at h11 h12
  exact ⟨h1, h2, h3, h4, h5, h6, h7, h8, h9, h10, h11, h12⟩

/-- Slope of the left cuts. -/
def slopeL (x0 y0 x1 y1 : K) : K := if x1 = x0 then 0 else (y0 - y1) / (x0 - x1)

theorem slopeL_fin {x0 y0 x1 y1 : K} :
    (if X.feq (.fin x1) (.fin x0 : X K) then 0 else (X.fin y0 - X.fin y1) / (X.fin x0 - X.fin x1)) =
      X.fin (slopeL x0 y0 x1 y1) := by
  unfold slopeL
  simp only [X.feq_fin]
  split
  · rfl
  · rename_i h
    rw [X.fin_sub_fin, X.fin_sub_fin, X.fin_div_fin (sub_ne_zero.2 (Ne.symm h))]

theorem slopeL_eq {x0 y0 x1 y1 : K} (h : x1 ≠ x0) : slopeL x0 y0 x1 y1 = (y0 - y1) / (x0 - x1) :=
  if_neg h

theorem slopeL_self {x0 y0 y1 : K} : slopeL x0 y0 x0 y1 = 0 := if_pos rfl

theorem pyDiv_fin {a b : K} (h : b ≠ 0) : X.pyDiv (.fin a) (.fin b) = .ok (.fin (a / b)) := by
  have hb : (X.fin b) ≠ X.fin 0 := by simpa using h
  simp only [X.pyDiv, bind_ok, guardE_ok, pure_ok, X.fin_div_fin h, hb, ne_eq, not_false_eq_true,
    exists_const, and_self]

theorem desRows_eq {g : DesParams K} {dt soc : K}
    (h : mkStorage row ids (.fin base) = .ok d0) (hg : HasDesParams d0 g)
    (hd : SameMachine d0 d) (hsoc : d.soc = some (.fin soc)) (hdt : 0 < dt) (heff : 0 < g.eff) :
    d.storageConstraints (.fin dt) = .ok
      [⟨.fin (-1), .fin 0, .fin (-g.pmin)⟩, ⟨.fin 1, .fin 0, .fin g.pmax⟩,
       ⟨.fin 0, .fin (-1), .fin (-g.qmin)⟩, ⟨.fin 0, .fin 1, .fin g.qmax⟩,
       ⟨.fin (-slope g.pplus g.qmax g.pmax g.qplus), .fin 1,
        .fin (g.qmax - slope g.pplus g.qmax g.pmax g.qplus * g.pplus)⟩,
       ⟨.fin (slope g.pplus g.qmin g.pmax g.qminus), .fin (-1),
        .fin (-(g.qmin - slope g.pplus g.qmin g.pmax g.qminus * g.pplus))⟩,
       ⟨.fin (slopeL g.pminus g.qmin g.pmin g.qminus), .fin (-1),
        .fin (-(g.qmin - slopeL g.pminus g.qmin g.pmin g.qminus * g.pminus))⟩,
       ⟨.fin (-slopeL g.pminus g.qmax g.pmin g.qplus), .fin 1,
        .fin (g.qmax - slopeL g.pminus g.qmax g.pmin g.qplus * g.pminus)⟩,
       ⟨.fin (-1), .fin 0, .fin (-(soc - g.socMax) / (dt * g.eff))⟩,
       ⟨.fin 1, .fin 0, .fin (g.eff * (soc - g.socMin) / dt)⟩] := by
  have I := mkStorage_ok h
  obtain ⟨e1, e2, e3, e4, _, _, _, _, t1, t2, t3, t4, r1, r2, r3, r4⟩ := hd.fields
  have f1 : d.socMin = .fin g.socMin := by rw [hd]; exact hg.socMin
  have f2 : d.socMax = .fin g.socMax := by rw [hd]; exact hg.socMax
  have f3 : d.eff = .fin g.eff := by rw [hd]; exact hg.eff
  have ht1 : d0.tau1 = .fin (slope g.pplus g.qmax g.pmax g.qplus) := by
    rw [I.tau1, hg.pmax, hg.pplus, hg.qplus, hg.qmax]; exact slope_fin
  have ht2 : d0.tau2 = .fin (slope g.pplus g.qmin g.pmax g.qminus) := by
    rw [I.tau2, hg.pmax, hg.pplus, hg.qminus, hg.qmin]; exact slope_fin
  have ht3 : d0.tau3 = .fin (slopeL g.pminus g.qmin g.pmin g.qminus) := by
    rw [I.tau3, hg.pmin, hg.pminus, hg.qminus, hg.qmin]; exact slopeL_fin
  have ht4 : d0.tau4 = .fin (slopeL g.pminus g.qmax g.pmin g.qplus) := by
    rw [I.tau4, hg.pmin, hg.pminus, hg.qplus, hg.qmax]; exact slopeL_fin
  have hr1 : d0.rho1 = .fin (g.qmax - slope g.pplus g.qmax g.pmax g.qplus * g.pplus) := by
    rw [I.rho1, ht1, hg.pplus, hg.qmax]; simp
  have hr2 : d0.rho2 = .fin (g.qmin - slope g.pplus g.qmin g.pmax g.qminus * g.pplus) := by
    rw [I.rho2, ht2, hg.pplus, hg.qmin]; simp
  have hr3 : d0.rho3 = .fin (g.qmin - slopeL g.pminus g.qmin g.pmin g.qminus * g.pminus) := by
    rw [I.rho3, ht3, hg.pminus, hg.qmin]; simp
  have hr4 : d0.rho4 = .fin (g.qmax - slopeL g.pminus g.qmax g.pmin g.qplus * g.pminus) := by
    rw [I.rho4, ht4, hg.pminus, hg.qmax]; simp
  simp only [Device.storageConstraints, hsoc, f1, f2, f3, X.fin_sub_fin, X.fin_mul_fin, X.neg_fin,
    pyDiv_fin (mul_pos hdt heff).ne', pyDiv_fin hdt.ne', e1, e2, e3, e4, t1, t2, t3, t4, r1, r2, r3, r4,
    ht1, ht2, ht3, ht4, hr1, hr2, hr3, hr4, hg.pmin, hg.pmax, hg.qmin, hg.qmax, X.one_def, X.zero_def]
  rfl

/-- **C13.** For an accepted storage unit with finite limits, positive efficiency and any state of
charge, the rows given to the projection describe exactly the documented capability region intersected
with the power window that keeps the state of charge within its limits. -/
theorem C13_storage_region {g : DesParams K} {dt soc p q : K}
    (hok : RowOk row) (hb : 0 < base) (h : mkStorage row ids (.fin base) = .ok d0)
    (hg : HasDesParams d0 g) (hd : SameMachine d0 d) (hsoc : d.soc = some (.fin soc)) (hdt : 0 < dt)
    (heff : 0 < g.eff) :
    ∃ rows, d.storageConstraints (.fin dt) = .ok rows ∧
      (Feasible rows (.fin p) (.fin q) ↔ DesRegion g dt soc p q) := by
  have O := desParamsOk (C06_storage hok hb h) hg
  refine ⟨_, desRows_eq h hg hd hsoc hdt heff, ?_⟩
  simp only [Feasible, List.mem_cons, List.not_mem_nil, or_false, forall_eq_or_imp, forall_eq,
    X.fin_mul_fin, X.fin_add_fin, X.fin_le_fin, zero_mul, add_zero, zero_add, neg_mul, one_mul,
    neg_le_neg_iff, neg_div]
  have keyR : g.pplus < g.pmax → g.qmin ≤ q → q ≤ g.qmax →
      ((-(slope g.pplus g.qmax g.pmax g.qplus * p) + q ≤
          g.qmax - slope g.pplus g.qmax g.pmax g.qplus * g.pplus) ↔
        (g.pplus < p → q ≤ lineAt g.pplus g.qmax g.pmax g.qplus p)) ∧
      ((slope g.pplus g.qmin g.pmax g.qminus * p + -q ≤
          -(g.qmin - slope g.pplus g.qmin g.pmax g.qminus * g.pplus)) ↔
        (g.pplus < p → lineAt g.pplus g.qmin g.pmax g.qminus p ≤ q)) := by
    intro hp h1 h2
    rw [slope_eq hp.ne, slope_eq hp.ne, ← neg_mul]
    exact ⟨cut_hi_right hp O.q3 h2, cut_lo_right hp O.q1 h1⟩
  have keyL : g.pmin < g.pminus → g.qmin ≤ q → q ≤ g.qmax →
      ((slopeL g.pminus g.qmin g.pmin g.qminus * p + -q ≤
          -(g.qmin - slopeL g.pminus g.qmin g.pmin g.qminus * g.pminus)) ↔
        (p < g.pminus → lineAt g.pminus g.qmin g.pmin g.qminus p ≤ q)) ∧
      ((-(slopeL g.pminus g.qmax g.pmin g.qplus * p) + q ≤
          g.qmax - slopeL g.pminus g.qmax g.pmin g.qplus * g.pminus) ↔
        (p < g.pminus → q ≤ lineAt g.pminus g.qmax g.pmin g.qplus p)) := by
    intro hp h1 h2
    rw [slopeL_eq hp.ne, slopeL_eq hp.ne, ← neg_mul]
    exact ⟨cut_lo_left hp O.q1 h1, cut_hi_left hp O.q3 h2⟩
  have nc1 : ¬ g.pplus < g.pmax → p ≤ g.pmax → ¬ g.pplus < p := fun a b c => a (lt_of_lt_of_le c b)
  have nc2 : ¬ g.pmin < g.pminus → g.pmin ≤ p → ¬ p < g.pminus := fun a b c => a (lt_of_le_of_lt b c)
  constructor
  · rintro ⟨h1, h2, h3, h4, h5, h6, h7, h8, h9, h10⟩
    refine ⟨h1, h2, h3, h4, ?_, ?_, ?_, ?_, h9, h10⟩
    · by_cases hp : g.pplus < g.pmax
      · exact (keyR hp h3 h4).1.1 h5
      · exact fun hc => absurd hc (nc1 hp h2)
    · by_cases hp : g.pplus < g.pmax
      · exact (keyR hp h3 h4).2.1 h6
      · exact fun hc => absurd hc (nc1 hp h2)
    · by_cases hp : g.pmin < g.pminus
      · exact (keyL hp h3 h4).2.1 h8
      · exact fun hc => absurd hc (nc2 hp h1)
    · by_cases hp : g.pmin < g.pminus
      · exact (keyL hp h3 h4).1.1 h7
      · exact fun hc => absurd hc (nc2 hp h1)
  · rintro ⟨h1, h2, h3, h4, h5, h6, h7, h8, h9, h10⟩
    refine ⟨h1, h2, h3, h4, ?_, ?_, ?_, ?_, h9, h10⟩
    · by_cases hp : g.pplus < g.pmax
      · exact (keyR hp h3 h4).1.2 h5
      · rw [le_antisymm O.p3 (not_lt.1 hp), slope_self]; linarith
    · by_cases hp : g.pplus < g.pmax
      · exact (keyR hp h3 h4).2.2 h6
      · rw [le_antisymm O.p3 (not_lt.1 hp), slope_self]; linarith
    · by_cases hp : g.pmin < g.pminus
      · exact (keyL hp h3 h4).1.2 h8
      · rw [le_antisymm O.p1 (not_lt.1 hp), slopeL_self]; linarith
    · by_cases hp : g.pmin < g.pminus
      · exact (keyL hp h3 h4).2.2 h7
      · rw [le_antisymm O.p1 (not_lt.1 hp), slopeL_self]; linarith

/-- **C15, partial.** The projection problem of an accepted storage unit with finite limits and positive
efficiency is feasible for every state of charge within its limits: staying idle (P = 0) is always
allowed.  Missing: EFF = 0, for which the claim is false (`C15_counterexample`). -/
theorem C15_storage_feasible_partial {g : DesParams K} {dt soc : K}
    (hok : RowOk row) (hb : 0 < base) (h : mkStorage row ids (.fin base) = .ok d0)
    (hg : HasDesParams d0 g) (hd : SameMachine d0 d) (hsoc : d.soc = some (.fin soc))
    (h1 : g.socMin ≤ soc) (h2 : soc ≤ g.socMax) (hdt : 0 < dt) (heff : 0 < g.eff) :
    ∃ rows, d.storageConstraints (.fin dt) = .ok rows ∧
      ∃ q, Feasible rows (.fin 0) (.fin q) := by
  have O := desParamsOk (C06_storage hok hb h) hg
  obtain ⟨rows, hr, hiff⟩ := C13_storage_region (p := 0) (q := g.qminus) hok hb h hg hd hsoc hdt heff
  refine ⟨rows, hr, g.qminus, hiff.2 ⟨O.p0, O.p0', O.q1, O.q2.trans O.q3, ?_, ?_, ?_, ?_, ?_, ?_⟩⟩
  · intro hc
    have hp : g.pplus < g.pmax := lt_of_lt_of_le hc O.p0'
    rw [lineAt]
    have : (0 - g.pplus) / (g.pmax - g.pplus) ≤ 1 := by
      rw [div_le_one (by linarith)]; linarith [O.p0']
    have h0 : 0 ≤ (0 - g.pplus) / (g.pmax - g.pplus) := div_nonneg (by linarith) (by linarith)
    nlinarith [O.q3, O.q2]
  · intro hc
    have hp : g.pplus < g.pmax := lt_of_lt_of_le hc O.p0'
    rw [lineAt]
    have : (0 - g.pplus) / (g.pmax - g.pplus) ≤ 1 := by
      rw [div_le_one (by linarith)]; linarith [O.p0']
    have h0 : 0 ≤ (0 - g.pplus) / (g.pmax - g.pplus) := div_nonneg (by linarith) (by linarith)
    nlinarith [O.q1]
  · intro hc
    have hp : g.pmin < g.pminus := lt_of_le_of_lt O.p0 hc
    rw [lineAt, ← neg_div_neg_eq (0 - g.pminus)]
    have : (-(0 - g.pminus)) / (-(g.pmin - g.pminus)) ≤ 1 := by
      rw [div_le_one (by linarith)]; linarith [O.p0]
    have h0 : 0 ≤ (-(0 - g.pminus)) / (-(g.pmin - g.pminus)) := div_nonneg (by linarith) (by linarith)
    nlinarith [O.q3, O.q2]
  · intro hc
    have hp : g.pmin < g.pminus := lt_of_le_of_lt O.p0 hc
    rw [lineAt, ← neg_div_neg_eq (0 - g.pminus)]
    have : (-(0 - g.pminus)) / (-(g.pmin - g.pminus)) ≤ 1 := by
      rw [div_le_one (by linarith)]; linarith [O.p0]
    have h0 : 0 ≤ (-(0 - g.pminus)) / (-(g.pmin - g.pminus)) := div_nonneg (by linarith) (by linarith)
    nlinarith [O.q1]
  · exact div_nonpos_of_nonpos_of_nonneg (by linarith) (mul_pos hdt heff).le
  · exact div_nonneg (mul_nonneg heff.le (by linarith)) hdt.le

end

/-! ### Examples and counterexamples -/

/-- Parameters of the demo generator. -/
def genG : GenParams ℚ := ⟨0, 3/10, -3/10, 3/10, 1/5, 3/20, -3/20⟩

instance (d : Device ℚ) (g : GenParams ℚ) : Decidable (HasGenParams d g) :=
  decidable_of_iff (d.pMin = .fin g.pmin ∧ d.pMax = .fin g.pmax ∧ d.qMin = .fin g.qmin ∧
    d.qMax = .fin g.qmax ∧ d.pPlus = .fin g.pplus ∧ d.qPlus = .fin g.qplus ∧ d.qMinus = .fin g.qminus)
    ⟨fun ⟨a, b, c, e, f, g, h⟩ => ⟨a, b, c, e, f, g, h⟩, fun ⟨a, b, c, e, f, g, h⟩ => ⟨a, b, c, e, f, g, h⟩⟩

/-- The hypotheses of C12/C14 are met by the demo generator; the region has the point (0.25, 0.2), which
lies under the upper cut. -/
example : ∃ d, mkGen .renewable genRow [0, 1] (.fin 100) = .ok d ∧ Feasible d.genConstraints
    (.fin (1/4)) (.fin (1/5)) := by
  obtain ⟨d, h, hs, hg, hp⟩ : ∃ d, mkGen .renewable genRow [0, 1] (.fin 100) = .ok d ∧
    (d.isSlack = false ∧ HasGenParams d genG ∧ d.pPot = .fin (3/10)) := exOk (by decide +kernel)
  refine ⟨d, h, (C12_gen_region (rowOk_rowOf _ _ (by decide +kernel)) (by norm_num) h hs hg
    (d := d) rfl hp).2 ?_⟩
  constructor <;> norm_num [genG, lineAt]

/-- A generator row with PMAX = None, P+ = None, finite reactive limits. -/
def genNoPmax : DevRow ℚ := rowOf headersDev
  [num 2, num 1, num 1, none, none, num 0, num 30, num (-30), none, none, none, none, none, none, none]

/-- **C14 is false** when PMAX is None: the accepted generator has an undefined (NaN) constraint, so no
point is feasible whatever the potential. -/
theorem C14_counterexample : ∃ d, mkGen .classical genNoPmax [0, 1] (.fin 100) = .ok d ∧
    ∀ v : X ℚ, ∀ p q, ¬ Feasible (d.setPPot v).genConstraints p q := by
  obtain ⟨d, h, hd⟩ : ∃ d, mkGen .classical genNoPmax [0, 1] (.fin 100) = .ok d ∧ d.rho1 = .nan :=
    exOk (by decide +kernel)
  refine ⟨d, h, fun v p q hf => ?_⟩
  have := hf ⟨-d.tau1, 1, d.rho1⟩ (by simp [Device.genConstraints, Device.setPPot])
  rw [hd] at this
  exact X.not_le_nan _ this

/-- Parameters of the demo storage unit. -/
def desG : DesParams ℚ := ⟨-1/2, 1/2, -1/2, 1/2, 3/10, -3/10, 1/4, -1/4, 0, 1, 9/10⟩

instance (d : Device ℚ) (g : DesParams ℚ) : Decidable (HasDesParams d g) :=
  decidable_of_iff (d.pMin = .fin g.pmin ∧ d.pMax = .fin g.pmax ∧ d.qMin = .fin g.qmin ∧
    d.qMax = .fin g.qmax ∧ d.pPlus = .fin g.pplus ∧ d.pMinus = .fin g.pminus ∧ d.qPlus = .fin g.qplus ∧
    d.qMinus = .fin g.qminus ∧ d.socMin = .fin g.socMin ∧ d.socMax = .fin g.socMax ∧ d.eff = .fin g.eff)
    ⟨fun ⟨a, b, c, e, f, g, h, i, j, k, l⟩ => ⟨a, b, c, e, f, g, h, i, j, k, l⟩,
     fun ⟨a, b, c, e, f, g, h, i, j, k, l⟩ => ⟨a, b, c, e, f, g, h, i, j, k, l⟩⟩

/-- The hypotheses of C13/C15 are met by the demo storage unit, half charged. -/
example : ∃ d rows, mkStorage desRow [0, 2] (.fin 100) = .ok d ∧
    ({ d with soc := some (.fin (1/2)) } : Device ℚ).storageConstraints (.fin (1/4)) = .ok rows ∧
    ∃ q, Feasible rows (.fin 0) (.fin q) := by
  obtain ⟨d, h, hg⟩ : ∃ d, mkStorage desRow [0, 2] (.fin 100) = .ok d ∧ HasDesParams d desG :=
    exOk (by decide +kernel)
  obtain ⟨rows, h1, h2⟩ := C15_storage_feasible_partial (d := { d with soc := some (.fin (1/2)) })
    (dt := 1/4) (soc := 1/2) (rowOk_rowOf _ _ (by decide +kernel)) (by norm_num) h hg rfl rfl
    (by norm_num [desG]) (by norm_num [desG]) (by norm_num) (by norm_num [desG])
  exact ⟨d, rows, h, h1, h2⟩

/-- **C15 is false** for EFF = 0: the accepted storage unit raises `ZeroDivisionError` in `map_pq`,
whatever its state of charge, the solver and the request. -/
theorem C15_counterexample : ∃ d, mkStorage (rowOf headersDev
    [num 3, num 2, num 3, none, num 50, num (-50), num 50, num (-50), num 30, num (-30), num 25,
     num (-25), num 100, num 0, num 0]) [0, 2] (.fin 100) = .ok d ∧
    ∀ (qp : QP ℚ) (soc dt : ℚ) (p q : X ℚ),
      ({ d with soc := some (.fin soc) } : Device ℚ).mapStorage qp p q (.fin dt) =
        .error .zeroDivision := by
  obtain ⟨d, h, hd⟩ : ∃ d, mkStorage (rowOf headersDev
    [num 3, num 2, num 3, none, num 50, num (-50), num 50, num (-50), num 30, num (-30), num 25,
     num (-25), num 100, num 0, num 0]) [0, 2] (.fin 100) = .ok d ∧ (d.eff = .fin 0) :=
    exOk (by decide +kernel)
  refine ⟨d, h, fun qp soc dt p q => ?_⟩
  simp only [Device.mapStorage, Device.storageConstraints, hd, X.pyDiv, bind_error, guardE_error,
    X.fin_mul_fin, mul_zero]
  exact Or.inl (Or.inl (Or.inl ⟨by simp, trivial⟩))

end Anm
