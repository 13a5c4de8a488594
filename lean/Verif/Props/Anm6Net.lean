import Verif.Props.Anm6
import Mathlib.Tactic.NormNum

/-! # The simulator that ANM6 builds, with explicit data -/

set_option linter.unusedSectionVars false

namespace Anm

open Spec

section
variable {K : Type} [Field K] [LinearOrder K] [IsStrictOrderedRing K] [FloorRing K]

theorem toInt_int (z : ℤ) : (X.fin (z : K)).toInt = .ok z := by
  simp only [X.toInt]
  congr 1
  split
  · exact Int.floor_intCast z
  · rw [← Int.cast_neg, Int.floor_intCast, neg_neg]

/-- A cell holding an integer. -/
theorem cellInt_cel {q : ℚ} (z : ℤ) (h : q = z) : cellInt (cel q : Cell K) = .ok z := by
  subst h
  simp only [cel, cellInt, Rat.cast_intCast]
  exact toInt_int z

theorem mkBus_lit {i t : ℤ} {kv vmax vmin : ℚ} (ht : t = 0 ∨ t = 1) (h1 : 0 < kv) (h2 : 0 ≤ vmin) (h3 : vmin ≤ vmax) :
    mkBus (rowOf headersBus [cel i, cel t, cel kv, cel vmax, cel vmin] : BusRow K) =
      .ok { id := i, isSlack := decide (t = 0), baseKV := .fin kv, vMax := .fin vmax, vMin := some (.fin vmin) } := by
  have e0 : cellInt (rowOf headersBus [cel i, cel t, cel kv, cel vmax, cel vmin] BusCol.busId : Cell K) = .ok i :=
    cellInt_cel i rfl
  have e1 : cellInt (rowOf headersBus [cel i, cel t, cel kv, cel vmax, cel vmin] BusCol.busType : Cell K) = .ok t :=
    cellInt_cel t rfl
  have e2 : rowOf headersBus [cel i, cel t, cel kv, cel vmax, cel vmin] BusCol.baseKV = some (X.fin (kv : K)) := rfl
  have e3 : rowOf headersBus [cel i, cel t, cel kv, cel vmax, cel vmin] BusCol.vmax = some (X.fin (vmax : K)) := rfl
  have e4 : rowOf headersBus [cel i, cel t, cel kv, cel vmax, cel vmin] BusCol.vmin = some (X.fin (vmin : K)) := rfl
  have k1 : (0:K) < kv := by exact_mod_cast h1
  have k2 : (0:K) ≤ vmin := by exact_mod_cast h2
  have k3 : (vmin:K) ≤ vmax := by exact_mod_cast h3
  unfold mkBus
  simp [e0, e1, e2, e3, e4, ht, readCell, guardE, Bind.bind, Except.bind, pure, Except.pure, X.zero_def, k1, k2, k3, k1.not_ge, k2.not_gt, k3.not_gt, (k2.trans k3).not_gt]

theorem cellEqB_cel (a b : ℚ) : cellEqB (cel a : Cell K) (cel b) = decide (a = b) := by
  simp [cellEqB, cellEq, cel, X.feq]

theorem cellEqB_cel_zero (a : ℚ) : cellEqB (cel a : Cell K) (some (.fin 0)) = decide (a = 0) := by
  simp [cellEqB, cellEq, cel, X.feq]

theorem cellEq_cel (a b : ℚ) : cellEq (cel a : Cell K) (cel b) ↔ a = b := by
  simp [cellEq, cel, X.feq]

theorem anm6_check : checkNetwork (anm6Net : Network K) = .ok () := by
  simp [checkNetwork, anm6Net, Network.ofLists, cellEqB_cel_zero, List.filter_cons, rowOf, headersBus, headersDev, headersBranch, List.idxOf_cons, cellEqB_cel,
    cellEq_cel, guardE, Bind.bind, Except.bind, pure, Except.pure, X.zero_def, pySet, pySetAdd, setBranches, pairEqB]

/-- The buses of ANM6. -/
def anm6Bus (i : ℤ) : Bus K :=
  if i = 0 then { id := 0, isSlack := true, baseKV := .fin 132, vMax := .fin 1, vMin := some (.fin 1) }
  else { id := i, isSlack := false, baseKV := .fin 33, vMax := .fin (11/10), vMin := some (.fin (9/10)) }

theorem anm6_buses : mapE mkBus (anm6Net : Network K).bus = .ok ([0, 1, 2, 3, 4, 5].map anm6Bus) := by
  have h0 := mkBus_lit (K := K) (i := 0) (t := 0) (kv := 132) (vmax := 1) (vmin := 1) (by simp) (by norm_num) (by norm_num) (by norm_num)
  have h (i : ℤ) := mkBus_lit (K := K) (i := i) (t := 1) (kv := 33) (vmax := 11/10) (vmin := 9/10) (by simp) (by norm_num) (by norm_num) (by norm_num)
  have h1 := h 1
  have h2 := h 2
  have h3 := h 3
  have h4 := h 4
  have h5 := h 5
  push_cast at h0 h1 h2 h3 h4 h5
  simp [anm6Net, Network.ofLists, mapE, h0, h1, h2, h3, h4, h5, Bind.bind, Except.bind, pure, Except.pure, anm6Bus]

theorem endpoint_lit {ids : List ℤ} {e : PyErr} (z : ℤ) (h : z ∈ ids) : endpoint (cel z : Cell K) ids e = .ok z := by
  simp only [endpoint, cel, Rat.cast_intCast]
  have : inIds (X.fin (z : K)) ids := ⟨z, h, by simp [X.feq]⟩
  simp only [guardE, this, if_true, Bind.bind, Except.bind, pure, Except.pure]
  exact toInt_int z

theorem mkLine_lit {ids : List ℤ} {f t : ℤ} {r x rate : ℚ} (hf : f ∈ ids) (ht : t ∈ ids) (hr : 0 ≤ r) (hx : 0 < x)
    (h3 : 0 ≤ rate) :
    mkLine (rowOf headersBranch [cel f, cel t, cel r, cel x, cel 0, cel rate, cel 1, cel 0] : BranchRow K) (.fin 100) ids =
      .ok { fBus := f, tBus := t, r := .fin r, x := .fin x, b := .fin 0, rate := .fin (rate / 100), tapMagn := .fin 1,
            shiftDeg := .fin 0 } := by
  have e0 : endpoint (rowOf headersBranch [cel f, cel t, cel r, cel x, cel 0, cel rate, cel 1, cel 0] BranchCol.fBus : Cell K) ids .branchSpecError = .ok f :=
    endpoint_lit f hf
  have e1 : endpoint (rowOf headersBranch [cel f, cel t, cel r, cel x, cel 0, cel rate, cel 1, cel 0] BranchCol.tBus : Cell K) ids .branchSpecError = .ok t :=
    endpoint_lit t ht
  have e2 : rowOf headersBranch [cel f, cel t, cel r, cel x, cel 0, cel rate, cel 1, cel 0] BranchCol.r = some (X.fin (r : K)) := rfl
  have e3 : rowOf headersBranch [cel f, cel t, cel r, cel x, cel 0, cel rate, cel 1, cel 0] BranchCol.x = some (X.fin (x : K)) := rfl
  have e4 : rowOf headersBranch [cel f, cel t, cel r, cel x, cel 0, cel rate, cel 1, cel 0] BranchCol.b = some (X.fin ((0:ℚ) : K)) := rfl
  have e5 : rowOf headersBranch [cel f, cel t, cel r, cel x, cel 0, cel rate, cel 1, cel 0] BranchCol.rate = some (X.fin (rate : K)) := rfl
  have e6 : rowOf headersBranch [cel f, cel t, cel r, cel x, cel 0, cel rate, cel 1, cel 0] BranchCol.tap = some (X.fin ((1:ℚ) : K)) := rfl
  have e7 : rowOf headersBranch [cel f, cel t, cel r, cel x, cel 0, cel rate, cel 1, cel 0] BranchCol.shift = some (X.fin ((0:ℚ) : K)) := rfl
  have k1 : (0:K) ≤ r := by exact_mod_cast hr
  have k2 : (0:K) < x := by exact_mod_cast hx
  have k3 : (0:K) ≤ rate := by exact_mod_cast h3
  have k4 : (0:K) < 100 := by norm_num
  have k5 : ¬ (360:K) < 0 := by norm_num
  have k6 : ¬ (1:K) ≤ 0 := by norm_num
  have k7 : x ≠ 0 := hx.ne'
  unfold mkLine
  simp [e0, e1, e2, e3, e4, e5, e6, e7, readCell, guardE, Bind.bind, Except.bind, pure, Except.pure, X.zero_def, k1.not_gt, k2.not_gt,
    k2.le.not_gt, k3.not_gt, X.fin_div_fin k4.ne', k4.not_gt, k5, k6, k2.ne', k7, X.feq]

/-- The lines of ANM6. -/
def anm6Lines : List (Line K) :=
  [⟨0, 1, .fin (36/10000), .fin (1834/10000), .fin 0, .fin (32/100), .fin 1, .fin 0⟩,
   ⟨1, 2, .fin (3/100), .fin (22/1000), .fin 0, .fin (25/100), .fin 1, .fin 0⟩,
   ⟨1, 3, .fin (307/10000), .fin (621/10000), .fin 0, .fin (18/100), .fin 1, .fin 0⟩,
   ⟨2, 4, .fin (303/10000), .fin (611/10000), .fin 0, .fin (18/100), .fin 1, .fin 0⟩,
   ⟨2, 5, .fin (159/10000), .fin (502/10000), .fin 0, .fin (18/100), .fin 1, .fin 0⟩]

theorem anm6_lines : mapE (fun r => mkLine r (.fin 100) [0, 1, 2, 3, 4, 5]) (anm6Net : Network K).branch = .ok anm6Lines := by
  have h1 := mkLine_lit (K := K) (ids := [0, 1, 2, 3, 4, 5]) (f := 0) (t := 1) (r := 36/10000) (x := 1834/10000) (rate := 32) (by simp) (by simp) (by norm_num) (by norm_num) (by norm_num)
  have h2 := mkLine_lit (K := K) (ids := [0, 1, 2, 3, 4, 5]) (f := 1) (t := 2) (r := 3/100) (x := 22/1000) (rate := 25) (by simp) (by simp) (by norm_num) (by norm_num) (by norm_num)
  have h3 := mkLine_lit (K := K) (ids := [0, 1, 2, 3, 4, 5]) (f := 1) (t := 3) (r := 307/10000) (x := 621/10000) (rate := 18) (by simp) (by simp) (by norm_num) (by norm_num) (by norm_num)
  have h4 := mkLine_lit (K := K) (ids := [0, 1, 2, 3, 4, 5]) (f := 2) (t := 4) (r := 303/10000) (x := 611/10000) (rate := 18) (by simp) (by simp) (by norm_num) (by norm_num) (by norm_num)
  have h5 := mkLine_lit (K := K) (ids := [0, 1, 2, 3, 4, 5]) (f := 2) (t := 5) (r := 159/10000) (x := 502/10000) (rate := 18) (by simp) (by simp) (by norm_num) (by norm_num) (by norm_num)
  push_cast at h1 h2 h3 h4 h5
  simp only [anm6Net, Network.ofLists, List.map_cons, List.map_nil, mapE, h1, h2, h3, h4, h5, Bind.bind, Except.bind, pure, Except.pure, anm6Lines]

/-- The devices of ANM6. -/
def anm6Slack : Device K :=
  { id := 0, busId := 0, kind := .classical, isSlack := true, pMin := .fin (-2), pMax := .fin 2, qMin := .fin (-2),
    qMax := .fin 2, pPlus := .fin 2, qPlus := .fin 2, qMinus := .fin (-2), tau1 := .fin 0, tau2 := .fin 0,
    rho1 := .fin 2, rho2 := .fin (-2), pPot := .fin 2 }
/-- A load of ANM6. -/
def anm6Load (i b : ℤ) (p : K) : Device K :=
  { id := i, busId := b, kind := .load, isSlack := false, qpRatio := .fin (1/5), pMin := .fin p, pMax := .fin 0,
    qMin := .fin (p / 5), qMax := .fin 0 }
/-- A generator of ANM6. -/
def anm6Gen (i b : ℤ) (p pp qp tau rho : K) : Device K :=
  { id := i, busId := b, kind := .renewable, isSlack := false, pMin := .fin 0, pMax := .fin p, qMin := .fin (-p),
    qMax := .fin p, pPlus := .fin pp, qPlus := .fin qp, qMinus := .fin (-qp), tau1 := .fin (-tau), tau2 := .fin tau,
    rho1 := .fin rho, rho2 := .fin (-rho), pPot := .fin p }
/-- The storage unit of ANM6. -/
def anm6Des : Device K :=
  { id := 6, busId := 5, kind := .storage, isSlack := false, pMin := .fin (-1/2), pMax := .fin (1/2), qMin := .fin (-1/2),
    qMax := .fin (1/2), pPlus := .fin (3/10), pMinus := .fin (-3/10), qPlus := .fin (1/4), qMinus := .fin (-1/4),
    tau1 := .fin (-5/4), tau2 := .fin (5/4), tau3 := .fin (-5/4), tau4 := .fin (5/4), rho1 := .fin (7/8),
    rho2 := .fin (-7/8), rho3 := .fin (-7/8), rho4 := .fin (7/8), socMin := .fin 0, socMax := .fin 1, eff := .fin (9/10) }

/-- The devices of ANM6, sorted by ID. -/
def anm6Devices : List (Device K) :=
  [anm6Slack, anm6Load 1 3 (-1/10), anm6Gen 2 3 (3/10) (1/5) (3/20) (3/2) (3/5), anm6Load 3 4 (-3/10),
   anm6Gen 4 4 (1/2) (7/20) (1/5) 2 (6/5), anm6Load 5 5 (-3/10), anm6Des]

/-- A row of the device array. -/
def devRow (a1 a2 a3 a4 a5 a6 a7 a8 a9 a10 a11 a12 a13 a14 a15 : Cell K) : DevRow K
  | .devId => a1 | .busId => a2 | .devType => a3 | .qp => a4 | .pmax => a5 | .pmin => a6 | .qmax => a7 | .qmin => a8
  | .pPlus => a9 | .pMinus => a10 | .qPlus => a11 | .qMinus => a12 | .socMax => a13 | .socMin => a14 | .eff => a15

theorem rowOf_dev (a1 a2 a3 a4 a5 a6 a7 a8 a9 a10 a11 a12 a13 a14 a15 : Cell K) :
    rowOf headersDev [a1, a2, a3, a4, a5, a6, a7, a8, a9, a10, a11, a12, a13, a14, a15] =
      devRow a1 a2 a3 a4 a5 a6 a7 a8 a9 a10 a11 a12 a13 a14 a15 := by
  funext c
  cases c <;> rfl

theorem deviceCommon_lit {row : DevRow K} {ids : List ℤ} {i b t : ℤ} (hi : row .devId = cel i) (hb : row .busId = cel b)
    (ht : row .devType = cel t) (hm : b ∈ ids) (hk : t ∈ ([-1, 0, 1, 2, 3] : List ℤ)) :
    deviceCommon row ids = .ok (i, b, decide (t = 0)) := by
  have e := endpoint_lit (K := K) (e := .deviceSpecError) b hm
  have f : inIds (X.fin (t : K)) [-1, 0, 1, 2, 3] := ⟨t, hk, by simp [X.feq]⟩
  unfold deviceCommon
  rw [hi, hb, ht, e]
  simp only [readCell, cel, Rat.cast_intCast, guardE, Bind.bind, Except.bind, pure, Except.pure, toInt_int, f, not_true_eq_false,
    not_false_eq_true, if_true, _root_.id]
  simp [X.feq, X.zero_def]

theorem mkDevice_load {ids : List ℤ} {i b : ℤ} (p : ℚ) (hm : b ∈ ids) (hp : p ≤ 0) :
    mkDevice (rowOf headersDev [cel i, cel b, cel (-1), cel (2/10), cel 0, cel p, none, none, none, none, none, none, none,
      none, none] : DevRow K) ids (.fin 100) = .ok (anm6Load i b (p / 100)) := by
  rw [rowOf_dev]
  have hc := deviceCommon_lit (K := K) (i := i) (b := b) (t := -1) (row := devRow (cel i) (cel b) (cel (-1)) (cel (2/10)) (cel 0)
    (cel p) none none none none none none none none none) rfl rfl (by simp [devRow]) hm (by simp)
  have e1 := cellInt_cel (K := K) (q := -1) (-1) (by norm_num)
  have k : (p : K) / 100 ≤ 0 := div_nonpos_of_nonpos_of_nonneg (by exact_mod_cast hp) (by norm_num)
  simp only [mkDevice, mkLoad, hc, devRow, e1, Bind.bind, Except.bind]
  norm_num [cel, readCell, guardE, Bind.bind, Except.bind, pure, Except.pure, X.zero_def, X.feq, X.fin_div_fin, toPu, cellEq,
    anm6Load, k.not_gt]
  ring

theorem mkDevice_gen {i b : ℤ} (p pp qp : ℚ) (tau rho : K) (hm : b ∈ [0, 1, 2, 3, 4, 5]) (hp : 0 ≤ pp) (hpp : pp < p)
    (hq : 0 ≤ qp) (hqp : qp ≤ p) (ht : tau = (p - qp) / (p - pp)) (hr : rho = p / 100 + tau * (pp / 100)) :
    mkDevice (rowOf headersDev [cel i, cel b, cel 2, none, cel p, cel 0, cel p, cel (-p), cel pp, none, cel qp, cel (-qp),
      none, none, none] : DevRow K) [0, 1, 2, 3, 4, 5] (.fin 100) =
      .ok (anm6Gen i b (p / 100) (pp / 100) (qp / 100) tau rho) := by
  rw [rowOf_dev]
  have hc := deviceCommon_lit (K := K) (i := i) (b := b) (t := 2) (row := devRow (cel i) (cel b) (cel 2) none (cel p) (cel 0)
    (cel p) (cel (-p)) (cel pp) none (cel qp) (cel (-qp)) none none none) rfl rfl (by simp [devRow]) hm (by simp)
  have e1 := cellInt_cel (K := K) (q := 2) 2 (by norm_num)
  have k0 : (0:K) ≤ pp := by exact_mod_cast hp
  have k1 : (pp:K) < p := by exact_mod_cast hpp
  have k2 : (0:K) ≤ qp := by exact_mod_cast hq
  have k3 : (qp:K) ≤ p := by exact_mod_cast hqp
  have k4 : (0:K) < 100 := by norm_num
  have l0 : ¬ (p:K) < 0 := (k2.trans k3).not_gt
  have l1 : ¬ (p:K) / 100 < 0 := (div_nonneg (k2.trans k3) k4.le).not_gt
  have l2 : ¬ (p:K) / 100 < -(p / 100) := by have := div_nonneg (k2.trans k3) k4.le; exact (by linarith : -((p:K) / 100) ≤ p / 100).not_gt
  have l3 : ¬ (pp:K) / 100 < 0 := (div_nonneg k0 k4.le).not_gt
  have l4 : ¬ (p:K) / 100 < pp / 100 := (div_le_div_of_nonneg_right k1.le k4.le).not_gt
  have l5 : ¬ (p:K) / 100 < qp / 100 := (div_le_div_of_nonneg_right k3 k4.le).not_gt
  have l6 : ¬ (qp:K) / 100 < -(qp / 100) := by have := div_nonneg k2 k4.le; exact (by linarith : -((qp:K) / 100) ≤ qp / 100).not_gt
  have l7 : (p:K) - pp ≠ 0 := by linarith
  have l8 : p ≠ pp := hpp.ne'
  have l9 : (p:K) / 100 - pp / 100 ≠ 0 := by rw [← sub_div]; exact div_ne_zero l7 k4.ne'
  have l10 : (0:K) ≤ p / 100 := le_of_not_gt l1
  have w1 : ((qp:K) / 100 - p / 100) / (p / 100 - pp / 100) = -tau := by rw [ht]; field_simp; ring
  have w2 : (-((qp:K) / 100) + p / 100) / (p / 100 - pp / 100) = tau := by rw [ht]; field_simp; ring
  have z : ∀ a : K, (X.fin a < 0) ↔ a < 0 := fun a => by rw [X.zero_def, X.fin_lt_fin]
  have hclip : X.clip (X.fin ((p:K) / 100)) (.fin 0) (.fin (p / 100)) = .fin (p / 100) := by
    simp [X.clip, X.maximum, X.minimum, l10]
  simp only [mkDevice, mkGen, hc, devRow, e1, Bind.bind, Except.bind]
  simp only [readCell, guardE, cel]
  norm_num [z, hclip, cel, readCell, guardE, Bind.bind, Except.bind, pure, Except.pure, X.zero_def, X.feq, X.fin_div_fin, toPu, cellEq,
    anm6Gen, neg_div, l0, l1, l2, l3, l4, l5, l6, l8, l9, w1, w2, hr]
  ring

theorem mkDevice_slack {ids : List ℤ} (hm : 0 ∈ ids) :
    mkDevice (rowOf headersDev [cel 0, cel 0, cel 0, none, cel 200, cel (-200), cel 200, cel (-200), none, none, none, none,
      none, none, none] : DevRow K) ids (.fin 100) = .ok anm6Slack := by
  rw [rowOf_dev]
  have hc := deviceCommon_lit (K := K) (ids := ids) (i := 0) (b := 0) (t := 0) (row := devRow (cel 0) (cel 0) (cel 0) none (cel 200) (cel (-200))
    (cel 200) (cel (-200)) none none none none none none none) (by simp [devRow]) (by simp [devRow]) (by simp [devRow]) hm (by simp)
  have e1 := cellInt_cel (K := K) (q := 0) 0 (by norm_num)
  have hclip : X.clip (X.fin (2 : K)) (.fin (-2)) (.fin 2) = .fin 2 := by
    have : (-2 : K) ≤ 2 := by norm_num
    simp [X.clip, X.maximum, X.minimum, this]
  simp only [mkDevice, mkGen, hc, devRow, e1, Bind.bind, Except.bind]
  simp only [readCell, guardE, cel]
  norm_num [hclip, cel, readCell, guardE, Bind.bind, Except.bind, pure, Except.pure, X.zero_def, X.feq, X.fin_div_fin, toPu, cellEq,
    anm6Slack]
  simp [X.zero_def]

theorem mkDevice_des :
    mkDevice (rowOf headersDev [cel 6, cel 5, cel 3, none, cel 50, cel (-50), cel 50, cel (-50), cel 30, cel (-30), cel 25,
      cel (-25), cel 100, cel 0, cel (9/10)] : DevRow K) [0, 1, 2, 3, 4, 5] (.fin 100) = .ok anm6Des := by
  rw [rowOf_dev]
  have hc := deviceCommon_lit (K := K) (ids := [0, 1, 2, 3, 4, 5]) (i := 6) (b := 5) (t := 3) (row := devRow (cel 6) (cel 5) (cel 3) none (cel 50) (cel (-50))
    (cel 50) (cel (-50)) (cel 30) (cel (-30)) (cel 25) (cel (-25)) (cel 100) (cel 0) (cel (9/10))) (by simp [devRow]) (by simp [devRow]) (by simp [devRow]) (by simp) (by simp)
  have e1 := cellInt_cel (K := K) (q := 3) 3 (by norm_num)
  have z : ∀ a : K, (X.fin a < 0) ↔ a < 0 := fun a => by rw [X.zero_def, X.fin_lt_fin]
  simp only [mkDevice, mkStorage, hc, devRow, e1, Bind.bind, Except.bind]
  simp only [readCell, guardE, cel]
  norm_num [z, cel, readCell, guardE, Bind.bind, Except.bind, pure, Except.pure, X.zero_def, X.feq, X.fin_div_fin, toPu, cellEq,
    anm6Des]

theorem anm6_devices : mapE (fun r => mkDevice r [0, 1, 2, 3, 4, 5] (.fin 100)) (anm6Net : Network K).device =
    .ok anm6Devices := by
  have h0 := mkDevice_slack (K := K) (ids := [0, 1, 2, 3, 4, 5]) (by simp)
  have h1 := mkDevice_load (K := K) (ids := [0, 1, 2, 3, 4, 5]) (i := 1) (b := 3) (-10) (by simp) (by norm_num)
  have h3 := mkDevice_load (K := K) (ids := [0, 1, 2, 3, 4, 5]) (i := 3) (b := 4) (-30) (by simp) (by norm_num)
  have h5 := mkDevice_load (K := K) (ids := [0, 1, 2, 3, 4, 5]) (i := 5) (b := 5) (-30) (by simp) (by norm_num)
  have h2 := mkDevice_gen (K := K) (i := 2) (b := 3) 30 20 15 (3/2) (3/5) (by simp) (by norm_num) (by norm_num) (by norm_num)
    (by norm_num) (by norm_num) (by norm_num)
  have h4 := mkDevice_gen (K := K) (i := 4) (b := 4) 50 35 20 2 (6/5) (by simp) (by norm_num) (by norm_num) (by norm_num)
    (by norm_num) (by norm_num) (by norm_num)
  push_cast at h1 h2 h3 h4 h5
  have n1 : (-10 / 100 : K) = -1 / 10 := by norm_num
  have n2 : (-30 / 100 : K) = -3 / 10 := by norm_num
  have n3 : (30 / 100 : K) = 3 / 10 := by norm_num
  have n4 : (20 / 100 : K) = 1 / 5 := by norm_num
  have n5 : (15 / 100 : K) = 3 / 20 := by norm_num
  have n6 : (50 / 100 : K) = 1 / 2 := by norm_num
  have n7 : (35 / 100 : K) = 7 / 20 := by norm_num
  rw [n1] at h1
  rw [n2] at h3 h5
  rw [n3, n4, n5] at h2
  rw [n6, n7, n4] at h4
  simp only [anm6Net, Network.ofLists, List.map_cons, List.map_nil, mapE, h1, h2, h3, h4, h5, h0, mkDevice_des,
    Bind.bind, Except.bind, pure, Except.pure, anm6Devices]

/-- The simulator of ANM6. -/
def anm6Sim (dt lam : X K) : Sim K :=
  { baseMVA := .fin 100, deltaT := dt, lamb := lam, buses := ([0, 1, 2, 3, 4, 5].map anm6Bus).map (busBounds anm6Devices),
    branches := anm6Lines.map (fun l => { line := l }), devices := anm6Devices }

/-- Building the simulator of ANM6 raises no exception. -/
theorem anm6_mk (dt lam : X K) : mkSim anm6Net dt lam = .ok (anm6Sim dt lam) := by
  have hb : (anm6Net (K := K)).baseMVA = .fin 100 := rfl
  have hids : ((sortDict (dictOf Bus.id ([0, 1, 2, 3, 4, 5].map (anm6Bus (K := K))))).map (·.2)) =
      [0, 1, 2, 3, 4, 5].map (anm6Bus (K := K)) := rfl
  have hids' : ([0, 1, 2, 3, 4, 5].map (anm6Bus (K := K))).map Bus.id = [0, 1, 2, 3, 4, 5] := rfl
  have hd : ((sortDict (dictOf Device.id (anm6Devices (K := K)))).map (·.2)) = anm6Devices := rfl
  have hl : ((dictOf (fun l : Line K => (l.fBus, l.tBus)) anm6Lines).map (·.2)) = anm6Lines := rfl
  simp only [mkSim, loadCase, anm6_check, anm6_buses, hids, hids', hb, anm6_lines, anm6_devices, hd, hl, Bind.bind, Except.bind,
    pure, Except.pure]
  rfl

end
end Anm
