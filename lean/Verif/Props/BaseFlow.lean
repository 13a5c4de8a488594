import Verif.Props.BaseUnits
import Verif.Props.Newton

/-! # C133: the load flow in another unit

The equations of the network do not depend on the base power, and neither do the iterates of Newton's method.  Only the tolerance at
which the iteration stops is a number in per-unit. -/

set_option linter.unusedSectionVars false

namespace Anm

open Spec Complex ComplexConjugate

noncomputable section

/-- `solveFinite` with another tolerance. -/
def solveTol (tol : ℝ) (o : LFOracle) (inp : PFIn ℝ) (m : ℕ) (pq : Fin m → X ℝ × X ℝ) (ls : List LineC) : PFOut ℝ :=
  let s := NR.run o (ymat m ls) (fun k => (pq k).1) (fun k => (pq k).2) tol
  match s.guess with
  | some g => outOf ls (NR.volt g) (NR.stable tol s)
  | none => { o.garbage inp with v := fun k => if k = 0 then .ofC 1 else (o.garbage inp).v k, stable := NR.stable tol s }

open Classical in
def tolCore (tol : ℝ) (o : LFOracle) (inp : PFIn ℝ) (ids : List ℤ) (n : ℕ) (pq : List (X ℝ × X ℝ)) (ls : Option (List LineC)) : Except PyErr (PFOut ℝ) :=
  if ids.foldl max (ids.headD 0) + 1 ≠ (n : ℤ) then .error .valueError
  else if ids ≠ (List.range n).map Int.ofNat then o.other inp
  else if n ≤ 1 then .error .valueError
  else
    match ls with
    | none => o.other inp
    | some ls =>
      if h : pq.length = n - 1 then .ok (solveTol tol o inp (n - 1) (fun k => pq.get (k.cast h.symm)) ls)
      else o.other inp

/-- `realPF` with another tolerance (`solve_pfe_newton_raphson(simulator, xtol=...)`, `solve_load_flow.py:7`). -/
def tolPF (tol : ℝ) (o : LFOracle) : PF ℝ := fun inp =>
  tolCore tol o inp (inp.buses.map (·.1)) inp.buses.length ((inp.buses.filter (fun b => !b.2.1)).map (fun b => (b.2.2.1, b.2.2.2))) (mapO Line.finite? inp.lines)

/-- The code uses the tolerance 10⁻⁵, whatever the base power. -/
theorem tolPF_real : tolPF xtol = realPF := rfl

namespace Spec

/-- The external code of the two load flows does the same in its units; the linear systems differ by a factor, not in their solutions. -/
structure OracleUnits (k : ℝ) (o o' : LFOracle) : Prop where
  solve : ∀ m J F, o'.spsolve m (J.map fun M => k • M) (fun a => (F a).sc k) = o.spsolve m J F
  blowup : o'.blowup = o.blowup
  garbage : ∀ i, o'.garbage (i.sc k) = (o.garbage i).sc k
  other : ∀ i, o'.other (i.sc k) = (o.other i).map (PFOut.sc k)

end Spec

/-- The line for the other base power. -/
def LineC.sc (k : ℝ) (l : LineC) : LineC := { l with r := l.r * k⁻¹, x := l.x * k⁻¹, b := l.b * k }

section
variable {k : ℝ} (hk : 0 < k)
include hk

theorem finite_sc (l : Line ℝ) : (l.sc k).finite? = l.finite?.map (LineC.sc k) := by
  obtain ⟨f, t, r, x, b, rate, tap, sh⟩ := l
  unfold Line.finite? Line.sc
  cases r <;> try rfl
  cases x <;> try rfl
  cases b <;> try rfl
  cases tap <;> try rfl
  cases sh <;> rfl

theorem mapO_sc (l : List (Line ℝ)) : mapO Line.finite? (l.map (Line.sc k)) = (mapO Line.finite? l).map (List.map (LineC.sc k)) := by
  induction l with
  | nil => rfl
  | cons a l ih =>
    rw [List.map_cons, mapO, mapO, ih, finite_sc hk]
    cases a.finite? with
    | none => rfl
    | some b => cases mapO Line.finite? l <;> rfl

variable (l : LineC)

theorem series_sc : (l.sc k).series = k * l.series := by
  unfold LineC.series LineC.sc
  have h : (k : ℂ) ≠ 0 := by exact_mod_cast hk.ne'
  simp only [ofReal_mul, ofReal_inv]
  rw [show (l.r : ℂ) * (k : ℂ)⁻¹ + I * (l.x * (k : ℂ)⁻¹) = (l.r + I * l.x) * (k : ℂ)⁻¹ by ring, one_div, one_div, mul_inv, inv_inv, mul_comm]

theorem shunt_sc : (l.sc k).shunt = k * l.shunt := by
  unfold LineC.shunt LineC.sc
  simp only [ofReal_mul]
  ring

theorem iFrom_sc (vf vt : ℂ) : (l.sc k).iFrom vf vt = k * l.iFrom vf vt := by
  unfold LineC.iFrom
  rw [series_sc hk, shunt_sc hk, show (l.sc k).tap = l.tap from rfl]
  ring

theorem iTo_sc (vf vt : ℂ) : (l.sc k).iTo vf vt = k * l.iTo vf vt := by
  unfold LineC.iTo
  rw [series_sc hk, shunt_sc hk, show (l.sc k).tap = l.tap from rfl]
  ring

theorem sFrom_sc (vf vt : ℂ) : (l.sc k).sFrom vf vt = k * l.sFrom vf vt := by
  unfold LineC.sFrom
  rw [iFrom_sc hk, map_mul, conj_ofReal]
  ring

theorem sTo_sc (vf vt : ℂ) : (l.sc k).sTo vf vt = k * l.sTo vf vt := by
  unfold LineC.sTo
  rw [iTo_sc hk, map_mul, conj_ofReal]
  ring

theorem ofC_sc (z : ℂ) : Phasor.ofC (k * z) = (Phasor.ofC z).sc k := by
  unfold Phasor.ofC Phasor.sc
  simp only [X.sc_fin, re_ofReal_mul, im_ofReal_mul, norm_mul, Complex.norm_real, Real.norm_eq_abs, abs_of_pos hk, Complex.arg_real_mul _ hk, mul_comm k]

theorem sign_sc (x : ℝ) : X.sign (.fin (x * k)) = X.sign (.fin x : X ℝ) := by
  unfold X.sign
  simp only [mul_pos_iff_of_pos_right hk, X.neg_sc hk]

theorem sApparent_sc (vf vt : ℂ) : (l.sc k).sApparentMax vf vt = (l.sApparentMax vf vt).sc k := by
  unfold LineC.sApparentMax
  rw [sFrom_sc hk, sTo_sc hk, re_ofReal_mul, mul_comm k, sign_sc hk, ← X.mul_sc hk, ← X.sc_maximum hk]
  simp only [norm_mul, Complex.norm_real, Real.norm_eq_abs, abs_of_pos hk, X.sc_fin, mul_comm k]

theorem flow_sc (vf vt : ℂ) : (l.sc k).flow vf vt = (l.flow vf vt).sc k := by
  unfold LineC.flow Flow.sc
  simp only [sApparent_sc hk, iFrom_sc hk, iTo_sc hk, sFrom_sc hk, sTo_sc hk, ofC_sc hk, re_ofReal_mul, im_ofReal_mul, X.sc_fin, mul_comm k]

theorem ybus_sc (ls : List LineC) (i j : ℤ) : ybus (ls.map (LineC.sc k)) i j = k * ybus ls i j := by
  unfold ybus
  have step : ∀ (Y Y' : ℤ → ℤ → ℂ) (l : LineC), (∀ i j, Y' i j = k * Y i j) → ∀ i j, ybusStep Y' (l.sc k) i j = k * ybusStep Y l i j := by
    intro Y Y' l h i j
    unfold ybusStep setAt
    rw [series_sc hk, shunt_sc hk, show (l.sc k).tap = l.tap from rfl, show (l.sc k).fBus = l.fBus from rfl, show (l.sc k).tBus = l.tBus from rfl]
    simp only [h]
    split_ifs <;> ring
  have fold : ∀ (ls : List LineC) (Y Y' : ℤ → ℤ → ℂ), (∀ i j, Y' i j = k * Y i j) → ∀ i j, (ls.map (LineC.sc k)).foldl ybusStep Y' i j = k * ls.foldl ybusStep Y i j := by
    intro ls
    induction ls with
    | nil => intro Y Y' h; exact h
    | cons l ls ih =>
      intro Y Y' h
      rw [List.map_cons, List.foldl_cons, List.foldl_cons]
      exact ih _ _ (step Y Y' l h)
  exact fold ls _ _ (fun i j => by simp) i j

theorem ymat_sc (m : ℕ) (ls : List LineC) : ymat m (ls.map (LineC.sc k)) = (k : ℂ) • ymat m ls := by
  funext i j
  exact ybus_sc hk ls _ _

variable {m : ℕ} (Y : Matrix (Fin (m + 1)) (Fin (m + 1)) ℂ)

theorem curr_sc (v : Fin (m + 1) → ℂ) (i : Fin (m + 1)) : NR.curr ((k : ℂ) • Y) v i = k * NR.curr Y v i := by
  unfold NR.curr
  rw [Finset.mul_sum]
  refine Finset.sum_congr rfl fun j _ => ?_
  simp only [Matrix.smul_apply, smul_eq_mul]
  ring

theorem power_sc (g : Guess m) (i : Fin m) : NR.power ((k : ℂ) • Y) g i = k * NR.power Y g i := by
  unfold NR.power
  rw [curr_sc hk, map_mul, conj_ofReal]
  ring

theorem f_sc (p q : Fin m → X ℝ) (g : Guess m) (a : Ix m) :
    NR.f ((k : ℂ) • Y) (fun i => (p i).sc k) (fun i => (q i).sc k) g a = (NR.f Y p q g a).sc k := by
  cases a <;> simp only [NR.f, power_sc hk, re_ofReal_mul, im_ofReal_mul, X.sc_sub, X.sc_add, X.mul_sc hk, X.sc_fin, mul_comm k]

theorem dfdx_sc (g : Guess m) : NR.dfdx ((k : ℂ) • Y) g = k • NR.dfdx Y g := by
  have d : ∀ v i j, NR.iDiag ((k : ℂ) • Y) v i j = k * NR.iDiag Y v i j := by
    intro v i j
    unfold NR.iDiag
    rw [curr_sc hk]
    split <;> simp
  have a : ∀ v i j, NR.dSdVa ((k : ℂ) • Y) v i j = k * NR.dSdVa Y v i j := by
    intro v i j
    unfold NR.dSdVa
    rw [d, Matrix.smul_apply, smul_eq_mul, show (k : ℂ) * NR.iDiag Y v i j - k * Y i j * v j = k * (NR.iDiag Y v i j - Y i j * v j) by ring, map_mul, conj_ofReal]
    ring
  have b : ∀ v i j, NR.dSdVm ((k : ℂ) • Y) v i j = k * NR.dSdVm Y v i j := by
    intro v i j
    unfold NR.dSdVm
    rw [d, Matrix.smul_apply, smul_eq_mul, map_mul, conj_ofReal, mul_assoc, map_mul, conj_ofReal]
    ring
  funext i j
  cases i <;> cases j <;> simp only [NR.dfdx, Matrix.smul_apply, a, b, re_ofReal_mul, im_ofReal_mul, smul_eq_mul]

theorem jac_sc (g : Guess m) : NR.jac ((k : ℂ) • Y) g = (NR.jac Y g).map fun M => k • M := by
  unfold NR.jac
  rw [dfdx_sc hk]
  split <;> rfl

theorem norm_sc (F : Ix m → X ℝ) : NR.norm (fun a => (F a).sc k) = (NR.norm F).sc k := by
  unfold NR.norm
  have fold : ∀ (l : List (X ℝ)) (a : X ℝ), (l.map (X.sc k)).foldl (fun a x => X.maximum a (X.abs x)) (a.sc k) = (l.foldl (fun a x => X.maximum a (X.abs x)) a).sc k := by
    intro l
    induction l with
    | nil => intro a; rfl
    | cons x l ih =>
      intro a
      rw [List.map_cons, List.foldl_cons, List.foldl_cons, X.sc_abs hk, X.sc_maximum hk, ih]
  have := fold (List.ofFn (fun j => F (.inl j)) ++ List.ofFn (fun j => F (.inr j))) 0
  rw [X.sc_zero, List.map_append, List.map_ofFn, List.map_ofFn] at this
  exact this

variable {o o' : LFOracle} (ho : OracleUnits k o o') (p q : Fin m → X ℝ)

/-- The variables of the loop in the other unit: the same number of iterations, the same guess, the residual in the other unit. -/
def stSc (k : ℝ) (s : NR.St m) : NR.St m := { s with F := fun a => (s.F a).sc k }

include ho in
theorem body_sc (s : NR.St m) :
    NR.body o' ((k : ℂ) • Y) (fun i => (p i).sc k) (fun i => (q i).sc k) (stSc k s) = stSc k (NR.body o Y p q s) := by
  have hn : NR.next o' ((k : ℂ) • Y) s.guess (fun a => (s.F a).sc k) = NR.next o Y s.guess s.F := by
    unfold NR.next
    cases s.guess with
    | none => rfl
    | some g => simp only [jac_sc hk, ho.solve]
  unfold NR.body stSc
  simp only [hn]
  congr 1
  funext a
  cases NR.next o Y s.guess s.F with
  | none =>
    show (if o'.blowup _ then X.pinf else X.nan) = X.sc k (if o.blowup _ then X.pinf else X.nan)
    rw [ho.blowup]
    split <;> rfl
  | some g => exact f_sc hk Y p q g a

include ho in
/-- **C133.** Newton's method visits the same voltages in the same order for both base powers; it stops at the same iteration if the
tolerance is converted too. -/
theorem C133_newton (tol : ℝ) :
    NR.run o' ((k : ℂ) • Y) (fun i => (p i).sc k) (fun i => (q i).sc k) (tol * k) = stSc k (NR.run o Y p q tol) ∧
      NR.stable (tol * k) (stSc k (NR.run o Y p q tol)) = NR.stable tol (NR.run o Y p q tol) := by
  constructor
  · have hi : NR.init ((k : ℂ) • Y) (fun i => (p i).sc k) (fun i => (q i).sc k) = stSc k (NR.init Y p q) := by
      unfold NR.init stSc
      dsimp only
      congr 1
      funext a
      exact f_sc hk Y p q _ a
    unfold NR.run
    rw [hi]
    generalize NR.init Y p q = s
    generalize 100 = n
    induction n generalizing s with
    | zero => rfl
    | succ n ih =>
      have hc : NR.cond (tol * k) (stSc k s) ↔ NR.cond tol s := by
        unfold NR.cond stSc
        rw [norm_sc hk, ← X.sc_fin, X.sc_lt hk]
      unfold NR.loop
      by_cases h : NR.cond tol s
      · rw [if_pos h, if_pos (hc.2 h), body_sc hk Y ho, ih]
      · rw [if_neg h, if_neg (fun h' => h (hc.1 h'))]
  · unfold NR.stable stSc
    rw [norm_sc hk, ← X.sc_fin]
    simp only [ne_eq, X.sc_nan_iff, X.sc_le hk]

theorem outOf_sc (ls : List LineC) (v : Fin (m + 1) → ℂ) (st : Bool) : outOf (ls.map (LineC.sc k)) v st = (outOf ls v st).sc k := by
  unfold outOf PFOut.sc
  simp only [ymat_sc hk, curr_sc hk, map_mul, conj_ofReal]
  congr 1
  · funext j
    split
    · exact ofC_sc hk _
    · rfl
  · rw [mul_left_comm, re_ofReal_mul, X.sc_fin, mul_comm]
  · rw [mul_left_comm, im_ofReal_mul, X.sc_fin, mul_comm]
  · funext j
    rw [List.getElem?_map]
    cases ls[j]? with
    | none => rfl
    | some l => exact flow_sc hk l _ _

include ho in
theorem solveTol_sc (tol : ℝ) (inp : PFIn ℝ) (pq : Fin m → X ℝ × X ℝ) (ls : List LineC) :
    solveTol (tol * k) o' (inp.sc k) m (fun i => ((pq i).1.sc k, (pq i).2.sc k)) (ls.map (LineC.sc k)) = (solveTol tol o inp m pq ls).sc k := by
  obtain ⟨h1, h2⟩ := C133_newton hk (ymat m ls) ho (fun i => (pq i).1) (fun i => (pq i).2) tol
  unfold solveTol
  simp only [ymat_sc hk, h1, h2]
  rw [show (stSc k (NR.run o (ymat m ls) (fun i => (pq i).1) (fun i => (pq i).2) tol)).guess = (NR.run o (ymat m ls) (fun i => (pq i).1) (fun i => (pq i).2) tol).guess from rfl]
  cases (NR.run o (ymat m ls) (fun i => (pq i).1) (fun i => (pq i).2) tol).guess with
  | none => simp only [ho.garbage]; rfl
  | some g => exact outOf_sc hk ls _ _

include ho in
/-- **C133.** The hypothesis on the load flow holds for the real one if its tolerance is converted too. -/
theorem C133_load_flow (tol : ℝ) : PFUnits k (tolPF tol o) (tolPF (tol * k) o') := by
  intro inp
  unfold tolPF
  have e1 : (inp.sc k).buses.map (·.1) = inp.buses.map (·.1) := by simp [PFIn.sc, Function.comp_def]
  have e2 : (inp.sc k).buses.length = inp.buses.length := List.length_map _
  have e3 : ((inp.sc k).buses.filter (fun b => !b.2.1)).map (fun b => (b.2.2.1, b.2.2.2)) =
      ((inp.buses.filter (fun b => !b.2.1)).map (fun b => (b.2.2.1, b.2.2.2))).map fun x => (x.1.sc k, x.2.sc k) := by
    show ((inp.buses.map _).filter _).map _ = _
    rw [List.filter_map, List.map_map, List.map_map]
    rfl
  have e4 : mapO Line.finite? (inp.sc k).lines = _ := mapO_sc hk inp.lines
  rw [e1, e2, e3, e4]
  generalize (inp.buses.filter (fun b => !b.2.1)).map (fun b => (b.2.2.1, b.2.2.2)) = pq
  unfold tolCore
  split
  · rfl
  split
  · exact ho.other inp
  split
  · rfl
  cases mapO Line.finite? inp.lines with
  | none => exact ho.other inp
  | some ls =>
    dsimp only [Option.map_some]
    by_cases h : pq.length = inp.buses.length - 1
    · rw [dif_pos h, dif_pos (by rw [List.length_map]; exact h)]
      refine congrArg Except.ok ?_
      rw [← solveTol_sc hk ho]
      congr 1
      funext j
      simp
    · rw [dif_neg h, dif_neg (by rw [List.length_map]; exact h)]
      exact ho.other inp

end

/-- **C133.** A linear solver that multiplies with the inverse matrix satisfies the hypothesis. -/
theorem C133_oracle {k : ℝ} (hk : 0 < k) : OracleUnits k exactOracle exactOracle where
  solve m J F := by
    cases J with
    | none => rfl
    | some J =>
      show some ((k • J)⁻¹.mulVec fun a => finVal ((F a).sc k)) = some (J⁻¹.mulVec fun a => finVal (F a))
      congr 1
      have h1 : (k • J)⁻¹ = k⁻¹ • J⁻¹ := by
        by_cases hJ : IsUnit J.det
        · exact Matrix.inv_smul' J (Units.mk0 k hk.ne') hJ
        · have hJ' : ¬ IsUnit (k • J).det := by
            rw [Matrix.det_smul]
            intro h
            exact hJ (isUnit_of_mul_isUnit_right h)
          rw [Matrix.nonsing_inv_apply_not_isUnit _ hJ, Matrix.nonsing_inv_apply_not_isUnit _ hJ', smul_zero]
      have h2 : (fun a => finVal ((F a).sc k)) = k • fun a => finVal (F a) := by
        funext a
        show finVal ((F a).sc k) = k * finVal (F a)
        cases F a <;> simp [finVal, mul_comm]
      rw [h1, h2, Matrix.smul_mulVec, Matrix.mulVec_smul, smul_smul, inv_mul_cancel₀ hk.ne', one_smul]
  blowup := rfl
  garbage _ := rfl
  other _ := rfl

/-- **C133.** All together, for the load flow and the projections of the code: the run of the file for the other base power shows the same values
in MW, MVAr, MVA, MWh, kV, kA, degrees and radians at all times — if the tolerance of the load flow is converted, and no load has a PMAX. -/
theorem C133_real_partial {k : ℝ} (hk : 0 < k) {o o' : LFOracle} (ho : OracleUnits k o o') (tol pi : ℝ) {n : Network ℝ} (hl : LoadsPlain n) {dt lam : X ℝ}
    {s s1 : Sim ℝ} (h0 : mkSim n dt lam = .ok s) {v : List (X ℝ)} {conv : Bool} (h1 : s.reset ⟨exactQP, tolPF tol o, pi⟩ v = .ok (s1, conv))
    {as : List (Sim.Args ℝ)} {l : List (Sim ℝ)} (h2 : trajectory ⟨exactQP, tolPF tol o, pi⟩ s1 as = .ok l) :
    ∃ s' s1' l', mkSim (inBase k n) dt lam = .ok s' ∧ s'.reset ⟨exactQP, tolPF (tol * k) o', pi⟩ v = .ok (s1', conv) ∧
      trajectory ⟨exactQP, tolPF (tol * k) o', pi⟩ s1' as = .ok l' ∧ s'.actionSpace = s.actionSpace ∧
      List.Forall₂ (fun a b : Sim ℝ => a.pfeConverged = b.pfeConverged ∧ ∀ key u i, u ≠ .pu →
        (a.state.bind fun st => reading st key u i) = b.state.bind fun st => reading st key u i) (s1 :: l) (s1' :: l') := by
  have hq := C133_projection hk
  have hf := C133_load_flow hk ho tol
  refine ⟨_, _, _, C133_construct_partial hk hl h0, C133_reset_partial (c := ⟨exactQP, tolPF tol o, pi⟩) (c' := ⟨exactQP, tolPF (tol * k) o', pi⟩) hk hq hf rfl h1, C133_run_partial (c := ⟨exactQP, tolPF tol o, pi⟩) (c' := ⟨exactQP, tolPF (tol * k) o', pi⟩) hk hq hf rfl as h2,
    C133_action_space hk s, ?_⟩
  rw [← List.map_cons (f := Sim.sc k), List.forall₂_map_right_iff, List.forall₂_same]
  intro x _
  refine ⟨rfl, fun key u i hu => ?_⟩
  show _ = (x.state.map (stateSc k)).bind _
  cases x.state with
  | none => rfl
  | some st =>
    show reading st key u i = reading (stateSc k st) key u i
    rw [C133_readings, if_neg fun h => hu h.1]

/-! ### The tolerance is a number in per-unit -/

section
variable {m : ℕ} (Y : Matrix (Fin (m + 1)) (Fin (m + 1)) ℂ) (o : LFOracle) (P Q : Fin m → ℝ)

theorem flat_residual (hY : ∀ i, NR.power Y NR.flat i = 0) (a : Ix m) :
    X.abs (NR.f Y (fun i => .fin (P i)) (fun i => .fin (Q i)) NR.flat a) = .fin (Sum.elim (fun i => |P i|) (fun i => |Q i|) a) := by
  cases a <;> simp [NR.f, hY, X.abs]

/-- **C133.** The claim fails for the code, whose tolerance is 10⁻⁵ for every base power.  Take lines without charging and transformers.
If all injections are at most 10⁻⁵ p.u. the load flow returns the flat profile as the solution, that is no flows at all; with a smaller base power the
same injections exceed 10⁻⁵ p.u., and the flat profile is never the solution. -/
theorem C133_tolerance_counterexample (hY : ∀ i, NR.power Y NR.flat i = 0) :
    ((∀ i, |P i| ≤ xtol ∧ |Q i| ≤ xtol) → (NR.run o Y (fun i => .fin (P i)) (fun i => .fin (Q i)) xtol).guess = some NR.flat ∧
      NR.stable xtol (NR.run o Y (fun i => .fin (P i)) (fun i => .fin (Q i)) xtol) = true) ∧
    ∀ k : ℝ, 0 < k → (∃ i, xtol < |P i * k|) → NR.stable xtol (NR.run o ((k : ℂ) • Y) (fun i => .fin (P i * k)) (fun i => .fin (Q i * k)) xtol) = true →
      (NR.run o ((k : ℂ) • Y) (fun i => .fin (P i * k)) (fun i => .fin (Q i * k)) xtol).guess ≠ some NR.flat := by
  have h0 : (0 : ℝ) ≤ xtol := by unfold xtol; norm_num
  constructor
  · intro h
    have hn : NR.norm (NR.f Y (fun i => .fin (P i)) (fun i => .fin (Q i)) NR.flat) ≤ .fin xtol := by
      refine (norm_le h0).2 fun a => ?_
      rw [flat_residual Y P Q hY]
      cases a with
      | inl i => exact (h i).1
      | inr i => exact (h i).2
    have hr : NR.run o Y (fun i => .fin (P i)) (fun i => .fin (Q i)) xtol = NR.init Y (fun i => .fin (P i)) (fun i => .fin (Q i)) := by
      unfold NR.run NR.loop
      refine if_neg fun hc => ?_
      have h1 := hc.1
      have h2 : X.fin xtol < X.fin xtol := X.lt_of_lt_of_le' h1 hn
      simp at h2
    rw [hr]
    refine ⟨rfl, decide_eq_true ⟨fun e => ?_, hn⟩⟩
    have hn' : NR.norm (NR.init Y (fun i => .fin (P i)) (fun i => .fin (Q i))).F ≤ .fin xtol := hn
    rw [e] at hn'
    simp at hn'
  · rintro k hk ⟨i, hi⟩ hst hg
    set s := NR.run o ((k : ℂ) • Y) (fun i => .fin (P i * k)) (fun i => .fin (Q i * k)) xtol with hs
    have hY' : ∀ i, NR.power ((k : ℂ) • Y) NR.flat i = 0 := fun i => by rw [power_sc hk, hY, mul_zero]
    have hF : s.F = NR.f ((k : ℂ) • Y) (fun i => .fin (P i * k)) (fun i => .fin (Q i * k)) NR.flat := by
      have := NR.inv_run (o := o) (Y := (k : ℂ) • Y) (p := fun i => .fin (P i * k)) (q := fun i => .fin (Q i * k)) (xtol := xtol)
      rw [← hs] at this
      unfold NR.Inv at this
      rw [hg] at this
      exact this
    unfold NR.stable at hst
    have hle := (of_decide_eq_true hst).2
    rw [hF] at hle
    have := (norm_le h0).1 hle (.inl i)
    rw [flat_residual _ (fun i => P i * k) (fun i => Q i * k) hY'] at this
    exact absurd hi (not_lt.2 this)

/-- A line between two buses, 5 W at the second: the flat profile is accepted with a base power of 1 MVA, not with 0.1 MVA. -/
example : (∀ i, NR.power (m := 1) (fun i j => if i = j then 1 else -1) NR.flat i = 0) ∧ |(5e-6 : ℝ)| ≤ xtol ∧ xtol < |(5e-6 * 10 : ℝ)| := by
  refine ⟨fun i => ?_, ?_, ?_⟩
  · obtain rfl : i = 0 := Subsingleton.elim _ _
    simp [NR.power, NR.curr, NR.volt, NR.flat, Fin.sum_univ_succ]
  · rw [abs_of_pos (by norm_num)]; unfold xtol; norm_num
  · rw [abs_of_pos (by norm_num)]; unfold xtol; norm_num

end

end

end Anm
