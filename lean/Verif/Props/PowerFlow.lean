import Mathlib.Analysis.Calculus.Deriv.Mul
import Mathlib.Analysis.Calculus.Deriv.Star
import Mathlib.Analysis.SpecialFunctions.ExpDeriv
import Mathlib.Analysis.Complex.RealDeriv
import Mathlib.Tactic.LinearCombination
import Verif.Lemmas.RealPF
import Verif.Props.Dynamics

/-! # C25–C35 and the admittance part of C07: power flow -/

set_option linter.unusedSectionVars false

namespace Anm

open Spec Complex ComplexConjugate

/-! ### Branches (C07, C30) -/

/-- Reading the finite parameters of a line. -/
theorem finite?_eq {l : Line ℝ} {c : LineC} (h : l.finite? = some c) :
    l.fBus = c.fBus ∧ l.tBus = c.tBus ∧ l.r = .fin c.r ∧ l.x = .fin c.x ∧ l.b = .fin c.b ∧
      l.tapMagn = .fin c.tapMagn ∧ l.shiftDeg = .fin c.shiftDeg := by
  unfold Line.finite? at h
  split at h
  · injection h with h
    subst h
    exact ⟨rfl, rfl, by assumption, by assumption, by assumption, by assumption, by assumption⟩
  · cases h

theorem norm_tap (c : LineC) (h : 0 ≤ c.tapMagn) : ‖c.tap‖ = c.tapMagn := by
  unfold LineC.tap
  rw [norm_mul, mul_comm I, Complex.norm_exp_ofReal_mul_I, mul_one, Complex.norm_real, Real.norm_of_nonneg h]

theorem impedance_ne {c : LineC} (h : c.r ≠ 0 ∨ c.x ≠ 0) : (c.r + I * c.x : ℂ) ≠ 0 := by
  intro h0
  have h1 := congrArg Complex.re h0
  have h2 := congrArg Complex.im h0
  simp at h1 h2
  rcases h with h | h
  · exact h h1
  · exact h h2

/-- The physical facts about a branch used below. -/
structure Spec.GoodLine (c : LineC) : Prop where
  r : 0 ≤ c.r
  x : 0 ≤ c.x
  b : 0 ≤ c.b
  tap : 0 < c.tapMagn
  rx : c.r ≠ 0 ∨ c.x ≠ 0

/-- **C07**, admittances: an accepted branch with finite parameters has a series admittance that is the
inverse of `r + jx`, a purely imaginary shunt admittance and a tap of modulus `tapMagn > 0`. -/
theorem C07_series_admittance {row : BranchRow ℝ} {ids : List ℤ} {base : ℝ} {l : Line ℝ} {c : LineC}
    (hok : RowOk row) (hb : 0 < base) (h : mkLine row (.fin base) ids = .ok l) (hc : l.finite? = some c) :
    GoodLine c ∧ c.series * (c.r + I * c.x) = 1 ∧ c.tap ≠ 0 ∧ ‖c.tap‖ = c.tapMagn ∧ c.shunt.re = 0 := by
  have L := C07_branch hok hb h
  obtain ⟨_, _, h1, h2, h3, h4, h5⟩ := finite?_eq hc
  have hr : 0 ≤ c.r := by have := L.r; rw [h1] at this; exact this
  have hx : 0 ≤ c.x := by have := L.x; rw [h2] at this; exact this
  have hb : 0 ≤ c.b := by have := L.b; rw [h3] at this; exact this
  have ht : 0 < c.tapMagn := by have := L.tap; rw [h4] at this; exact this
  have hrx : c.r ≠ 0 ∨ c.x ≠ 0 := by
    have := L.rx
    rw [h1, h2] at this
    exact this.imp (fun h e => h (by rw [e])) (fun h e => h (by rw [e]))
  refine ⟨⟨hr, hx, hb, ht, hrx⟩, ?_, ?_, norm_tap c ht.le, ?_⟩
  · unfold LineC.series
    field_simp [impedance_ne hrx]
  · rw [← norm_ne_zero_iff, norm_tap c ht.le]; exact ht.ne'
  · simp [LineC.shunt]

theorem tap_sq (c : LineC) : (‖c.tap‖ : ℂ) ^ 2 = c.tap * conj c.tap := by
  rw [Complex.mul_conj, Complex.normSq_eq_norm_sq]; push_cast; rfl

/-- **C71.** The computed branch currents are those of the π-model with an ideal transformer. -/
theorem C71_pi_model (c : LineC) (ht : c.tap ≠ 0) (vf vt : ℂ) :
    c.iFrom vf vt = piFrom c.series c.b c.tap vf vt ∧ c.iTo vf vt = piTo c.series c.b c.tap vf vt := by
  have h2 : conj c.tap ≠ 0 := by simpa using ht
  constructor
  · unfold LineC.iFrom piFrom
    rw [tap_sq, LineC.shunt]
    field_simp
    ring
  · unfold LineC.iTo piTo LineC.shunt
    ring

theorem series_re (c : LineC) : c.series.re = c.r / (c.r ^ 2 + c.x ^ 2) := by
  unfold LineC.series
  simp [Complex.normSq_apply, pow_two]

/-- **C30.** Active losses of a branch: `g |vf/tap - vt|²` with `g = r/(r²+x²)`. -/
theorem C30_branch_losses {c : LineC} (hc : GoodLine c) (vf vt : ℂ) :
    (c.sFrom vf vt).re + (c.sTo vf vt).re = c.r / (c.r ^ 2 + c.x ^ 2) * ‖vf / c.tap - vt‖ ^ 2 ∧
      0 ≤ (c.sFrom vf vt).re + (c.sTo vf vt).re ∧
      (c.r = 0 → (c.sFrom vf vt).re + (c.sTo vf vt).re = 0) := by
  have ht : c.tap ≠ 0 := by rw [← norm_ne_zero_iff, norm_tap c hc.tap.le]; exact hc.tap.ne'
  have h1 : (c.sFrom vf vt).re + (c.sTo vf vt).re =
      c.r / (c.r ^ 2 + c.x ^ 2) * ‖vf / c.tap - vt‖ ^ 2 := by
    obtain ⟨e1, e2⟩ := C71_pi_model c ht vf vt
    have key : c.sFrom vf vt + c.sTo vf vt = conj c.series * ((vf / c.tap - vt) * conj (vf / c.tap - vt)) -
        I * ((c.b / 2 : ℝ) * (vf / c.tap * conj (vf / c.tap) + vt * conj vt)) := by
      have h2 : vf = vf / c.tap * c.tap := by field_simp
      have h3 : vf * conj (piFrom c.series c.b c.tap vf vt) = vf / c.tap *
          conj (c.series * (vf / c.tap - vt) + I * (c.b / 2) * (vf / c.tap)) := by
        unfold piFrom
        rw [map_div₀, Complex.conj_conj]
        ring
      unfold LineC.sFrom LineC.sTo
      rw [e1, e2, h3]
      unfold piTo
      generalize vf / c.tap = u
      simp only [map_add, map_mul, map_sub, conj_I, map_div₀, conj_ofReal, map_ofNat]
      push_cast
      ring
    rw [← Complex.add_re, key, ← series_re]
    rw [Complex.mul_conj, Complex.mul_conj, Complex.mul_conj, Complex.sq_norm]
    generalize normSq (vf / c.tap - vt) = x
    generalize normSq (vf / c.tap) = y
    simp
  refine ⟨h1, ?_, ?_⟩
  · rw [h1]
    exact mul_nonneg (div_nonneg hc.r (by positivity)) (by positivity)
  · intro h0
    rw [h1, h0]
    simp

/-! ### Accepted networks (C29, C31) -/

section
variable {n : Network ℝ} {base : ℝ} {dt lam : X ℝ} {s s' : Sim ℝ} {m : ℕ} {ls : List LineC}

theorem branchKeys_nodup (h : mkSim n dt lam = .ok s) (hb : n.baseMVA ≠ .nan)
    {buses : List (Bus ℝ)} {branches : List (Branch ℝ)} {devices dl : List (Device ℝ)}
    {bl : List (Bus ℝ)} {brl : List (Line ℝ)} (I : LoadInvs n bl brl dl buses branches devices) :
    (∀ l ∈ brl, l.fBus ≠ l.tBus) ∧ brl.Pairwise (fun l l' => ¬ (l.fBus = l'.fBus ∧ l.tBus = l'.tBus) ∧
      ¬ (l.fBus = l'.tBus ∧ l.tBus = l'.fBus)) := by
  have hn := noNan_of_mkSim h hb
  have W := (C01_checkNetwork_iff hn).1 (mkSim_ok.1 h).1.1
  have e := mapE_ok.1 I.hbrl
  have key : ∀ r l, mkLine r n.baseMVA (buses.map Bus.id) = .ok l →
      r .fBus = some (.fin (l.fBus : ℝ)) ∧ r .tBus = some (.fin (l.tBus : ℝ)) := by
    intro r l hl
    have L := mkLine_ok hl
    obtain ⟨xf, f1, f2, f3⟩ := L.f
    obtain ⟨xt, t1, t2, t3⟩ := L.t
    rw [f1, t1, (inIds_toInt f2 f3).1, (inIds_toInt t2 t3).1]
    exact ⟨rfl, rfl⟩
  constructor
  · intro l hl hft
    obtain ⟨r, hr, hrl⟩ := mapE_mem I.hbrl hl
    obtain ⟨k1, k2⟩ := key r l hrl
    exact W.simple.1 r hr (by rw [k1, k2, hft])
  · refine pairwise_forall₂ e W.simple.2 ?_
    intro a b c d hac hbd hab
    obtain ⟨k1, k2⟩ := key _ _ hac
    obtain ⟨k3, k4⟩ := key _ _ hbd
    refine ⟨fun hh => hab (Or.inl ?_), fun hh => hab (Or.inr ?_)⟩
    · rw [k1, k2, k3, k4, hh.1, hh.2]; exact ⟨rfl, rfl⟩
    · rw [k1, k2, k3, k4, hh.1, hh.2]; exact ⟨rfl, rfl⟩

/-- The branches of an accepted network with finite parameters and buses numbered `0, ..., m`. -/
theorem simOf_lines (hn : CleanFile n base) (hs : SimOf n dt lam s) (hm : Numbered s m)
    (hl : FiniteLines s ls) : SimpleLines ls ∧ EndsIn m ls ∧ ∀ l ∈ ls, GoodLine l := by
  have hb := basePos_of_simOf hn hs
  have hnan : n.baseMVA ≠ .nan := by rw [hn.base]; simp
  obtain ⟨s0, h0, hc⟩ := hs
  obtain ⟨_, buses, branches, devices, bl, brl, dl, I, rfl⟩ := mkSim_ok.1 h0
  obtain ⟨K1, K2⟩ := branchKeys_nodup h0 hnan I
  have hnd : (brl.map (fun l => (l.fBus, l.tBus))).Nodup :=
    List.pairwise_map.2 (K2.imp fun h e => h.1 (by simpa using e))
  have hlines : List.Forall₂ (fun (l : Line ℝ) c => l.finite? = some c) brl ls := by
    have h1 : List.Forall₂ (fun (l : Line ℝ) (b : Branch ℝ) => b.line = l) brl s.branches := by
      have h2 := hc.branches
      rw [show ({ baseMVA := n.baseMVA, deltaT := dt, lamb := lam, buses := buses.map (busBounds devices), branches, devices } : Sim ℝ).branches = branches from rfl, I.eq_branches hnd, List.forall₂_map_left_iff] at h2
      exact h2
    have h3 : ∀ {l1 : List (Line ℝ)} {l2 : List (Branch ℝ)} {l3 : List LineC},
        List.Forall₂ (fun (l : Line ℝ) (b : Branch ℝ) => b.line = l) l1 l2 →
        List.Forall₂ (fun (b : Branch ℝ) l => b.line.finite? = some l) l2 l3 →
        List.Forall₂ (fun (l : Line ℝ) c => l.finite? = some c) l1 l3 := by
      intro l1 l2 l3 h
      induction h generalizing l3 with
      | nil => intro h'; cases h'; exact .nil
      | cons hab _ ih =>
        intro h'
        cases h' with
        | cons hbc h' => exact .cons (hab ▸ hbc) (ih h')
    exact h3 h1 hl
  have hids : buses.map Bus.id = (List.range (m + 1)).map Int.ofNat := by
    rw [← hm.ids]
    have : List.Forall₂ SameBus (buses.map (busBounds devices)) s.buses := hc.buses
    have h2 : ∀ {l1 l2 : List (Bus ℝ)}, List.Forall₂ SameBus l1 l2 → l1.map Bus.id = l2.map Bus.id := by
      intro l1 l2 h
      induction h with
      | nil => rfl
      | cons hab _ ih =>
        simp only [List.map_cons, ih]
        rw [hab]
    rw [← h2 this, List.map_map]
    rfl
  refine ⟨⟨?_, ?_⟩, ?_, ?_⟩
  · intro c hc
    obtain ⟨l, hl, hlc⟩ := forall₂_mem_right hlines hc
    obtain ⟨e1, e2, _⟩ := finite?_eq hlc
    rw [← e1, ← e2]
    exact K1 l hl
  · refine pairwise_forall₂ hlines K2 ?_
    intro a b c d hac hbd hab
    obtain ⟨e1, e2, _⟩ := finite?_eq hac
    obtain ⟨e3, e4, _⟩ := finite?_eq hbd
    rw [← e1, ← e2, ← e3, ← e4]
    exact hab
  · intro c hc
    obtain ⟨l, hl, hlc⟩ := forall₂_mem_right hlines hc
    obtain ⟨e1, e2, _⟩ := finite?_eq hlc
    obtain ⟨r, hr, hrl⟩ := mapE_mem I.hbrl hl
    rw [hn.base] at hrl
    have L := C07_branch (hn.branch r hr) hb hrl
    have hmem : ∀ i ∈ buses.map Bus.id, 0 ≤ i ∧ i < ((m + 1 : ℕ) : ℤ) := by
      intro i hi
      rw [hids] at hi
      obtain ⟨k, hk, rfl⟩ := List.mem_map.1 hi
      have := List.mem_range.1 hk
      exact ⟨Int.natCast_nonneg k, Int.ofNat_lt.2 this⟩
    rw [← e1, ← e2]
    exact ⟨hmem _ L.f.2, hmem _ L.t.2⟩
  · intro c hc
    obtain ⟨l, hl, hlc⟩ := forall₂_mem_right hlines hc
    obtain ⟨r, hr, hrl⟩ := mapE_mem I.hbrl hl
    rw [hn.base] at hrl
    exact (C07_series_admittance (hn.branch r hr) hb hrl hlc).1

/-- **C29.** Kirchhoff's current law: for an accepted network and every voltage vector the current
injected at a bus (row of the admittance matrix times the voltages) is the sum of the currents entering
the attached branches. -/
theorem C29_kirchhoff (hn : CleanFile n base) (hs : SimOf n dt lam s) (hm : Numbered s m)
    (hl : FiniteLines s ls) (v : Fin (m + 1) → ℂ) (k : Fin (m + 1)) :
    NR.curr (ymat m ls) v k = leaving ls (atId v) (k : ℕ) := by
  obtain ⟨h1, h2, _⟩ := simOf_lines hn hs hm hl
  exact curr_eq_leaving h1 h2 v k

theorem sum_leaving (he : EndsIn m ls) (v : Fin (m + 1) → ℂ) :
    ∑ k : Fin (m + 1), v k * conj (leaving ls (atId v) (k : ℕ)) =
      (ls.map fun l => l.sFrom (atId v l.fBus) (atId v l.tBus) +
        l.sTo (atId v l.fBus) (atId v l.tBus)).sum := by
  induction ls with
  | nil => simp [leaving]
  | cons l ls ih =>
    have h1 : ∀ k : Fin (m + 1), v k * conj (leaving (l :: ls) (atId v) (k : ℕ)) =
        ((if l.fBus = ((k : ℕ) : ℤ) then v k * conj (l.iFrom (atId v l.fBus) (atId v l.tBus)) else 0) +
        (if l.tBus = ((k : ℕ) : ℤ) then v k * conj (l.iTo (atId v l.fBus) (atId v l.tBus)) else 0)) +
        v k * conj (leaving ls (atId v) (k : ℕ)) := by
      intro k
      unfold leaving
      rw [List.map_cons, List.sum_cons, map_add, map_add]
      split_ifs <;> simp <;> ring
    have pick : ∀ (i : ℤ) (z : ℂ), 0 ≤ i ∧ i < (m + 1 : ℕ) →
        (∑ k : Fin (m + 1), if i = ((k : ℕ) : ℤ) then v k * z else 0) = atId v i * z := by
      intro i z hi
      obtain ⟨j, rfl⟩ := Int.eq_ofNat_of_zero_le hi.1
      have hj : j < m + 1 := by exact_mod_cast hi.2
      rw [Finset.sum_eq_single (⟨j, hj⟩ : Fin (m + 1))]
      · rw [show atId v (j : ℤ) = _ from atId_nat v ⟨j, hj⟩]
        simp
      · intro b _ hb
        rw [if_neg]
        intro e
        exact hb (Fin.ext (by simpa using (Int.ofNat_inj.1 e).symm))
      · simp
    obtain ⟨hf, ht⟩ := he l (by simp)
    rw [Finset.sum_congr rfl fun k _ => h1 k, Finset.sum_add_distrib, Finset.sum_add_distrib,
      pick _ _ hf, pick _ _ ht, ih fun l' hl' => he l' (by simp [hl'])]
    rfl

/-- **C31.** The total injected active power equals the total line losses, and is not negative. -/
theorem C31_total_losses (hn : CleanFile n base) (hs : SimOf n dt lam s) (hm : Numbered s m)
    (hl : FiniteLines s ls) (v : Fin (m + 1) → ℂ) :
    ∑ k, (v k * conj (NR.curr (ymat m ls) v k)).re = (ls.map fun l => loss l (atId v)).sum ∧
      0 ≤ ∑ k, (v k * conj (NR.curr (ymat m ls) v k)).re := by
  obtain ⟨h1, h2, h3⟩ := simOf_lines hn hs hm hl
  have e : ∑ k, (v k * conj (NR.curr (ymat m ls) v k)).re = (ls.map fun l => loss l (atId v)).sum := by
    rw [← Complex.re_sum]
    simp only [curr_eq_leaving h1 h2]
    rw [sum_leaving h2]
    have : ∀ l : List ℂ, l.sum.re = (l.map Complex.re).sum := by
      intro l
      induction l with
      | nil => rfl
      | cons a l ih => simp [ih]
    rw [this, List.map_map]
    rfl
  refine ⟨e, ?_⟩
  rw [e]
  refine List.sum_nonneg ?_
  intro x hx
  obtain ⟨l, hl, rfl⟩ := List.mem_map.1 hx
  exact (C30_branch_losses (h3 l hl) _ _).2.1

/-! ### The load flow of a transition (C25, C28) -/

variable {o : LFOracle} {qp : QP ℝ} {pi : ℝ} {a : Sim.Args ℝ} {out : Sim.TransOut ℝ}

/-- **C25.** If convergence is reported, the state is that of a voltage vector (bus currents, branch
quantities and slack injection included) and the power-flow equations hold at every non-slack bus up to
1e-5 p.u., whatever the linear solver returned. -/
theorem C25_converged (hn : CleanFile n base) (hs : SimOf n dt lam s) (hm : Numbered s m)
    (hl : FiniteLines s ls) (h : s.transition ⟨qp, realPF o, pi⟩ a = .ok (s', out))
    (hc : out.converged = true) : ∃ V, Solved s' ls V ∧ Balanced 1e-5 s' ls V := by
  obtain ⟨h1, h2, _⟩ := simOf_lines hn hs hm hl
  rcases transition_solved hm hl h1 h2 h with ⟨V, hV, hb⟩ | ⟨hf, _⟩
  · exact ⟨V, hV, hb hc⟩
  · rw [hc] at hf; cases hf

theorem numbered_same (h : SameConfig s s') (hm : Numbered s m) : Numbered s' m := by
  have h2 : ∀ {l1 l2 : List (Bus ℝ)}, List.Forall₂ SameBus l1 l2 → l2.map Bus.id = l1.map Bus.id := by
    intro l1 l2 h
    induction h with
    | nil => rfl
    | cons hab _ ih =>
      simp only [List.map_cons, ih]
      rw [hab]
  refine ⟨(h2 h.buses).trans hm.ids, hm.pos, fun b hb => ?_⟩
  obtain ⟨b0, hb0, hsm⟩ := forall₂_mem_right h.buses hb
  rw [hsm]
  exact hm.slack b0 hb0

theorem finiteLines_same (h : SameConfig s s') (hl : FiniteLines s ls) : FiniteLines s' ls := by
  have h2 : ∀ {l1 l2 : List (Branch ℝ)} {l3 : List LineC},
      List.Forall₂ (fun b b' : Branch ℝ => b'.line = b.line) l1 l2 →
      List.Forall₂ (fun (b : Branch ℝ) l => b.line.finite? = some l) l1 l3 →
      List.Forall₂ (fun (b : Branch ℝ) l => b.line.finite? = some l) l2 l3 := by
    intro l1 l2 l3 h
    induction h generalizing l3 with
    | nil => intro h'; cases h'; exact .nil
    | cons hab _ ih =>
      intro h'
      cases h' with
      | cons hbc h' => exact .cons (by rw [hab]; exact hbc) (ih h')
  exact h2 h.branches hl

/-- The inner transition of `reset` runs on the same network. -/
theorem sameConfig_resetSoc {c : Ctx ℝ} {init : List (X ℝ)} {a : Sim.Args ℝ} {ds ds' : List (Device ℝ)}
    {s1 : Sim ℝ} (I : ResetInv c s init a ds ds' s1 s' out) :
    SameConfig s { s with state := none, devices := ds } := by
  refine ⟨rfl, rfl, rfl, List.forall₂_same.2 fun _ _ => rfl, List.forall₂_same.2 fun _ _ => rfl, ?_⟩
  refine I.soc.imp fun d d' hd => ?_
  have := resetSoc_ok hd
  cases hs : d.isStorage with
  | false => rw [this.1 hs]; rfl
  | true => obtain ⟨p, _, rfl⟩ := this.2 hs; rfl

/-- **C25**, for `reset`. -/
theorem C25_reset_converged (hn : CleanFile n base) (hs : SimOf n dt lam s) (hm : Numbered s m)
    (hl : FiniteLines s ls) {init : List (X ℝ)} (h : s.reset ⟨qp, realPF o, pi⟩ init = .ok (s', true)) :
    ∃ V, Solved s' ls V ∧ Balanced 1e-5 s' ls V := by
  obtain ⟨a, ds, ds', s1, out, I, hc⟩ := reset_ok h
  have h1 := sameConfig_resetSoc I
  have hs1 : SimOf n dt lam { s with state := none, devices := ds } := by
    obtain ⟨s0, h0, hc0⟩ := hs
    exact ⟨s0, h0, sameConfig_trans hc0 h1⟩
  obtain ⟨V, hV, hb⟩ := C25_converged hn hs1 (numbered_same h1 hm) (finiteLines_same h1 hl) I.trans hc.symm
  obtain ⟨st, _, rfl⟩ := I.result
  exact ⟨V, ⟨hV.ref, hV.v, hV.i, hV.slack, hV.flow⟩, hb⟩

/-- **C28 (partial: slack bus numbered 0).** After every transition, converged or not, the slack bus is
at `1 + 0j`.  Missing: networks whose slack bus does not have the smallest ID, for which the claim is
false (`C28_counterexample`). -/
theorem C28_slack_voltage_partial (hn : CleanFile n base) (hs : SimOf n dt lam s) (hm : Numbered s m)
    (hl : FiniteLines s ls) (h : s.transition ⟨qp, realPF o, pi⟩ a = .ok (s', out)) :
    ∀ b ∈ s'.buses, b.isSlack = true → b.v = .ofC 1 := by
  obtain ⟨h1, h2, _⟩ := simOf_lines hn hs hm hl
  have hm' := numbered_same (sameConfig_transition h) hm
  rcases transition_solved hm hl h1 h2 h with ⟨V, hV, hb⟩ | ⟨_, hf⟩
  · intro b hb hsl
    rw [hV.v b hb, (hm'.slack b hb).1 hsl, hV.ref]
  · exact hf

end

/-! ### C26 -/

/-- **C26.** The loop of the load flow (`while diff > xtol and n_iter < 100`) has exactly one execution;
it makes at most 100 passes, with one linear solve each, and ends in the state `run` used by the model. -/
theorem C26_loop_terminates {m : ℕ} (o : LFOracle) (Y : Matrix (Fin (m + 1)) (Fin (m + 1)) ℂ)
    (p q : Fin m → X ℝ) (tol : ℝ) :
    ∃ k ≤ 100, WhileRun (NR.cond tol) (NR.body o Y p q) (NR.init Y p q) k (NR.run o Y p q tol) ∧
      (NR.run o Y p q tol).nIter = k ∧
      ∀ k' s', WhileRun (NR.cond tol) (NR.body o Y p q) (NR.init Y p q) k' s' →
        k' = k ∧ s' = NR.run o Y p q tol := by
  obtain ⟨k, hk, hr⟩ := NR.loop_run (o := o) (Y := Y) (p := p) (q := q) (xtol := tol) 100 (NR.init Y p q)
    (by simp [NR.init])
  refine ⟨k, hk, hr, ?_, fun k' s' h' => NR.whileRun_unique h' hr⟩
  have count : ∀ {s s' : NR.St m} {k : ℕ}, WhileRun (NR.cond tol) (NR.body o Y p q) s k s' →
      s'.nIter = s.nIter + k := by
    intro s s' k h
    induction h with
    | stop _ => rfl
    | pass _ _ ih => rw [ih]; simp only [NR.body]; omega
  have := count hr
  rw [NR.run, this]
  simp [NR.init]

/-- **C26**, failures: convergence is reported exactly if the residual is a number at most the
tolerance; in particular not if it is NaN, and not if a linear solve ever produced non-finite values. -/
theorem C26_failure {m : ℕ} (tol : ℝ) (s : NR.St m) :
    NR.stable tol s = false ↔ NR.norm s.F = .nan ∨ .fin tol < NR.norm s.F := by
  have : NR.stable tol s = false ↔ ¬ (NR.norm s.F ≠ .nan ∧ NR.norm s.F ≤ .fin tol) := by
    simp [NR.stable]
  rw [this]
  by_cases hx : NR.norm s.F = .nan
  · simp [hx]
  · rw [← X.not_le_iff (X.notNan_iff.2 hx) (X.notNan_fin tol)]
    simp [hx]

theorem C26_failure_nonfinite {m : ℕ} (hm : 1 ≤ m) (o : LFOracle)
    (Y : Matrix (Fin (m + 1)) (Fin (m + 1)) ℂ) (p q : Fin m → X ℝ) {tol : ℝ}
    (h : (NR.run o Y p q tol).guess = none) : NR.stable tol (NR.run o Y p q tol) = false := by
  have hi : (NR.run o Y p q tol).F = _ := NR.inv_run
  rw [h] at hi
  have := NR.norm_none (o := o) (Y := Y) (p := p) (q := q) (n := (NR.run o Y p q tol).nIter) (c := tol) hm
  rw [← hi] at this
  simp [NR.stable, this]

/-! ### C34, C35 -/

theorem X.max_fin (a b : ℝ) : X.maximum (.fin a) (.fin b) = .fin (max a b) := by
  unfold X.maximum
  simp only [reduceCtorEq, if_false, X.fin_le_fin]
  split_ifs with h
  · rw [max_eq_left h]
  · rw [max_eq_right (le_of_lt (not_le.1 h))]

/-- **C34 (partial: active power at the sending end not 0).** The reported apparent power is the larger
of the two end flows, with the sign of the active power at the sending end.  Missing: `p_from = 0`, for
which the claim is false (`C34_counterexample`). -/
theorem C34_apparent_power_partial (l : LineC) (vf vt : ℂ) (h : (l.sFrom vf vt).re ≠ 0) :
    ∃ x, (l.flow vf vt).sApparentMax = .fin x ∧ |x| = max ‖l.sFrom vf vt‖ ‖l.sTo vf vt‖ ∧
      (0 < x ↔ 0 < (l.sFrom vf vt).re) ∧ (x < 0 ↔ (l.sFrom vf vt).re < 0) := by
  have hpos : 0 < max ‖l.sFrom vf vt‖ ‖l.sTo vf vt‖ :=
    lt_of_lt_of_le (norm_pos_iff.2 fun e => h (by rw [e]; rfl)) (le_max_left _ _)
  simp only [LineC.flow, LineC.sApparentMax, X.max_fin]
  rcases lt_or_gt_of_ne h with h1 | h1
  · refine ⟨-max ‖l.sFrom vf vt‖ ‖l.sTo vf vt‖, ?_, ?_, ?_, ?_⟩
    · simp [X.sign, h1, not_lt.2 h1.le]
    · rw [abs_neg, abs_of_pos hpos]
    · constructor
      · intro h2; linarith
      · intro h2; exact absurd h2 (not_lt.2 h1.le)
    · exact ⟨fun _ => h1, fun _ => by linarith⟩
  · refine ⟨max ‖l.sFrom vf vt‖ ‖l.sTo vf vt‖, ?_, ?_, ?_, ?_⟩
    · simp [X.sign, h1]
    · rw [abs_of_pos hpos]
    · exact ⟨fun _ => h1, fun _ => hpos⟩
    · constructor
      · intro h2; linarith
      · intro h2; exact absurd h2 (not_lt.2 h1.le)

/-- If the sending end injects no active power, 0 is reported, whatever the reactive flow. -/
theorem C34_zero (l : LineC) (vf vt : ℂ) (h : (l.sFrom vf vt).re = 0) :
    (l.flow vf vt).sApparentMax = .fin 0 := by
  simp [LineC.flow, LineC.sApparentMax, X.max_fin, h, X.sign]

/-- **C34 is false**: a lossless branch between voltages 1 and 2 carries 1 p.u. of reactive power and the
reported apparent power is 0. -/
theorem C34_counterexample : ∃ (l : LineC) (vf vt : ℂ), GoodLine l ∧
    (l.flow vf vt).sApparentMax = .fin 0 ∧ ‖l.sFrom vf vt‖ = 1 := by
  let l : LineC := ⟨0, 1, 0, 1, 0, 1, 0⟩
  have e : l.sFrom 1 2 = -I := by
    simp [LineC.sFrom, LineC.iFrom, LineC.series, LineC.shunt, LineC.tap, LineC.shift, l]
    rw [map_ofNat]
    ring
  refine ⟨l, 1, 2, ⟨le_refl _, zero_le_one, le_refl _, one_pos, Or.inr one_ne_zero⟩, ?_, ?_⟩
  · exact C34_zero l 1 2 (by rw [e]; simp)
  · rw [e]; simp

/-- **C35 (partial: real currents).** What is reported as the current magnitude of a branch is the real
part of the current.  It is the magnitude up to sign exactly if the current is real; for other currents
the claim is false (`C35_counterexample`). -/
theorem C35_current_magnitude_partial (z : ℂ) :
    Sim.signRe (.ofC z) * (Phasor.ofC z).abs = .fin z.re ∧ (|z.re| = ‖z‖ ↔ z.im = 0) := by
  constructor
  · unfold Sim.signRe Phasor.ofC
    by_cases hz : ‖z‖ = 0
    · have : z = 0 := norm_eq_zero.1 hz
      subst this
      simp
    · rw [if_neg (by simpa using hz), X.fin_div_fin hz, X.fin_mul_fin, div_mul_cancel₀ _ hz]
  · exact Complex.abs_re_eq_norm

/-- **C35 is false**: a purely reactive current of 1 p.u. is reported as 0. -/
theorem C35_counterexample : ∃ z : ℂ, ‖z‖ = 1 ∧ Sim.signRe (.ofC z) * (Phasor.ofC z).abs = .fin 0 :=
  ⟨I, by simp, by simpa using (C35_current_magnitude_partial I).1⟩

end Anm
