import Verif.Props.Reported
import Verif.Props.Reward

/-!
# C106: a bus at the end of a single line

Whatever such a bus injects or draws flows through its line, so the rating of the line limits the devices of the
bus (`bus.py`, `branch.py:153-198`, `simulator.py:459-503`, `586-607`).
-/

namespace Anm

open Complex ComplexConjugate Spec

namespace Spec

/-- `br` is the only branch at bus `k`. -/
def LeafOn (s : Sim ℝ) (k : ℤ) (br : Branch ℝ) : Prop :=
  (br.line.fBus = k ∨ br.line.tBus = k) ∧
    ∃ l1 l2, s.branches = l1 ++ br :: l2 ∧ ∀ b ∈ l1 ++ l2, b.line.fBus ≠ k ∧ b.line.tBus ≠ k

/-- The active and the reactive power that enter the branch from bus `k`. -/
def entering (br : Branch ℝ) (k : ℤ) : X ℝ × X ℝ :=
  if br.line.fBus = k then (br.flow.pFrom, br.flow.qFrom) else (br.flow.pTo, br.flow.qTo)

end Spec

variable {n : Network ℝ} {base : ℝ} {dt lam : X ℝ} {s s' : Sim ℝ} {m : ℕ} {ls : List LineC}
  {o : LFOracle} {qp : QP ℝ} {pi : ℝ} {a : Sim.Args ℝ} {out : Sim.TransOut ℝ}

theorem forall₂_split {α β : Type} {R : α → β → Prop} {l1 l2 : List α} {x : α} {l : List β}
    (h : List.Forall₂ R (l1 ++ x :: l2) l) : ∃ m1 y m2, l = m1 ++ y :: m2 ∧ List.Forall₂ R l1 m1 ∧ R x y ∧
      List.Forall₂ R l2 m2 := by
  induction l1 generalizing l with
  | nil =>
    cases h with
    | cons h t => exact ⟨[], _, _, rfl, .nil, h, t⟩
  | cons z l1 ih =>
    cases h with
    | cons h t =>
      obtain ⟨m1, y, m2, rfl, h1, h2, h3⟩ := ih t
      exact ⟨_ :: m1, y, m2, rfl, .cons h h1, h2, h3⟩

/-- The current that leaves a bus with a single branch. -/
theorem leaving_leaf {V : ℤ → ℂ} {k : ℤ} {br : Branch ℝ} (hV : Solved s' ls V) (hs : SimpleLines ls) (hk : LeafOn s' k br) :
    ∃ l ∈ ls, br.line.finite? = some l ∧ br.flow = l.flow (V l.fBus) (V l.tBus) ∧
      ((l.fBus = k ∧ leaving ls V k = l.iFrom (V l.fBus) (V l.tBus)) ∨
        (l.fBus ≠ k ∧ l.tBus = k ∧ leaving ls V k = l.iTo (V l.fBus) (V l.tBus))) := by
  obtain ⟨he, l1, l2, hbr, hno⟩ := hk
  have hF := hV.flow
  rw [hbr] at hF
  obtain ⟨m1, l, m2, rfl, f1, ⟨g1, g2⟩, f2⟩ := forall₂_split hF
  obtain ⟨e1, e2, -⟩ := finite?_eq g1
  have zero : ∀ {bs : List (Branch ℝ)} {ms : List LineC}, List.Forall₂ (fun (b : Branch ℝ) l => b.line.finite? = some l ∧
      b.flow = l.flow (V l.fBus) (V l.tBus)) bs ms → (∀ b ∈ bs, b.line.fBus ≠ k ∧ b.line.tBus ≠ k) → leaving ms V k = 0 := by
    intro bs ms hf hb
    induction hf with
    | nil => simp [leaving]
    | cons h _ ih =>
      obtain ⟨e1, e2, -⟩ := finite?_eq h.1
      obtain ⟨n1, n2⟩ := hb _ List.mem_cons_self
      have := ih fun b hb' => hb b (by simp [hb'])
      simp only [leaving, List.map_cons, List.sum_cons] at this ⊢
      rw [this, if_neg (e1 ▸ n1), if_neg (e2 ▸ n2)]
      simp
  have hsum : leaving (m1 ++ l :: m2) V k = (if l.fBus = k then l.iFrom (V l.fBus) (V l.tBus) else 0) +
      (if l.tBus = k then l.iTo (V l.fBus) (V l.tBus) else 0) := by
    have z1 := zero f1 fun b hb => hno b (by simp [hb])
    have z2 := zero f2 fun b hb => hno b (by simp [hb])
    simp only [leaving, List.map_append, List.sum_append, List.map_cons, List.sum_cons] at z1 z2 ⊢
    rw [z1, z2]
    ring
  refine ⟨l, by simp, g1, g2, ?_⟩
  have hne := hs.1 l (by simp)
  by_cases h : l.fBus = k
  · refine .inl ⟨h, ?_⟩
    rw [hsum, if_pos h, if_neg (fun e => hne (h.trans e.symm)), add_zero]
  · have ht : l.tBus = k := by
      rcases he with he | he
      · exact absurd (e1 ▸ he) h
      · exact e2 ▸ he
    exact .inr ⟨h, ht, by rw [hsum, if_neg h, if_pos ht, zero_add]⟩

/-- **C106.** After a converged transition the power that enters the only branch of a bus other than the slack bus
is the power the bus injects, up to 1e-5 p.u. -/
theorem C106_leaf (hn : CleanFile n base) (hs : SimOf n dt lam s) (hm : Numbered s m) (hl : FiniteLines s ls)
    (h : s.transition ⟨qp, realPF o, pi⟩ a = .ok (s', out)) (hc : out.converged = true) {b : Bus ℝ} {br : Branch ℝ}
    (hb : b ∈ s'.buses) (hbs : b.isSlack = false) (hk : LeafOn s' b.id br) :
    ∃ P Q p q, b.p = .fin P ∧ b.q = .fin Q ∧ entering br b.id = (.fin p, .fin q) ∧ |p - P| ≤ 1e-5 ∧ |q - Q| ≤ 1e-5 := by
  obtain ⟨V, hV, hbal⟩ := C25_converged hn hs hm hl h hc
  obtain ⟨g1, g2, g3⟩ := simOf_lines hn hs hm hl
  obtain ⟨P, Q, e1, e2, b1, b2⟩ := hbal b hb hbs
  obtain ⟨l, hl', f1, f2, ⟨k1, k2⟩ | ⟨k1, k2, k3⟩⟩ := leaving_leaf hV g1 hk
  · obtain ⟨j1, j2, -⟩ := finite?_eq f1
    rw [k2, ← k1] at b1 b2
    refine ⟨P, Q, _, _, e1, e2, ?_, b1, b2⟩
    rw [entering, if_pos (j1.trans k1), f2]
    rfl
  · obtain ⟨j1, j2, -⟩ := finite?_eq f1
    rw [k3, ← k2] at b1 b2
    refine ⟨P, Q, _, _, e1, e2, ?_, b1, b2⟩
    rw [entering, if_neg (j1.trans_ne k1), f2]
    rfl

/-- The power at both ends of a branch whose apparent power is within its rating. -/
theorem rated_ends {l : LineC} {vf vt : ℂ} {R : ℝ} (h : X.abs (l.flow vf vt).sApparentMax ≤ .fin R) :
    0 ≤ R ∧ ((l.sFrom vf vt).re ≠ 0 → ‖l.sFrom vf vt‖ ≤ R ∧ ‖l.sTo vf vt‖ ≤ R) := by
  by_cases h0 : (l.sFrom vf vt).re = 0
  · rw [C34_zero l vf vt h0] at h
    simp only [X.abs, abs_zero, X.fin_le_fin] at h
    exact ⟨h, fun h1 => absurd h0 h1⟩
  · obtain ⟨x, e1, e2, -⟩ := C34_apparent_power_partial l vf vt h0
    rw [e1, X.abs, X.fin_le_fin, e2] at h
    have h1 := (le_max_left _ _).trans h
    exact ⟨(norm_nonneg _).trans h1, fun _ => ⟨h1, (le_max_right _ _).trans h⟩⟩

/-- **C106, rating.** If all limits hold and the branch of the bus is not idle at its first end, what enters it at
the bus is within its rating. -/
theorem C106_rating (hn : CleanFile n base) (hs : SimOf n dt lam s) (hm : Numbered s m) (hl : FiniteLines s ls)
    (h : s.transition ⟨qp, realPF o, pi⟩ a = .ok (s', out)) (hc : out.converged = true) {b : Bus ℝ} {br : Branch ℝ}
    (hb : b ∈ s'.buses) (hbs : b.isSlack = false) (hk : LeafOn s' b.id br) (hw : WithinLimits s') {R : ℝ}
    (hR : br.line.rate = .fin R) (hne : br.flow.pFrom ≠ .fin 0) :
    ∃ P Q p q, b.p = .fin P ∧ b.q = .fin Q ∧ |p - P| ≤ 1e-5 ∧ |q - Q| ≤ 1e-5 ∧ p ^ 2 + q ^ 2 ≤ R ^ 2 := by
  obtain ⟨V, hV, hbal⟩ := C25_converged hn hs hm hl h hc
  obtain ⟨g1, g2, g3⟩ := simOf_lines hn hs hm hl
  obtain ⟨P, Q, e1, e2, b1, b2⟩ := hbal b hb hbs
  have hbr : br ∈ s'.branches := by
    obtain ⟨-, l1, l2, e, -⟩ := hk
    rw [e]; simp
  have hlim := hw.s br hbr
  obtain ⟨l, hl', f1, f2, hcase⟩ := leaving_leaf hV g1 hk
  rw [hR, f2] at hlim
  obtain ⟨hR0, hends⟩ := rated_ends hlim
  have hne' : (l.sFrom (V l.fBus) (V l.tBus)).re ≠ 0 := by
    intro e
    rw [f2] at hne
    exact hne (congrArg X.fin e)
  have key : ∀ z : ℂ, ‖z‖ ≤ R → z.re ^ 2 + z.im ^ 2 ≤ R ^ 2 := by
    intro z hz
    have := Complex.sq_norm z
    rw [Complex.normSq_apply] at this
    nlinarith [norm_nonneg z]
  obtain ⟨n1, n2⟩ := hends hne'
  rcases hcase with ⟨k1, k2⟩ | ⟨k1, k2, k3⟩
  · rw [k2, ← k1] at b1 b2
    exact ⟨P, Q, _, _, e1, e2, b1, b2, key _ n1⟩
  · rw [k3, ← k2] at b1 b2
    exact ⟨P, Q, _, _, e1, e2, b1, b2, key _ n2⟩

/-- **C106, demand.** If all limits hold, a bus with a single branch draws at most the rating of the branch, up to
1e-5 p.u. -/
theorem C106_draw (hn : CleanFile n base) (hs : SimOf n dt lam s) (hm : Numbered s m) (hl : FiniteLines s ls)
    (h : s.transition ⟨qp, realPF o, pi⟩ a = .ok (s', out)) (hc : out.converged = true) {b : Bus ℝ} {br : Branch ℝ}
    (hb : b ∈ s'.buses) (hbs : b.isSlack = false) (hk : LeafOn s' b.id br) (hw : WithinLimits s') {R P : ℝ}
    (hR : br.line.rate = .fin R) (hP : b.p = .fin P) : -P ≤ R + 1e-5 := by
  obtain ⟨V, hV, hbal⟩ := C25_converged hn hs hm hl h hc
  obtain ⟨g1, g2, g3⟩ := simOf_lines hn hs hm hl
  obtain ⟨P', Q, e1, e2, b1, b2⟩ := hbal b hb hbs
  rw [hP] at e1
  cases e1
  have hbr : br ∈ s'.branches := by
    obtain ⟨-, l1, l2, e, -⟩ := hk
    rw [e]; simp
  have hlim := hw.s br hbr
  obtain ⟨l, hl', f1, f2, hcase⟩ := leaving_leaf hV g1 hk
  rw [hR, f2] at hlim
  obtain ⟨hR0, hends⟩ := rated_ends hlim
  have hpass := (C30_branch_losses (g3 l hl') (V l.fBus) (V l.tBus)).2.1
  rcases hcase with ⟨k1, k2⟩ | ⟨k1, k2, k3⟩
  · rw [k2, ← k1] at b1
    change |(l.sFrom (V l.fBus) (V l.tBus)).re - P| ≤ 1e-5 at b1
    have := (abs_le.1 b1)
    by_cases h0 : (l.sFrom (V l.fBus) (V l.tBus)).re = 0
    · rw [h0] at this; linarith
    · have := (abs_le.1 ((Complex.abs_re_le_norm _).trans (hends h0).1)).1
      linarith
  · rw [k3, ← k2] at b1
    change |(l.sTo (V l.fBus) (V l.tBus)).re - P| ≤ 1e-5 at b1
    have := (abs_le.1 b1)
    by_cases h0 : (l.sFrom (V l.fBus) (V l.tBus)).re = 0
    · rw [h0] at hpass; linarith
    · have := (abs_le.1 ((Complex.abs_re_le_norm _).trans (hends h0).2)).1
      linarith

/-- Losses of a branch without shunt and transformer, from the power and the voltage at its second end. -/
theorem plain_loss {l : LineC} (hg : GoodLine l) (hb : l.b = 0) (ht : l.tapMagn = 1) (hd : l.shiftDeg = 0) (vf vt : ℂ) :
    ((l.sFrom vf vt).re + (l.sTo vf vt).re) * ‖vt‖ ^ 2 = l.r * ‖l.sTo vf vt‖ ^ 2 := by
  have htap : l.tap = 1 := by simp [LineC.tap, LineC.shift, ht, hd]
  have e1 : l.iTo vf vt = l.series * (vt - vf) := by
    simp only [LineC.iTo, htap, LineC.shunt, hb]
    push_cast
    ring
  rw [(C30_branch_losses hg vf vt).1, htap, div_one, LineC.sTo, e1, map_mul, norm_mul, norm_mul, RCLike.norm_conj, RCLike.norm_conj,
    ← norm_neg (vt - vf), neg_sub]
  have e2 : ‖l.series‖ ^ 2 = 1 / (l.r ^ 2 + l.x ^ 2) := by
    rw [LineC.series, norm_div, norm_one, div_pow, one_pow, Complex.sq_norm, Complex.normSq_apply]
    simp [mul_comm]
    ring
  rw [mul_pow, mul_pow, e2]
  ring

/-- **C106, production.** The same for what a bus injects into a branch without shunt and transformer whose second
end it is, if the branch cannot lose all of it: its losses at the lowest voltage are smaller than the
injection. -/
theorem C106_inject (hn : CleanFile n base) (hs : SimOf n dt lam s) (hm : Numbered s m) (hl : FiniteLines s ls)
    (h : s.transition ⟨qp, realPF o, pi⟩ a = .ok (s', out)) (hc : out.converged = true) {b : Bus ℝ} {br : Branch ℝ}
    (hb : b ∈ s'.buses) (hbs : b.isSlack = false) (hk : LeafOn s' b.id br) (hw : WithinLimits s') {R r lo P Q : ℝ}
    (hR : br.line.rate = .fin R) (hr : br.line.r = .fin r) (hB : br.line.b = .fin 0)
    (hT : br.line.tapMagn = .fin 1) (hD : br.line.shiftDeg = .fin 0) (hlo : b.vMin = some (.fin lo)) (hlo0 : 0 < lo)
    (hP : b.p = .fin P) (hQ : b.q = .fin Q)
    (hsmall : r * ((P + 1e-5) ^ 2 + (|Q| + 1e-5) ^ 2) < (P - 1e-5) * lo ^ 2) : P ≤ R + 1e-5 := by
  obtain ⟨V, hV, hbal⟩ := C25_converged hn hs hm hl h hc
  obtain ⟨g1, g2, g3⟩ := simOf_lines hn hs hm hl
  obtain ⟨P', Q', e1, e2, b1, b2⟩ := hbal b hb hbs
  rw [hP] at e1
  cases e1
  rw [hQ] at e2
  cases e2
  have hbr : br ∈ s'.branches := by
    obtain ⟨-, l1, l2, e, -⟩ := hk
    rw [e]; simp
  have hlim := hw.s br hbr
  obtain ⟨l, hl', f1, f2, hcase⟩ := leaving_leaf hV g1 hk
  rw [hR, f2] at hlim
  obtain ⟨hR0, hends⟩ := rated_ends hlim
  obtain ⟨-, -, j3, -, j5, j6, j7⟩ := finite?_eq f1
  rw [hr] at j3; rw [hB] at j5; rw [hT] at j6; rw [hD] at j7
  simp only [X.fin.injEq] at j3 j5 j6 j7
  rcases hcase with ⟨k1, k2⟩ | ⟨k1, k2, k3⟩
  · rw [k2, ← k1] at b1
    change |(l.sFrom (V l.fBus) (V l.tBus)).re - P| ≤ 1e-5 at b1
    have := (abs_le.1 b1)
    by_cases h0 : (l.sFrom (V l.fBus) (V l.tBus)).re = 0
    · rw [h0] at this; linarith
    · have := (abs_le.1 ((Complex.abs_re_le_norm _).trans (hends h0).1)).2
      linarith
  · rw [k3, ← k2] at b1 b2
    change |(l.sTo (V l.fBus) (V l.tBus)).re - P| ≤ 1e-5 at b1
    change |(l.sTo (V l.fBus) (V l.tBus)).im - Q| ≤ 1e-5 at b2
    have a1 := (abs_le.1 b1)
    have a2 := (abs_le.1 b2)
    by_cases h0 : (l.sFrom (V l.fBus) (V l.tBus)).re = 0
    · exfalso
      have hloss := plain_loss (g3 l hl') j5.symm j6.symm j7.symm (V l.fBus) (V l.tBus)
      rw [h0, zero_add] at hloss
      obtain ⟨lo', hlo', hv, -⟩ := hw.v b hb
      rw [hlo] at hlo'
      cases hlo'
      rw [hV.v b hb, ← k2] at hv
      have hv : lo ≤ ‖V l.tBus‖ := hv
      have hsq : lo ^ 2 ≤ ‖V l.tBus‖ ^ 2 := by nlinarith
      set z := l.sTo (V l.fBus) (V l.tBus) with hz
      have hn2 : ‖z‖ ^ 2 = z.re ^ 2 + z.im ^ 2 := by
        rw [Complex.sq_norm, Complex.normSq_apply]; ring
      have hr0 := (g3 l hl').r
      have i1 : |z.im| ≤ |Q| + 1e-5 := by
        have := abs_sub_abs_le_abs_sub z.im Q
        linarith
      have i2 : z.im ^ 2 ≤ (|Q| + 1e-5) ^ 2 := by
        rw [← sq_abs z.im]
        exact pow_le_pow_left₀ (abs_nonneg _) i1 2
      have hp0 : 0 ≤ P - 1e-5 := by
        by_contra hneg
        have : 0 ≤ r * ((P + 1e-5) ^ 2 + (|Q| + 1e-5) ^ 2) := by rw [j3]; positivity
        nlinarith [mul_pos hlo0 hlo0]
      have i3 : z.re ^ 2 ≤ (P + 1e-5) ^ 2 := pow_le_pow_left₀ (by linarith) (by linarith) 2
      have i4 : (P - 1e-5) * lo ^ 2 ≤ z.re * ‖V l.tBus‖ ^ 2 :=
        mul_le_mul (by linarith) hsq (by positivity) (by linarith)
      rw [hloss, hn2, ← j3] at i4
      have i5 : r * (z.re ^ 2 + z.im ^ 2) ≤ r * ((P + 1e-5) ^ 2 + (|Q| + 1e-5) ^ 2) :=
        mul_le_mul_of_nonneg_left (by linarith) (by rw [j3]; exact hr0)
      linarith
    · have := (abs_le.1 ((Complex.abs_re_le_norm _).trans (hends h0).2)).2
      linarith

end Anm
