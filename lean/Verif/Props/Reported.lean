import Verif.Props.RealDemo

/-! # C29, C30, C31, C71 in terms of the values reported after a transition -/

set_option linter.unusedSectionVars false

namespace Anm

open Spec Complex ComplexConjugate

namespace Spec

/-- The complex number with the reported real and imaginary parts. -/
noncomputable def value (z : Phasor ℝ) : ℂ := ⟨finVal z.re, finVal z.im⟩

/-- The reported voltage of the bus with ID `i` is the finite number `v`. -/
def VoltageAt (s : Sim ℝ) (i : ℤ) (v : ℂ) : Prop := ∃ b ∈ s.buses, b.id = i ∧ b.v = .ofC v

/-- Sum of the reported currents that flow out of bus `i` into its branches. -/
noncomputable def outflow (s : Sim ℝ) (i : ℤ) : ℂ :=
  (s.branches.map fun b => (if b.line.fBus = i then value b.flow.iFrom else 0) +
    (if b.line.tBus = i then value b.flow.iTo else 0)).sum

end Spec

theorem value_ofC (z : ℂ) : value (.ofC z) = z := rfl

theorem leaving_eq_outflow {s : Sim ℝ} {ls : List LineC} {V : ℤ → ℂ} (h : Solved s ls V) (i : ℤ) :
    leaving ls V i = outflow s i := by
  unfold leaving outflow
  congr 1
  rw [← List.forall₂_eq_eq_eq, List.forall₂_map_left_iff, List.forall₂_map_right_iff]
  refine h.flow.flip.imp fun l b hb => ?_
  obtain ⟨h1, h2⟩ := hb
  obtain ⟨e1, e2, _⟩ := finite?_eq h1
  rw [h2, e1, e2]
  rfl

section
variable {n : Network ℝ} {base : ℝ} {dt lam : X ℝ} {s s' : Sim ℝ} {m : ℕ} {ls : List LineC}
  {o : LFOracle} {qp : QP ℝ} {pi : ℝ} {a : Sim.Args ℝ} {out : Sim.TransOut ℝ}

/-- **C29, reported values.** After a converged transition the reported current of every bus is the sum
of the reported currents flowing from the bus into its branches. -/
theorem C29_reported (hn : CleanFile n base) (hs : SimOf n dt lam s) (hm : Numbered s m)
    (hl : FiniteLines s ls) (h : s.transition ⟨qp, realPF o, pi⟩ a = .ok (s', out))
    (hc : out.converged = true) : ∀ b ∈ s'.buses, b.i = .ofC (outflow s' b.id) := by
  obtain ⟨V, hV, _⟩ := C25_converged hn hs hm hl h hc
  intro b hb
  rw [hV.i b hb, leaving_eq_outflow hV]

/-- The voltages of the ends of a branch after a transition. -/
theorem branch_ends (hn : CleanFile n base) (hs : SimOf n dt lam s) (hm : Numbered s m)
    (hl : FiniteLines s ls) (h : s.transition ⟨qp, realPF o, pi⟩ a = .ok (s', out))
    {V : ℤ → ℂ} (hV : Solved s' ls V) {br : Branch ℝ} (hbr : br ∈ s'.branches) :
    ∃ c, br.line.finite? = some c ∧ GoodLine c ∧ VoltageAt s' br.line.fBus (V c.fBus) ∧
      VoltageAt s' br.line.tBus (V c.tBus) ∧ br.flow = c.flow (V c.fBus) (V c.tBus) := by
  obtain ⟨_, g2, g3⟩ := simOf_lines hn hs hm hl
  have hm' := numbered_same (sameConfig_transition h) hm
  obtain ⟨c, hcm, hc1, hc2⟩ := forall₂_mem_left hV.flow hbr
  obtain ⟨e1, e2, _⟩ := finite?_eq hc1
  have hv : ∀ i : ℤ, 0 ≤ i ∧ i < (m + 1 : ℕ) → VoltageAt s' i (V i) := by
    intro i hi
    obtain ⟨k, rfl⟩ := Int.eq_ofNat_of_zero_le hi.1
    have hk : k < m + 1 := by exact_mod_cast hi.2
    have hlen := length_of_ids hm'.ids
    have hb : s'.buses[k]? = some (s'.buses[k]'(by omega)) := by simp [hlen, hk]
    have hid := (get_id hm'.ids hb).1
    exact ⟨_, List.mem_of_getElem? hb, hid, by rw [hV.v _ (List.mem_of_getElem? hb), hid]⟩
  refine ⟨c, hc1, g3 c hcm, ?_, ?_, hc2⟩
  · rw [e1]; exact hv _ (g2 c hcm).1
  · rw [e2]; exact hv _ (g2 c hcm).2

/-- **C71, reported values.** After a converged transition the reported currents of every branch are
those of the π-model: a transformer of ratio `TAP * exp(j SHIFT)` (degrees) at the sending end, the series
impedance `r + jx` and half of the line charging `b` at each end, for the reported voltages of its buses;
and the reported powers are `V conj(I)`. -/
theorem C71_reported (hn : CleanFile n base) (hs : SimOf n dt lam s) (hm : Numbered s m)
    (hl : FiniteLines s ls) (h : s.transition ⟨qp, realPF o, pi⟩ a = .ok (s', out))
    (hc : out.converged = true) {br : Branch ℝ} (hbr : br ∈ s'.branches) :
    ∃ (r x b τ θ : ℝ) (vf vt : ℂ), br.line.r = .fin r ∧ br.line.x = .fin x ∧ br.line.b = .fin b ∧
      br.line.tapMagn = .fin τ ∧ br.line.shiftDeg = .fin θ ∧
      VoltageAt s' br.line.fBus vf ∧ VoltageAt s' br.line.tBus vt ∧
      (let t : ℂ := τ * exp (I * ((θ * Real.pi / 180 : ℝ) : ℂ))
      let i := piFrom (1 / (r + I * x)) b t vf vt
      let j := piTo (1 / (r + I * x)) b t vf vt
      br.flow.iFrom = .ofC i ∧ br.flow.iTo = .ofC j ∧
      br.flow.pFrom = .fin (vf * conj i).re ∧ br.flow.qFrom = .fin (vf * conj i).im ∧
      br.flow.pTo = .fin (vt * conj j).re ∧ br.flow.qTo = .fin (vt * conj j).im) := by
  obtain ⟨V, hV, _⟩ := C25_converged hn hs hm hl h hc
  obtain ⟨c, hc1, hg, hf, ht, hfl⟩ := branch_ends hn hs hm hl h hV hbr
  obtain ⟨_, _, e3, e4, e5, e6, e7⟩ := finite?_eq hc1
  have htap : c.tap ≠ 0 := by rw [← norm_ne_zero_iff, norm_tap c hg.tap.le]; exact hg.tap.ne'
  obtain ⟨p1, p2⟩ := C71_pi_model c htap (V c.fBus) (V c.tBus)
  refine ⟨c.r, c.x, c.b, c.tapMagn, c.shiftDeg, V c.fBus, V c.tBus, e3, e4, e5, e6, e7, hf, ht, ?_⟩
  have q1 : piFrom (1 / (c.r + I * c.x)) c.b (c.tapMagn * exp (I * ((c.shiftDeg * Real.pi / 180 : ℝ) : ℂ)))
      (V c.fBus) (V c.tBus) = c.iFrom (V c.fBus) (V c.tBus) := p1.symm
  have q2 : piTo (1 / (c.r + I * c.x)) c.b (c.tapMagn * exp (I * ((c.shiftDeg * Real.pi / 180 : ℝ) : ℂ)))
      (V c.fBus) (V c.tBus) = c.iTo (V c.fBus) (V c.tBus) := p2.symm
  simp only [q1, q2, hfl]
  exact ⟨rfl, rfl, rfl, rfl, rfl, rfl⟩

/-- **C30, reported values.** After a converged transition the reported active powers at the two ends of
a branch sum to at least 0, and to exactly 0 if its resistance is 0. -/
theorem C30_reported (hn : CleanFile n base) (hs : SimOf n dt lam s) (hm : Numbered s m)
    (hl : FiniteLines s ls) (h : s.transition ⟨qp, realPF o, pi⟩ a = .ok (s', out))
    (hc : out.converged = true) {br : Branch ℝ} (hbr : br ∈ s'.branches) :
    ∃ p q : ℝ, br.flow.pFrom = .fin p ∧ br.flow.pTo = .fin q ∧ 0 ≤ p + q ∧
      (br.line.r = .fin 0 → p + q = 0) := by
  obtain ⟨V, hV, _⟩ := C25_converged hn hs hm hl h hc
  obtain ⟨c, hc1, hg, _, _, hfl⟩ := branch_ends hn hs hm hl h hV hbr
  obtain ⟨_, _, e3, _⟩ := finite?_eq hc1
  obtain ⟨_, k2, k3⟩ := C30_branch_losses hg (V c.fBus) (V c.tBus)
  refine ⟨_, _, by rw [hfl]; rfl, by rw [hfl]; rfl, k2, fun h0 => k3 ?_⟩
  rw [e3] at h0
  simpa using h0

/-- **C31, reported values.** After a converged transition the sum over the buses of `Re(V conj I)`, for
the reported voltages and currents, equals the sum of the reported line losses `p_from + p_to`, and is not
negative. -/
theorem C31_reported (hn : CleanFile n base) (hs : SimOf n dt lam s) (hm : Numbered s m)
    (hl : FiniteLines s ls) (h : s.transition ⟨qp, realPF o, pi⟩ a = .ok (s', out))
    (hc : out.converged = true) :
    (s'.buses.map fun b => (value b.v * conj (value b.i)).re).sum =
        (s'.branches.map fun b => finVal b.flow.pFrom + finVal b.flow.pTo).sum ∧
      0 ≤ (s'.branches.map fun b => finVal b.flow.pFrom + finVal b.flow.pTo).sum := by
  obtain ⟨V, hV, _⟩ := C25_converged hn hs hm hl h hc
  obtain ⟨_, g2, _⟩ := simOf_lines hn hs hm hl
  have hm' := numbered_same (sameConfig_transition h) hm
  have hbr : s'.branches.map (fun b => finVal b.flow.pFrom + finVal b.flow.pTo) =
      ls.map fun l => (l.sFrom (V l.fBus) (V l.tBus) + l.sTo (V l.fBus) (V l.tBus)).re := by
    rw [← List.forall₂_eq_eq_eq, List.forall₂_map_left_iff, List.forall₂_map_right_iff]
    refine hV.flow.imp fun b l hb => ?_
    rw [hb.2]
    rfl
  have hbus : s'.buses.map (fun b => (value b.v * conj (value b.i)).re) =
      (List.range (m + 1)).map fun k : ℕ => (V k * conj (leaving ls V k)).re := by
    have : s'.buses.map (fun b => (value b.v * conj (value b.i)).re) =
        (s'.buses.map Bus.id).map fun i => (V i * conj (leaving ls V i)).re := by
      rw [List.map_map]
      refine List.map_congr_left fun b hb => ?_
      rw [hV.v b hb, hV.i b hb]
      rfl
    rw [this, hm'.ids, List.map_map]
    rfl
  constructor
  · rw [hbr, hbus, list_range_sum]
    have key := sum_leaving g2 (fun k : Fin (m + 1) => V (k : ℕ))
    have hat : ∀ i : ℤ, 0 ≤ i ∧ i < (m + 1 : ℕ) → atId (fun k : Fin (m + 1) => V (k : ℕ)) i = V i := by
      intro i hi
      unfold atId
      rw [dif_pos (by omega)]
      show V (i.toNat : ℤ) = V i
      rw [Int.toNat_of_nonneg hi.1]
    have e1 : ∀ i, leaving ls (atId fun k : Fin (m + 1) => V (k : ℕ)) i = leaving ls V i := by
      intro i
      unfold leaving
      congr 1
      refine List.map_congr_left fun l hl' => ?_
      rw [hat _ (g2 l hl').1, hat _ (g2 l hl').2]
    have e2 : (ls.map fun l => l.sFrom (atId (fun k : Fin (m + 1) => V (k : ℕ)) l.fBus)
        (atId (fun k : Fin (m + 1) => V (k : ℕ)) l.tBus) +
        l.sTo (atId (fun k : Fin (m + 1) => V (k : ℕ)) l.fBus) (atId (fun k : Fin (m + 1) => V (k : ℕ)) l.tBus)) =
        ls.map fun l => l.sFrom (V l.fBus) (V l.tBus) + l.sTo (V l.fBus) (V l.tBus) := by
      refine List.map_congr_left fun l hl' => ?_
      rw [hat _ (g2 l hl').1, hat _ (g2 l hl').2]
    simp only [e1] at key
    rw [e2] at key
    have key' := congrArg Complex.re key
    rw [Complex.re_sum] at key'
    rw [key']
    have : ∀ l : List ℂ, l.sum.re = (l.map Complex.re).sum := by
      intro l
      induction l with
      | nil => rfl
      | cons a l ih => simp [ih]
    rw [this, List.map_map]
    rfl
  · refine List.sum_nonneg fun x hx => ?_
    obtain ⟨br, hb, rfl⟩ := List.mem_map.1 hx
    obtain ⟨p, q, e1, e2, h0, _⟩ := C30_reported hn hs hm hl h hc hb
    rw [e1, e2]
    exact h0

end

/-- The hypotheses are met by a run in which bus 1 is at 2 p.u. -/
example (o : LFOracle) (ho : ExactSolve o) (pi : ℝ) : ∃ n base s m ls qp a s' out,
    CleanFile n base ∧ SimOf n (.fin 1) (.fin 1) s ∧ Numbered s m ∧ FiniteLines s ls ∧
    s.transition ⟨qp, realPF o, pi⟩ a = .ok (s', out) ∧ out.converged = true ∧ s'.branches ≠ [] := by
  obtain ⟨s, s', out, hmk, F, h, hc, _⟩ := good_run o ho pi
  refine ⟨goodNet, 1, s, 1, [goodLine], exactQP, _, s', out, goodNet_clean, ⟨s, hmk, sameConfig_refl s⟩,
    two_numbered F, two_lines F, h, hc, ?_⟩
  intro e
  have := (two_same (sameConfig_transition h) F).branches
  simp [e] at this

end Anm
