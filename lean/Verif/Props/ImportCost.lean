import Verif.Props.VoltageDrop

/-! # C149: what the exchange with the main grid costs -/

set_option linter.unusedSectionVars false

namespace Anm

open Spec Complex ComplexConjugate

/-- Transporting active power over a line takes losses that grow with its square, whatever the other end. -/
theorem transport_loss {c : LineC} (hc : GoodLine c) (vf vt : ℂ) :
    c.r * (c.sFrom vf vt).re ^ 2 ≤ (‖vf‖ / c.tapMagn) ^ 2 * (c.sFrom vf vt + c.sTo vf vt).re ∧
      c.r * (c.sTo vf vt).re ^ 2 ≤ ‖vt‖ ^ 2 * (c.sFrom vf vt + c.sTo vf vt).re := by
  have ht : c.tap ≠ 0 := by rw [← norm_ne_zero_iff, norm_tap c hc.tap.le]; exact hc.tap.ne'
  obtain ⟨e1, e2⟩ := C71_pi_model c ht vf vt
  have h3 : vf * conj (piFrom c.series c.b c.tap vf vt) = vf / c.tap *
      conj (c.series * (vf / c.tap - vt) + I * (c.b / 2) * (vf / c.tap)) := by
    unfold piFrom
    rw [map_div₀, Complex.conj_conj]
    ring
  have hu : (‖vf‖ / c.tapMagn) ^ 2 = ‖vf / c.tap‖ ^ 2 := by rw [norm_div, norm_tap c hc.tap.le]
  have hp := congrArg Complex.re (branch_power hc vf vt)
  have hJ : I * (c.b / 2 : ℝ) * vt - c.iTo vf vt = c.series * (vf / c.tap - vt) := by
    rw [e2]
    unfold piTo
    push_cast
    ring
  rw [hJ] at hp
  rw [hp]
  unfold LineC.sFrom LineC.sTo
  rw [e1, e2, h3, hu]
  unfold piTo
  generalize vf / c.tap = u
  obtain ⟨J, hJ'⟩ : ∃ J, J = c.series * (u - vt) := ⟨_, rfl⟩
  have e3 : c.series * (vt - u) = -J := by rw [hJ']; ring
  rw [← hJ', e3, show ((c.b : ℂ) / 2) = ((c.b / 2 : ℝ) : ℂ) by push_cast; rfl]
  have hn : ∀ w : ℂ, ‖w‖ ^ 2 = w.re ^ 2 + w.im ^ 2 := by
    intro w
    rw [← Complex.normSq_eq_norm_sq, Complex.normSq_apply]
    ring
  rw [hn u, hn vt]
  have hr := hc.r
  obtain ⟨N, hN⟩ : ∃ N, N = ‖J‖ ^ 2 := ⟨_, rfl⟩
  rw [← hN]
  rw [hn] at hN
  generalize c.b / 2 * (‖vf‖ ^ 2 / c.tapMagn ^ 2 + (vt.re ^ 2 + vt.im ^ 2)) = B
  generalize c.b / 2 = w
  constructor
  · have : (u * conj (J + I * (w : ℂ) * u)).re = u.re * J.re + u.im * J.im := by simp; ring
    rw [this]
    have : ((c.r + I * c.x : ℂ) * (N : ℂ) - I * (B : ℂ)).re = c.r * N := by simp
    rw [this, hN]
    nlinarith [mul_nonneg hr (sq_nonneg (u.re * J.im - u.im * J.re))]
  · have : (vt * conj (-J + I * (w : ℂ) * vt)).re = -(vt.re * J.re + vt.im * J.im) := by simp; ring
    rw [this]
    have : ((c.r + I * c.x : ℂ) * (N : ℂ) - I * (B : ℂ)).re = c.r * N := by simp
    rw [this, hN]
    nlinarith [mul_nonneg hr (sq_nonneg (vt.re * J.im - vt.im * J.re))]

/-- Cauchy's inequality for sums over a list. -/
theorem list_cauchy {α : Type} {a w h : α → ℝ} : ∀ (l : List α), (∀ x ∈ l, 0 ≤ w x ∧ 0 ≤ h x ∧ a x ^ 2 ≤ w x * h x) →
    0 ≤ (l.map w).sum ∧ 0 ≤ (l.map h).sum ∧ (l.map a).sum ^ 2 ≤ (l.map w).sum * (l.map h).sum
  | [], _ => by simp
  | x :: l, hl => by
    obtain ⟨k1, k2, k3⟩ := list_cauchy l fun y hy => hl y (by simp [hy])
    obtain ⟨g1, g2, g3⟩ := hl x (by simp)
    simp only [List.map_cons, List.sum_cons]
    generalize (l.map a).sum = A at *
    generalize (l.map w).sum = W at *
    generalize (l.map h).sum = H at *
    refine ⟨by linarith, by linarith, ?_⟩
    have key : 2 * (a x * A) ≤ w x * H + W * h x := by
      refine le_of_sq_le_sq ?_ (by positivity)
      have e1 : (a x * A) ^ 2 ≤ (w x * h x) * (W * H) := by
        rw [mul_pow]
        exact mul_le_mul g3 k3 (sq_nonneg _) (mul_nonneg g1 g2)
      nlinarith [sq_nonneg (w x * H - W * h x)]
    nlinarith

section
variable {m : ℕ} {ls : List LineC} {s s' : Sim ℝ} {o : LFOracle} {qp : QP ℝ} {pi : ℝ} {a : Sim.Args ℝ}
  {out : Sim.TransOut ℝ} {n : Network ℝ} {base : ℝ} {dt lam : X ℝ} {i j : ℤ}

/-- **C149, one branch.** After a converged transition the losses of a branch (the sum of the powers reported at its ends) are at least its resistance
times the square of the power at either end, divided by the square of the voltage there (behind the transformer). -/
theorem C149_branch (hn : CleanFile n base) (hs : SimOf n dt lam s) (hm : Numbered s m)
    (hl : FiniteLines s ls) (h : s.transition ⟨qp, realPF o, pi⟩ a = .ok (s', out))
    (hc : out.converged = true) {br : Branch ℝ} (hbr : br ∈ s'.branches) :
    finVal br.line.r * finVal br.flow.pFrom ^ 2 ≤ sendingV s' br ^ 2 * (finVal br.flow.pFrom + finVal br.flow.pTo) ∧
      finVal br.line.r * finVal br.flow.pTo ^ 2 ≤ receivingV s' br ^ 2 * (finVal br.flow.pFrom + finVal br.flow.pTo) := by
  obtain ⟨V, hV, -⟩ := C25_converged hn hs hm hl h hc
  have hm' := numbered_same (sameConfig_transition h) hm
  obtain ⟨c, hc1, hg, hf, ht, hfl⟩ := branch_ends hn hs hm hl h hV hbr
  obtain ⟨-, -, e3, -, -, e6, -⟩ := finite?_eq hc1
  unfold sendingV receivingV
  rw [busVoltage_eq hm' hf, busVoltage_eq hm' ht, e3, e6, hfl]
  exact transport_loss hg (V c.fBus) (V c.tBus)

theorem gridLimit_same (hsc : SameConfig s s') : gridLimit s' = gridLimit s := by
  unfold gridLimit
  congr 1
  have := hsc.branches
  generalize s.branches = L at this
  generalize s'.branches = L' at this
  induction this with
  | nil => rfl
  | cons hab _ ih => rw [List.map_cons, List.map_cons, ih, hab]

/-- **C149, the main grid.** After a converged transition, the square of the active power exchanged with the main grid (the power of the slack
bus, in either direction) is at most four times the limit of C146 times the losses of all branches: exchanging twice the power takes at least
four times the losses. -/
theorem C149_import (hn : CleanFile n base) (hs : SimOf n dt lam s) (hm : Numbered s m)
    (hl : FiniteLines s ls) (h : s.transition ⟨qp, realPF o, pi⟩ a = .ok (s', out))
    (hc : out.converged = true) (hr : Resistive s notSlack) {b : Bus ℝ} (hb : b ∈ s'.buses) (hid : b.id = 0) :
    finVal b.p ^ 2 ≤ 4 * gridLimit s * (s'.branches.map (heat s')).sum := by
  obtain ⟨V, hV, -⟩ := C25_converged hn hs hm hl h hc
  obtain ⟨g1, g2, g3⟩ := simOf_lines hn hs hm hl
  have hsc := sameConfig_transition h
  have hm' := numbered_same hsc hm
  have hnd : (s'.buses.map Bus.id).Nodup := by
    rw [hm'.ids]
    exact List.nodup_range.map fun a b h => Int.ofNat_inj.1 h
  have hmem : ∀ k : ℤ, 0 ≤ k ∧ k < (m + 1 : ℕ) → k ∈ s'.buses.map Bus.id := by
    intro k hk
    rw [hm'.ids]
    exact List.mem_map.2 ⟨k.toNat, List.mem_range.2 (by omega), Int.toNat_of_nonneg hk.1⟩
  have hsum := congrArg Complex.re (region_sum hnd (ls := ls) V (fun k => decide (k = 0)) fun l hl' =>
    ⟨hmem _ (g2 l hl').1, hmem _ (g2 l hl').2⟩)
  have hre : ∀ l : List ℂ, l.sum.re = (l.map Complex.re).sum := by
    intro l
    induction l with
    | nil => rfl
    | cons a l ih => simp [ih]
  have hfil : ((s'.buses.map Bus.id).filter fun k => decide (k = 0)) = [0] := by
    rw [hm'.ids, List.range_succ_eq_map]
    simp
    intro k _
    omega
  rw [hfil, hre, hre, List.map_map, List.map_map] at hsum
  simp only [List.map_cons, List.map_nil, List.sum_cons, List.sum_nil, add_zero, Function.comp_apply] at hsum
  have hp : finVal b.p = (V 0 * conj (leaving ls V 0)).re := by
    rw [(hV.slack b hb ((hm'.slack b hb).2 hid)).1]
    rfl
  rw [hp, hsum]
  -- the lines as branches
  have f1 : s'.branches.map (heat s') = ls.map fun l => (l.sFrom (V l.fBus) (V l.tBus) + l.sTo (V l.fBus) (V l.tBus)).re := by
    have e1 : s'.branches.map (heat s') = s'.branches.map fun b => finVal b.flow.pFrom + finVal b.flow.pTo := by
      refine List.map_congr_left fun b hb => ?_
      obtain ⟨_, _, _, _, e1, e2, -, -, e5, -⟩ := C143_branch hn hs hm hl h hc hb
      rw [e1, e2, ← e5]
      rfl
    rw [e1, ← List.forall₂_eq_eq_eq, List.forall₂_map_left_iff, List.forall₂_map_right_iff]
    refine hV.flow.imp fun b l hb => ?_
    rw [hb.2]
    rfl
  have f2 : 4 * gridLimit s = (ls.map fun l => if l.fBus = 0 ∧ l.tBus ≠ 0 then (1 / l.tapMagn) ^ 2 / l.r
      else if l.tBus = 0 ∧ l.fBus ≠ 0 then 1 / l.r else 0).sum := by
    rw [← gridLimit_same hsc]
    unfold gridLimit
    rw [← List.sum_map_mul_left]
    congr 1
    rw [← List.forall₂_eq_eq_eq, List.forall₂_map_left_iff, List.forall₂_map_right_iff]
    refine hV.flow.imp fun b l hb => ?_
    obtain ⟨e1, e2, e3, -, -, e6, -⟩ := finite?_eq hb.1
    rw [e1, e2, e3, e6]
    simp only [finVal, mostPower]
    split_ifs
    · ring
    · ring
    · ring
  rw [f1, f2]
  refine (list_cauchy ls fun l hl' => ?_).2.2
  have G := g3 l hl'
  have hpos : l.fBus = 0 ∨ l.tBus = 0 → 0 < l.r := by
    intro h0
    obtain ⟨b', hb', e, -⟩ := forall₂_mem_right hV.flow hl'
    obtain ⟨q1, q2, q3, -⟩ := finite?_eq e
    obtain ⟨b0, hb0, e0⟩ := forall₂_mem_right hsc.branches hb'
    have := hr b0 hb0
    rw [e0] at q1 q2 q3
    rw [q1, q2, q3] at this
    refine this ?_
    have hne := g1.1 l hl'
    rcases h0 with h0 | h0 <;> simp [notSlack, h0] at hne ⊢
    · exact fun e => hne e.symm
    · exact hne
  obtain ⟨k1, k2⟩ := transport_loss G (V l.fBus) (V l.tBus)
  have hloss := (C30_branch_losses G (V l.fBus) (V l.tBus)).2.1
  have hloss' : 0 ≤ (l.sFrom (V l.fBus) (V l.tBus) + l.sTo (V l.fBus) (V l.tBus)).re := hloss
  have hne := g1.1 l hl'
  refine ⟨?_, hloss', ?_⟩
  · split_ifs with c1 c2
    · have := hpos (.inl c1.1); positivity
    · have := hpos (.inr c2.1); positivity
    · exact le_rfl
  · by_cases hf : l.fBus = 0 <;> by_cases ht : l.tBus = 0
    · exact absurd (hf.trans ht.symm) hne
    · have hr0 := hpos (.inl hf)
      rw [hf] at k1
      simp only [Function.comp_apply, hf, ht, ne_eq, not_false_eq_true, and_self, if_true, decide_true, decide_false, Bool.false_eq_true, if_false, add_zero]
      rw [hV.ref] at k1 ⊢
      rw [div_mul_eq_mul_div, le_div_iff₀ hr0]
      simp only [norm_one] at k1
      linarith
    · have hr0 := hpos (.inr ht)
      rw [ht] at k2
      simp only [Function.comp_apply, hf, ht, ne_eq, not_true_eq_false, not_false_eq_true, and_self, and_false, false_and, if_true, decide_true, decide_false, Bool.false_eq_true, if_false, zero_add]
      rw [hV.ref] at k2 ⊢
      rw [div_mul_eq_mul_div, le_div_iff₀ hr0]
      simp only [norm_one] at k2
      linarith
    · simp [hf, ht]

/-- **C149, the energy loss.** If the slack device is alone at the slack bus and there are no storage units, the energy loss of a converged
transition is at least the time step times `P² / (4 limit)`, where `P` is the active power exchanged with the main grid, up to the tolerance. -/
theorem C149_cost {t : ℝ} (ht : 0 ≤ t) (hn : CleanFile n base) (hs : SimOf n (.fin t) lam s)
    (hm : Numbered s m) (ho : OneSlack s i j) (hl : FiniteLines s ls)
    (hal : ∀ d ∈ s.devices, d.busId = i → d.isSlack = true) (hst : ∀ d ∈ s.devices, d.isStorage = false)
    (h : s.transition ⟨qp, realPF o, pi⟩ a = .ok (s', out)) (hc : out.converged = true)
    (hpot : ∀ d ∈ s'.devices, d.isRenewable = true → ∃ p, d.pPot = .fin p) (hr : Resistive s notSlack)
    {b : Bus ℝ} (hb : b ∈ s'.buses) (hid : b.id = 0) :
    ∃ e, out.eLoss = .fin e ∧ t * (finVal b.p ^ 2 / (4 * gridLimit s)) ≤ e + t * (m * 1e-5) := by
  obtain ⟨-, V, e, hV, he, hk⟩ := C32_energy_loss ht hn hs hm ho hl hal h hc hpot
  have hI := C149_import hn hs hm hl h hc hr hb hid
  have hsc := sameConfig_transition h
  have f1 : s'.branches.map (heat s') = ls.map fun l => loss l V := by
    have e1 : s'.branches.map (heat s') = s'.branches.map fun b => finVal b.flow.pFrom + finVal b.flow.pTo := by
      refine List.map_congr_left fun b hb => ?_
      obtain ⟨_, _, _, _, e1, e2, -, -, e5, -⟩ := C143_branch hn hs hm hl h hc hb
      rw [e1, e2, ← e5]
      rfl
    rw [e1, ← List.forall₂_eq_eq_eq, List.forall₂_map_left_iff, List.forall₂_map_right_iff]
    refine hV.flow.imp fun b l hb => ?_
    rw [hb.2]
    rfl
  rw [f1] at hI
  have hnos : s'.devices.filter Device.isStorage = [] := by
    rw [List.filter_eq_nil_iff]
    intro d hd
    obtain ⟨d0, hd0, e0⟩ := forall₂_mem_right hsc.devices hd
    have := hst d0 hd0
    have h2 : d.isStorage = d0.isStorage := by rw [e0]; rfl
    rw [h2, this]
    simp
  have hcur : 0 ≤ (s'.devices.map curtailed).sum := List.sum_nonneg fun z hz => by
    obtain ⟨d, -, rfl⟩ := List.mem_map.1 hz
    unfold curtailed
    split_ifs
    · exact le_max_left _ _
    · exact le_rfl
  have hpos : 0 ≤ (ls.map fun l => loss l V).sum := List.sum_nonneg fun z hz => by
    obtain ⟨l, hl', rfl⟩ := List.mem_map.1 hz
    have := (C30_branch_losses ((simOf_lines hn hs hm hl).2.2 l hl') (V l.fBus) (V l.tBus)).2.1
    exact this
  refine ⟨e, he, ?_⟩
  rw [hnos] at hk
  simp only [List.map_nil, List.sum_nil, sub_zero] at hk
  have k1 := (abs_le.1 hk).1
  have k2 : finVal b.p ^ 2 / (4 * gridLimit s) ≤ (ls.map fun l => loss l V).sum := by
    rcases lt_or_ge 0 (4 * gridLimit s) with hg | hg
    · rw [div_le_iff₀ hg]
      linarith
    · exact (div_nonpos_of_nonneg_of_nonpos (sq_nonneg _) hg).trans hpos
  have k3 := mul_le_mul_of_nonneg_left (k2.trans (le_add_of_nonneg_right hcur)) ht
  linarith

end

/-- **C149 is not vacuous, and is reached**: behind a line of resistance 1 p.u., a demand of 1/4 p.u. is served (for one linear solver) with
1/2 p.u. from the main grid; the other 1/4 is lost, and `(1/2)² = 4 * 1/4 * 1/4`. -/
theorem C149_ohm (pi : ℝ) : ∃ n s ls s' out b, CleanFile n 1 ∧ SimOf n (.fin 1) (.fin 1) s ∧ Numbered s 1 ∧ FiniteLines s ls ∧
    Resistive s notSlack ∧ s.transition ⟨exactQP, realPF halfOracle, pi⟩ (demand (-1 / 4) 0) = .ok (s', out) ∧
    out.converged = true ∧ b ∈ s'.buses ∧ b.id = 0 ∧ finVal b.p = 1 / 2 ∧
    finVal b.p ^ 2 = 4 * gridLimit s * (s'.branches.map (heat s')).sum := by
  obtain ⟨n, s, ls, s', out, hn, hs, hm, hl, rfl, hr, h, hc, -, -, -, hv, hg, -⟩ := C147_ohm pi
  have hm' := numbered_same (sameConfig_transition h) hm
  obtain ⟨V, hV, -⟩ := C25_converged hn hs hm hl h hc
  have hmem : ∀ k ∈ [(0 : ℤ), 1], ∃ b ∈ s'.buses, b.id = k := by
    intro k hk
    rw [← List.mem_map, hm'.ids]
    simpa [List.range_succ] using hk
  obtain ⟨b, hb, hid⟩ := hmem 0 (by simp)
  obtain ⟨b1, hb1, hid1⟩ := hmem 1 (by simp)
  have hV1 : V 1 = 1 / 2 := by
    rw [← hv]
    exact (busVoltage_eq hm' ⟨b1, hb1, hid1, by rw [hV.v b1 hb1, hid1]⟩).symm
  have hy : ohmLine.series = 1 := by simp [LineC.series, ohmLine]
  have hz : ohmLine.shunt = 0 := by simp [LineC.shunt, ohmLine]
  have ht : ohmLine.tap = 1 := by simp [LineC.tap, LineC.shift, ohmLine]
  have hf : ohmLine.iFrom 1 (1 / 2) = 1 / 2 := by
    simp [LineC.iFrom, hy, hz, ht]
    norm_num
  have hw : ohmLine.iTo 1 (1 / 2) = -(1 / 2) := by
    simp [LineC.iTo, hy, hz, ht]
    norm_num
  have hp : finVal b.p = 1 / 2 := by
    rw [(hV.slack b hb ((hm'.slack b hb).2 hid)).1]
    have : leaving [ohmLine] V 0 = ohmLine.iFrom 1 (1 / 2) := by
      simp only [leaving, List.map_cons, List.map_nil, List.sum_cons, List.sum_nil, show ohmLine.fBus = 0 from rfl,
        show ohmLine.tBus = 1 from rfl, hV.ref, hV1]
      simp
    rw [this, hf, hV.ref]
    simp [finVal]
  refine ⟨n, s, [ohmLine], s', out, b, hn, hs, hm, hl, hr, h, hc, hb, hid, hp, ?_⟩
  have hheat : (s'.branches.map (heat s')).sum = 1 / 4 := by
    have e1 : s'.branches.map (heat s') = s'.branches.map fun b => finVal b.flow.pFrom + finVal b.flow.pTo := by
      refine List.map_congr_left fun b hb => ?_
      obtain ⟨_, _, _, _, e1, e2, -, -, e5, -⟩ := C143_branch hn hs hm hl h hc hb
      rw [e1, e2, ← e5]
      rfl
    obtain ⟨br, hbr, e3⟩ : ∃ br, s'.branches = [br] ∧ br.flow = ohmLine.flow (V ohmLine.fBus) (V ohmLine.tBus) := by
      have := hV.flow
      revert this
      generalize s'.branches = L
      intro hF
      cases hF with
      | cons h1 h2 => cases h2; exact ⟨_, rfl, h1.2⟩
    rw [e1, hbr, List.map_singleton, List.sum_singleton, e3, show ohmLine.fBus = 0 from rfl, show ohmLine.tBus = 1 from rfl, hV.ref, hV1]
    simp only [LineC.flow, LineC.sFrom, LineC.sTo, hf, hw, finVal]
    simp
    norm_num
  rw [hp, hg, hheat]
  norm_num

end Anm
