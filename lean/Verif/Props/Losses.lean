import Verif.Props.Reported
import Verif.Props.Energy

/-! # C143: losses and reactive power balance in terms of the currents -/

set_option linter.unusedSectionVars false

namespace Anm

open Spec Complex ComplexConjugate

namespace Spec

/-- The current in the series impedance of a branch: what leaves it at the receiving end (minus the current
reported there) plus the charging current of that end, for the voltage `vt` there. -/
noncomputable def seriesCurrent (b : Branch ℝ) (vt : ℂ) : ℂ := I * (finVal b.line.b / 2 : ℝ) * vt - value b.flow.iTo

/-- The reported voltage of bus `i` (0 if there is no such bus). -/
noncomputable def busVoltage (s : Sim ℝ) (i : ℤ) : ℂ := ((s.buses.find? fun b => b.id = i).map fun b => value b.v).getD 0

/-- Heat produced by a branch: `r |I|²`. -/
noncomputable def heat (s : Sim ℝ) (b : Branch ℝ) : ℝ := finVal b.line.r * ‖seriesCurrent b (busVoltage s b.line.tBus)‖ ^ 2

/-- Reactive power absorbed by a branch: `x |I|²`, less what its two charging capacitors produce. -/
noncomputable def absorbed (s : Sim ℝ) (b : Branch ℝ) : ℝ :=
  finVal b.line.x * ‖seriesCurrent b (busVoltage s b.line.tBus)‖ ^ 2 -
    finVal b.line.b / 2 * (‖busVoltage s b.line.fBus‖ ^ 2 / finVal b.line.tapMagn ^ 2 + ‖busVoltage s b.line.tBus‖ ^ 2)

end Spec

theorem branch_power {c : LineC} (hc : GoodLine c) (vf vt : ℂ) :
    c.sFrom vf vt + c.sTo vf vt = (c.r + I * c.x) * ((‖I * (c.b / 2 : ℝ) * vt - c.iTo vf vt‖ ^ 2 : ℝ) : ℂ) -
      I * ((c.b / 2 * (‖vf‖ ^ 2 / c.tapMagn ^ 2 + ‖vt‖ ^ 2) : ℝ) : ℂ) := by
  have ht : c.tap ≠ 0 := by rw [← norm_ne_zero_iff, norm_tap c hc.tap.le]; exact hc.tap.ne'
  have hz := impedance_ne hc.rx
  obtain ⟨e1, e2⟩ := C71_pi_model c ht vf vt
  have h3 : vf * conj (piFrom c.series c.b c.tap vf vt) = vf / c.tap *
      conj (c.series * (vf / c.tap - vt) + I * (c.b / 2) * (vf / c.tap)) := by
    unfold piFrom
    rw [map_div₀, Complex.conj_conj]
    ring
  have hu : ‖vf‖ ^ 2 / c.tapMagn ^ 2 = ‖vf / c.tap‖ ^ 2 := by rw [norm_div, norm_tap c hc.tap.le, div_pow]
  have hsq : ∀ w : ℂ, ((‖w‖ ^ 2 : ℝ) : ℂ) = w * conj w := by
    intro w
    rw [Complex.mul_conj, Complex.normSq_eq_norm_sq]
  have hJ : I * (c.b / 2 : ℝ) * vt - c.iTo vf vt = c.series * (vf / c.tap - vt) := by
    rw [e2]
    unfold piTo
    push_cast
    ring
  have hzs : (c.r + I * c.x : ℂ) * c.series = 1 := by
    unfold LineC.series
    field_simp
  unfold LineC.sFrom LineC.sTo
  rw [hJ, e1, h3, hu, e2, hsq, Complex.ofReal_mul, Complex.ofReal_add, hsq, hsq]
  unfold piTo
  generalize vf / c.tap = u
  simp only [map_add, map_mul, map_sub, conj_I, map_div₀, conj_ofReal, map_ofNat]
  push_cast
  linear_combination -(conj c.series * (u - vt) * (conj u - conj vt)) * hzs

section
variable {n : Network ℝ} {base : ℝ} {dt lam : X ℝ} {s s' : Sim ℝ} {m : ℕ} {ls : List LineC}
  {o : LFOracle} {qp : QP ℝ} {pi : ℝ} {a : Sim.Args ℝ} {out : Sim.TransOut ℝ}

theorem busVoltage_eq (hm : Numbered s m) {i : ℤ} {v : ℂ} (h : VoltageAt s i v) : busVoltage s i = v := by
  obtain ⟨b, hb, hi, hv⟩ := h
  unfold busVoltage
  have hnd : (s.buses.map Bus.id).Nodup := by
    rw [hm.ids]
    exact (List.nodup_range).map fun x y h => Int.ofNat.inj h
  have : s.buses.find? (fun b => b.id = i) = some b := by
    cases hf : s.buses.find? (fun b => b.id = i) with
    | none =>
      rw [List.find?_eq_none] at hf
      exact absurd (by simpa using hi) (hf b hb)
    | some b' =>
      have h1 := List.mem_of_find?_eq_some hf
      have h2 := List.find?_some hf
      rw [List.inj_on_of_nodup_map hnd h1 hb (by simpa [hi] using h2)]
  rw [this]
  simp [hv, value_ofC]

/-- **C143.** After a converged transition the reported powers at the two ends of a branch sum to `r |I|²` and to `x |I|²` less
the reactive power of the charging capacitors. -/
theorem C143_branch (hn : CleanFile n base) (hs : SimOf n dt lam s) (hm : Numbered s m)
    (hl : FiniteLines s ls) (h : s.transition ⟨qp, realPF o, pi⟩ a = .ok (s', out))
    (hc : out.converged = true) {br : Branch ℝ} (hbr : br ∈ s'.branches) :
    ∃ pf pt qf qt, br.flow.pFrom = .fin pf ∧ br.flow.pTo = .fin pt ∧ br.flow.qFrom = .fin qf ∧ br.flow.qTo = .fin qt ∧
      pf + pt = heat s' br ∧ qf + qt = absorbed s' br := by
  obtain ⟨V, hV, _⟩ := C25_converged hn hs hm hl h hc
  have hm' := numbered_same (sameConfig_transition h) hm
  obtain ⟨c, hc1, hg, hf, ht, hfl⟩ := branch_ends hn hs hm hl h hV hbr
  obtain ⟨_, _, e3, e4, e5, e6, e7⟩ := finite?_eq hc1
  have key := branch_power hg (V c.fBus) (V c.tBus)
  have hre := congrArg Complex.re key
  have him := congrArg Complex.im key
  refine ⟨_, _, _, _, by rw [hfl]; rfl, by rw [hfl]; rfl, by rw [hfl]; rfl, by rw [hfl]; rfl, ?_, ?_⟩
  · rw [← Complex.add_re, hre]
    unfold heat seriesCurrent
    rw [busVoltage_eq hm' ht, e3, e5, hfl]
    show _ = c.r * ‖I * (c.b / 2 : ℝ) * V c.tBus - c.iTo (V c.fBus) (V c.tBus)‖ ^ 2
    generalize ‖I * (c.b / 2 : ℝ) * V c.tBus - c.iTo (V c.fBus) (V c.tBus)‖ ^ 2 = A
    generalize c.b / 2 * (‖V c.fBus‖ ^ 2 / c.tapMagn ^ 2 + ‖V c.tBus‖ ^ 2) = B
    simp
  · rw [← Complex.add_im, him]
    unfold absorbed seriesCurrent
    rw [busVoltage_eq hm' ht, busVoltage_eq hm' hf, e4, e5, e6, hfl]
    show _ = c.x * ‖I * (c.b / 2 : ℝ) * V c.tBus - c.iTo (V c.fBus) (V c.tBus)‖ ^ 2 -
      c.b / 2 * (‖V c.fBus‖ ^ 2 / c.tapMagn ^ 2 + ‖V c.tBus‖ ^ 2)
    generalize ‖I * (c.b / 2 : ℝ) * V c.tBus - c.iTo (V c.fBus) (V c.tBus)‖ ^ 2 = A
    generalize c.b / 2 * (‖V c.fBus‖ ^ 2 / c.tapMagn ^ 2 + ‖V c.tBus‖ ^ 2) = B
    simp

/-- The complex powers leaving the buses sum to the complex powers entering the branches. -/
theorem total_power (hn : CleanFile n base) (hs : SimOf n dt lam s) (hm : Numbered s m) (hl : FiniteLines s ls) (hm' : Numbered s' m)
    (V : ℤ → ℂ) : (s'.buses.map fun b => V b.id * conj (leaving ls V b.id)).sum =
      (ls.map fun l => l.sFrom (V l.fBus) (V l.tBus) + l.sTo (V l.fBus) (V l.tBus)).sum := by
  obtain ⟨_, g2, _⟩ := simOf_lines hn hs hm hl
  let v : Fin (m + 1) → ℂ := fun k => V (k : ℕ)
  have hat : ∀ k : ℤ, 0 ≤ k ∧ k < (m + 1 : ℕ) → atId v k = V k := by
    intro k hk
    obtain ⟨k', rfl⟩ := Int.eq_ofNat_of_zero_le hk.1
    exact atId_nat v ⟨k', by exact_mod_cast hk.2⟩
  have e1 : ∀ l ∈ ls, atId v l.fBus = V l.fBus ∧ atId v l.tBus = V l.tBus := fun l hl' =>
    ⟨hat _ (g2 l hl').1, hat _ (g2 l hl').2⟩
  have e2 : ∀ k, leaving ls V k = leaving ls (atId v) k := by
    intro k
    unfold leaving
    congr 1
    refine List.map_congr_left fun l hl' => ?_
    rw [(e1 l hl').1, (e1 l hl').2]
  have e3 : (ls.map fun l => l.sFrom (V l.fBus) (V l.tBus) + l.sTo (V l.fBus) (V l.tBus)) =
      ls.map fun l => l.sFrom (atId v l.fBus) (atId v l.tBus) + l.sTo (atId v l.fBus) (atId v l.tBus) := by
    refine List.map_congr_left fun l hl' => ?_
    rw [(e1 l hl').1, (e1 l hl').2]
  have e4 : (s'.buses.map fun b => V b.id * conj (leaving ls V b.id)) =
      ((s'.buses.map Bus.id).map fun k => V k * conj (leaving ls V k)) := by
    rw [List.map_map]; rfl
  have e5 : ∀ (f : ℕ → ℂ) (k : ℕ), ((List.range k).map f).sum = ∑ i : Fin k, f i := by
    intro f k
    induction k with
    | zero => simp
    | succ k ih =>
      rw [List.range_succ, List.map_append, List.sum_append, ih, Fin.sum_univ_castSucc]
      simp
  rw [e3, ← sum_leaving g2 v, e4, hm'.ids, List.map_map, e5]
  refine Finset.sum_congr rfl fun k _ => ?_
  rw [← e2]
  rfl

/-- Sums of two quantities of the buses that agree at bus 0 and up to 1e-5 elsewhere. -/
theorem sum_close (hm : Numbered s m) {f g : Bus ℝ → ℝ}
    (h : ∀ b ∈ s.buses, |f b - g b| ≤ if b.id = 0 then (0 : ℝ) else 1e-5) : |(s.buses.map f).sum - (s.buses.map g).sum| ≤ m * 1e-5 := by
  have e1 : ∀ l : List (Bus ℝ), (∀ b ∈ l, |f b - g b| ≤ if b.id = 0 then (0 : ℝ) else 1e-5) →
      |(l.map f).sum - (l.map g).sum| ≤ ((l.map Bus.id).map fun k => if k = 0 then (0 : ℝ) else 1e-5).sum := by
    intro l hl'
    induction l with
    | nil => simp
    | cons b l ih =>
      have a1 := hl' b (by simp)
      have a2 := ih fun b hb => hl' b (by simp [hb])
      simp only [List.map_cons, List.sum_cons]
      calc _ = |(f b - g b) + ((l.map f).sum - (l.map g).sum)| := by ring_nf
        _ ≤ _ := (abs_add_le _ _).trans (add_le_add a1 a2)
  refine (e1 s.buses h).trans (le_of_eq ?_)
  rw [hm.ids, sum_range_ite]

/-- **C143.** After a converged transition the reported active powers of the buses sum to the heat produced by the branches, and the
reactive powers to what the branches absorb, up to 1e-5 p.u. per non-slack bus. -/
theorem C143_total (hn : CleanFile n base) (hs : SimOf n dt lam s) (hm : Numbered s m)
    (hl : FiniteLines s ls) (h : s.transition ⟨qp, realPF o, pi⟩ a = .ok (s', out))
    (hc : out.converged = true) :
    |(s'.buses.map fun b => finVal b.p).sum - (s'.branches.map (heat s')).sum| ≤ m * 1e-5 ∧
      |(s'.buses.map fun b => finVal b.q).sum - (s'.branches.map (absorbed s')).sum| ≤ m * 1e-5 := by
  obtain ⟨V, hV, hbal⟩ := C25_converged hn hs hm hl h hc
  have hm' := numbered_same (sameConfig_transition h) hm
  have ht := total_power (s' := s') hn hs hm hl hm' V
  have hre : ∀ l : List ℂ, l.sum.re = (l.map Complex.re).sum := by
    intro l
    induction l with
    | nil => rfl
    | cons a l ih => simp [ih]
  have him : ∀ l : List ℂ, l.sum.im = (l.map Complex.im).sum := by
    intro l
    induction l with
    | nil => rfl
    | cons a l ih => simp [ih]
  have f1 : s'.branches.map (fun b => (finVal b.flow.pFrom + finVal b.flow.pTo, finVal b.flow.qFrom + finVal b.flow.qTo)) =
      ls.map fun l => ((l.sFrom (V l.fBus) (V l.tBus) + l.sTo (V l.fBus) (V l.tBus)).re,
        (l.sFrom (V l.fBus) (V l.tBus) + l.sTo (V l.fBus) (V l.tBus)).im) := by
    rw [← List.forall₂_eq_eq_eq, List.forall₂_map_left_iff, List.forall₂_map_right_iff]
    refine hV.flow.imp fun b l hb => ?_
    rw [hb.2]
    rfl
  have f2 : s'.branches.map (fun b => (finVal b.flow.pFrom + finVal b.flow.pTo, finVal b.flow.qFrom + finVal b.flow.qTo)) =
      s'.branches.map fun b => (heat s' b, absorbed s' b) := by
    refine List.map_congr_left fun b hb => ?_
    obtain ⟨_, _, _, _, e1, e2, e3, e4, e5, e6⟩ := C143_branch hn hs hm hl h hc hb
    rw [e1, e2, e3, e4, ← e5, ← e6]
    rfl
  rw [f2] at f1
  have g1 : (s'.branches.map (heat s')).sum = (s'.buses.map fun b => (V b.id * conj (leaving ls V b.id)).re).sum := by
    have := congrArg Complex.re ht
    rw [hre, hre, List.map_map, List.map_map] at this
    have k := congrArg (List.map Prod.fst) f1
    rw [List.map_map, List.map_map] at k
    exact (congrArg List.sum k).trans this.symm
  have g2 : (s'.branches.map (absorbed s')).sum = (s'.buses.map fun b => (V b.id * conj (leaving ls V b.id)).im).sum := by
    have := congrArg Complex.im ht
    rw [him, him, List.map_map, List.map_map] at this
    have k := congrArg (List.map Prod.snd) f1
    rw [List.map_map, List.map_map] at k
    exact (congrArg List.sum k).trans this.symm
  rw [g1, g2]
  constructor
  all_goals
    refine sum_close hm' fun b hb => ?_
    cases hbs : b.isSlack with
    | true =>
      have e := (hm'.slack b hb).1 hbs
      rw [if_pos e, e]
      first
      | rw [(hV.slack b hb hbs).1]; simp [finVal]
      | rw [(hV.slack b hb hbs).2]; simp [finVal]
    | false =>
      obtain ⟨p, q, hp, hq, h1, h2⟩ := hbal b hb hbs
      have : b.id ≠ 0 := fun e => by rw [(hm'.slack b hb).2 e] at hbs; cases hbs
      rw [if_neg this, abs_sub_comm]
      first
      | rw [hp]; exact h1
      | rw [hq]; exact h2

/-- **C143.** Networks without resistances: the active powers of the buses sum to 0. Networks without line charging: the reactive
powers of the buses do not sum to less than 0. Both up to 1e-5 p.u. per non-slack bus. -/
theorem C143_lossless (hn : CleanFile n base) (hs : SimOf n dt lam s) (hm : Numbered s m)
    (hl : FiniteLines s ls) (h : s.transition ⟨qp, realPF o, pi⟩ a = .ok (s', out))
    (hc : out.converged = true) :
    ((∀ b ∈ s.branches, b.line.r = .fin 0) → |(s'.buses.map fun b => finVal b.p).sum| ≤ m * 1e-5) ∧
      ((∀ b ∈ s.branches, b.line.b = .fin 0) → -(m * 1e-5) ≤ (s'.buses.map fun b => finVal b.q).sum) := by
  obtain ⟨h1, h2⟩ := C143_total hn hs hm hl h hc
  have hsc := sameConfig_transition h
  constructor
  · intro h0
    have : (s'.branches.map (heat s')).sum = 0 := by
      refine List.sum_eq_zero fun x hx => ?_
      obtain ⟨b, hb, rfl⟩ := List.mem_map.1 hx
      obtain ⟨b0, hb0, e⟩ := forall₂_mem_right hsc.branches hb
      unfold heat
      rw [e, h0 b0 hb0]
      simp [finVal]
    rwa [this, sub_zero] at h1
  · intro h0
    have : 0 ≤ (s'.branches.map (absorbed s')).sum := by
      refine List.sum_nonneg fun x hx => ?_
      obtain ⟨b, hb, rfl⟩ := List.mem_map.1 hx
      obtain ⟨b0, hb0, e⟩ := forall₂_mem_right hsc.branches hb
      obtain ⟨V, hV, _⟩ := C25_converged hn hs hm hl h hc
      obtain ⟨c, hc1, hg, _, _, _⟩ := branch_ends hn hs hm hl h hV hb
      obtain ⟨_, _, _, e4, _⟩ := finite?_eq hc1
      have hx : 0 ≤ finVal b.line.x := by rw [e4]; exact hg.x
      have hb' : finVal b.line.b = 0 := by rw [e, h0 b0 hb0]; rfl
      unfold absorbed
      rw [hb', zero_div, zero_mul, sub_zero]
      positivity
    have := (abs_le.1 h2).1
    linarith

end

/-- The hypotheses are met by a run in which bus 1 is at 2 p.u. -/
example (o : LFOracle) (ho : ExactSolve o) (pi : ℝ) : ∃ n base s m ls qp a s' out,
    CleanFile n base ∧ SimOf n (.fin 1) (.fin 1) s ∧ Numbered s m ∧ FiniteLines s ls ∧
    s.transition ⟨qp, realPF o, pi⟩ a = .ok (s', out) ∧ out.converged = true ∧ s'.branches ≠ [] := by
  obtain ⟨s, s', out, hmk, F, h, hc, _⟩ := good_run o ho pi
  refine ⟨goodNet, 1, s, 1, [goodLine], exactQP, _, s', out, goodNet_clean, ⟨s, hmk, sameConfig_refl s⟩,
    two_numbered F, two_lines F, h, hc, ?_⟩
  intro e
  have := (two_same (sameConfig_transition h) F).branches
  simp [e] at this

end Anm
