import Verif.Props.Capacity

/-! # C147: voltages fall towards consumers -/

set_option linter.unusedSectionVars false

namespace Anm

open Spec Complex ComplexConjugate

namespace Spec

/-- The branch `br` is the only connection between the set `A` of buses and the others. -/
structure Gate (s : Sim ℝ) (A : ℤ → Bool) (br : Branch ℝ) : Prop where
  mem : br ∈ s.branches
  border : A br.line.fBus ≠ A br.line.tBus
  only : ∀ b ∈ s.branches, A b.line.fBus ≠ A b.line.tBus → b.line.fBus = br.line.fBus ∧ b.line.tBus = br.line.tBus

/-- The voltage magnitude at the sending end of a branch, behind its transformer. -/
noncomputable def sendingV (s : Sim ℝ) (br : Branch ℝ) : ℝ := ‖busVoltage s br.line.fBus‖ / finVal br.line.tapMagn

/-- The voltage magnitude at the receiving end of a branch. -/
noncomputable def receivingV (s : Sim ℝ) (br : Branch ℝ) : ℝ := ‖busVoltage s br.line.tBus‖

/-- The voltage magnitude at the end of a border branch that is in `A`. -/
noncomputable def innerV (s : Sim ℝ) (A : ℤ → Bool) (br : Branch ℝ) : ℝ := if A br.line.fBus then sendingV s br else receivingV s br

/-- The voltage magnitude at the end of a border branch that is not in `A`. -/
noncomputable def outerV (s : Sim ℝ) (A : ℤ → Bool) (br : Branch ℝ) : ℝ := if A br.line.fBus then receivingV s br else sendingV s br

/-- Nothing is produced at the buses of `A`: neither active nor reactive power. -/
def Consumes (s : Sim ℝ) (A : ℤ → Bool) : Prop := ∀ b ∈ s.buses, A b.id = true → finVal b.p ≤ 0 ∧ finVal b.q ≤ 0

/-- The branches that touch `A` have no line charging. -/
def Uncharged (s : Sim ℝ) (A : ℤ → Bool) : Prop :=
  ∀ br ∈ s.branches, (A br.line.fBus = true ∨ A br.line.tBus = true) → finVal br.line.b = 0

/-- How much the tolerance of the load flow may raise the squared voltage along a border branch of `A`. -/
noncomputable def slip (s : Sim ℝ) (A : ℤ → Bool) (br : Branch ℝ) : ℝ :=
  2 * (finVal br.line.r + finVal br.line.x) * (others s A * 1e-5)

/-- Bus `k` is reached from the slack bus through branches without transformer ratio, each of them the only connection of the part
of the network behind it; `ε` sums up the tolerances. -/
inductive Fed (s : Sim ℝ) : ℤ → ℝ → Prop
  | slack : Fed s 0 0
  | down {A : ℤ → Bool} {br : Branch ℝ} {ε : ℝ} : Fed s br.line.fBus ε → Gate s A br → finVal br.line.tapMagn = 1 →
      A 0 = false → A br.line.tBus = true → Fed s br.line.tBus (ε + slip s A br)
  | up {A : ℤ → Bool} {br : Branch ℝ} {ε : ℝ} : Fed s br.line.tBus ε → Gate s A br → finVal br.line.tapMagn = 1 →
      A 0 = false → A br.line.fBus = true → Fed s br.line.fBus (ε + slip s A br)

end Spec

/-- The drop from the sending to the receiving end. -/
theorem drop_to {c : LineC} (hc : GoodLine c) (hb : c.b = 0) {T : ℝ} {vf vt : ℂ} (h1 : (c.sTo vf vt).re ≤ T)
    (h2 : (c.sTo vf vt).im ≤ T) : ‖vt‖ ^ 2 ≤ (‖vf‖ / c.tapMagn) ^ 2 + 2 * (c.r + c.x) * T := by
  have ht : c.tap ≠ 0 := by rw [← norm_ne_zero_iff, norm_tap c hc.tap.le]; exact hc.tap.ne'
  have hz := impedance_ne hc.rx
  have hzs : (c.r + I * c.x : ℂ) * c.series = 1 := by
    unfold LineC.series
    field_simp
  have hu : (‖vf‖ / c.tapMagn) ^ 2 = ‖vf / c.tap‖ ^ 2 := by rw [norm_div, norm_tap c hc.tap.le]
  unfold LineC.sTo at h1 h2
  rw [(C71_pi_model c ht vf vt).2] at h1 h2
  rw [hu]
  unfold piTo at h1 h2
  rw [hb] at h1 h2
  generalize vf / c.tap = u at *
  obtain ⟨J, hJ⟩ : ∃ J, J = c.series * (u - vt) := ⟨_, rfl⟩
  have hv : u = vt + (c.r + I * c.x) * J := by
    rw [hJ]
    linear_combination -(u - vt) * hzs
  have e : c.series * (vt - u) + I * ((0 : ℝ) / 2) * vt = -J := by rw [hJ]; push_cast; ring
  rw [e] at h1 h2
  have hn : ∀ w : ℂ, ‖w‖ ^ 2 = w.re ^ 2 + w.im ^ 2 := by
    intro w
    rw [← Complex.normSq_eq_norm_sq, Complex.normSq_apply]
    ring
  rw [hn, hn, hv]
  simp at h1 h2 ⊢
  nlinarith [mul_le_mul_of_nonneg_left h1 hc.r, mul_le_mul_of_nonneg_left h2 hc.x,
    mul_nonneg (sq_nonneg c.r) (sq_nonneg J.re), mul_nonneg (sq_nonneg c.r) (sq_nonneg J.im),
    mul_nonneg (sq_nonneg c.x) (sq_nonneg J.re), mul_nonneg (sq_nonneg c.x) (sq_nonneg J.im)]

/-- The drop from the receiving to the sending end. -/
theorem drop_from {c : LineC} (hc : GoodLine c) (hb : c.b = 0) {T : ℝ} {vf vt : ℂ} (h1 : (c.sFrom vf vt).re ≤ T)
    (h2 : (c.sFrom vf vt).im ≤ T) : (‖vf‖ / c.tapMagn) ^ 2 ≤ ‖vt‖ ^ 2 + 2 * (c.r + c.x) * T := by
  have ht : c.tap ≠ 0 := by rw [← norm_ne_zero_iff, norm_tap c hc.tap.le]; exact hc.tap.ne'
  have hz := impedance_ne hc.rx
  have hzs : (c.r + I * c.x : ℂ) * c.series = 1 := by
    unfold LineC.series
    field_simp
  have h3 : vf * conj (piFrom c.series c.b c.tap vf vt) = vf / c.tap *
      conj (c.series * (vf / c.tap - vt) + I * (c.b / 2) * (vf / c.tap)) := by
    unfold piFrom
    rw [map_div₀, Complex.conj_conj]
    ring
  have hu : (‖vf‖ / c.tapMagn) ^ 2 = ‖vf / c.tap‖ ^ 2 := by rw [norm_div, norm_tap c hc.tap.le]
  unfold LineC.sFrom at h1 h2
  rw [(C71_pi_model c ht vf vt).1, h3, hb] at h1 h2
  rw [hu]
  generalize vf / c.tap = u at *
  obtain ⟨J, hJ⟩ : ∃ J, J = c.series * (vt - u) := ⟨_, rfl⟩
  have hv : vt = u + (c.r + I * c.x) * J := by
    rw [hJ]
    linear_combination -(vt - u) * hzs
  have e : c.series * (u - vt) + I * ((0 : ℝ) / 2) * u = -J := by rw [hJ]; push_cast; ring
  rw [e] at h1 h2
  have hn : ∀ w : ℂ, ‖w‖ ^ 2 = w.re ^ 2 + w.im ^ 2 := by
    intro w
    rw [← Complex.normSq_eq_norm_sq, Complex.normSq_apply]
    ring
  rw [hn, hn, hv]
  simp at h1 h2 ⊢
  nlinarith [mul_le_mul_of_nonneg_left h1 hc.r, mul_le_mul_of_nonneg_left h2 hc.x,
    mul_nonneg (sq_nonneg c.r) (sq_nonneg J.re), mul_nonneg (sq_nonneg c.r) (sq_nonneg J.im),
    mul_nonneg (sq_nonneg c.x) (sq_nonneg J.re), mul_nonneg (sq_nonneg c.x) (sq_nonneg J.im)]

theorem one_le_sum {α : Type} {l : List α} (hn : l.Nodup) {x : α} (hx : x ∈ l) (g : α → ℝ) (h : ∀ y ∈ l, y ≠ x → 0 ≤ g y) :
    g x ≤ (l.map g).sum := by
  induction l with
  | nil => cases hx
  | cons y l ih =>
    rw [List.nodup_cons] at hn
    rw [List.map_cons, List.sum_cons]
    rcases List.mem_cons.1 hx with rfl | hx
    · have : 0 ≤ (l.map g).sum := List.sum_nonneg fun z hz => by
        obtain ⟨w, hw, rfl⟩ := List.mem_map.1 hz
        exact h w (by simp [hw]) (by rintro rfl; exact hn.1 hw)
      linarith
    · have h1 := ih hn.2 hx fun y hy => h y (by simp [hy])
      have h2 := h y (by simp) (by rintro rfl; exact hn.1 hx)
      linarith

section
variable {m : ℕ} {ls : List LineC} {s s' : Sim ℝ} {o : LFOracle} {qp : QP ℝ} {pi : ℝ} {a : Sim.Args ℝ}
  {out : Sim.TransOut ℝ} {n : Network ℝ} {base : ℝ} {dt lam : X ℝ}

/-- **C147.** After a converged transition, the voltage does not rise along a line (behind its transformer) that is the only
connection to a part of the network where nothing is produced, up to the tolerance of the load flow. -/
theorem C147_line (hn : CleanFile n base) (hs : SimOf n dt lam s) (hm : Numbered s m)
    (hl : FiniteLines s ls) (h : s.transition ⟨qp, realPF o, pi⟩ a = .ok (s', out))
    (hc : out.converged = true) {A : ℤ → Bool} (h0 : A 0 = false) {br : Branch ℝ} (hg : Gate s' A br)
    (hcon : Consumes s' A) (hb : Uncharged s' A) : innerV s' A br ^ 2 ≤ outerV s' A br ^ 2 + slip s' A br := by
  obtain ⟨V, hV, hbal⟩ := C25_converged hn hs hm hl h hc
  obtain ⟨g1, g2, g3⟩ := simOf_lines hn hs hm hl
  have hm' := numbered_same (sameConfig_transition h) hm
  have hnd : (s'.buses.map Bus.id).Nodup := by
    rw [hm'.ids]
    exact List.nodup_range.map fun a b h => Int.ofNat_inj.1 h
  have hmem : ∀ k : ℤ, 0 ≤ k ∧ k < (m + 1 : ℕ) → k ∈ s'.buses.map Bus.id := by
    intro k hk
    rw [hm'.ids]
    exact List.mem_map.2 ⟨k.toNat, List.mem_range.2 (by omega), Int.toNat_of_nonneg hk.1⟩
  have hsum := region_sum hnd (ls := ls) V A fun l hl' => ⟨hmem _ (g2 l hl').1, hmem _ (g2 l hl').2⟩
  have hre : ∀ l : List ℂ, l.sum.re = (l.map Complex.re).sum := by
    intro l
    induction l with
    | nil => rfl
    | cons a l ih => simp [ih]
  have him : ∀ l : List ℂ, l.sum.im = (l.map Complex.im).sum := by
    intro l
    induction l with
    | nil => rfl
    | cons a l ih => simp [ih]
  have hsr := congrArg Complex.re hsum
  have hsi := congrArg Complex.im hsum
  rw [hre, hre, List.map_map, List.map_map, List.filter_map, List.map_map] at hsr
  rw [him, him, List.map_map, List.map_map, List.filter_map, List.map_map] at hsi
  -- what is injected
  have hns : ∀ b ∈ s'.buses, A b.id = true → b.isSlack = false := by
    intro b hb hAb
    by_contra hbs
    have := (hm'.slack b hb).1 (by simpa using hbs)
    rw [this, h0] at hAb
    cases hAb
  have hT : ∀ (g : Bus ℝ → ℝ) (L : List (Bus ℝ)), (∀ b ∈ L, A b.id = true → b.isSlack = false ∧ g b ≤ 1e-5) →
      ((L.filter fun b => A b.id).map g).sum ≤ ((L.filter fun b => A b.id && !b.isSlack).length : ℝ) * 1e-5 := by
    intro g L hL
    induction L with
    | nil => simp
    | cons b L ih =>
      have k := ih fun b hb => hL b (by simp [hb])
      cases hAb : A b.id with
      | false => simpa [List.filter_cons, hAb] using k
      | true =>
        obtain ⟨k1, k2⟩ := hL b (by simp) hAb
        simp only [List.filter_cons, hAb, k1, if_true, List.map_cons, List.sum_cons, Bool.not_false, Bool.and_self, List.length_cons]
        push_cast
        linarith
  have hbus : ∀ b ∈ s'.buses, A b.id = true → (V b.id * conj (leaving ls V b.id)).re ≤ 1e-5 ∧ (V b.id * conj (leaving ls V b.id)).im ≤ 1e-5 := by
    intro b hb hAb
    obtain ⟨p, q, hp, hq, k1, k2⟩ := hbal b hb (hns b hb hAb)
    obtain ⟨c1, c2⟩ := hcon b hb hAb
    rw [hp] at c1
    rw [hq] at c2
    simp only [finVal] at c1 c2
    exact ⟨by linarith [(abs_le.1 k1).2], by linarith [(abs_le.1 k2).2]⟩
  have hTr := hT (fun b => (V b.id * conj (leaving ls V b.id)).re) s'.buses fun b hb hAb => ⟨hns b hb hAb, (hbus b hb hAb).1⟩
  have hTi := hT (fun b => (V b.id * conj (leaving ls V b.id)).im) s'.buses fun b hb hAb => ⟨hns b hb hAb, (hbus b hb hAb).2⟩
  have hLr : ((s'.buses.filter fun b => A b.id).map fun b => (V b.id * conj (leaving ls V b.id)).re).sum = _ := hsr
  have hLi : ((s'.buses.filter fun b => A b.id).map fun b => (V b.id * conj (leaving ls V b.id)).im).sum = _ := hsi
  rw [hLr] at hTr
  rw [hLi] at hTi
  -- the lines
  obtain ⟨l0, hl0, hf0, -⟩ := forall₂_mem_left hV.flow hg.mem
  obtain ⟨c, hc1, hgood, hvf, hvt, -⟩ := branch_ends hn hs hm hl h hV hg.mem
  rw [hf0] at hc1
  cases hc1
  obtain ⟨e1, e2, e3, e4, e5, e6, -⟩ := finite?_eq hf0
  have hline : ∀ l ∈ ls, ∃ b ∈ s'.branches, b.line.finite? = some l := by
    intro l hl'
    obtain ⟨b, hb, e, -⟩ := forall₂_mem_right hV.flow hl'
    exact ⟨b, hb, e⟩
  have hnodup : ls.Nodup := g1.2.imp fun h e => h.1 ⟨by rw [e], by rw [e]⟩
  have hsame : ∀ l ∈ ls, A l.fBus ≠ A l.tBus → l = l0 := by
    intro l hl' hA
    obtain ⟨b, hb, e⟩ := hline l hl'
    obtain ⟨q1, q2, -⟩ := finite?_eq e
    have hends := hg.only b hb (by rw [q1, q2]; exact hA)
    rw [q1, q2, e1, e2] at hends
    by_contra hne
    haveI : Std.Symm fun l l' : LineC => ¬ (l.fBus = l'.fBus ∧ l.tBus = l'.tBus) ∧ ¬ (l.fBus = l'.tBus ∧ l.tBus = l'.fBus) :=
      ⟨fun x y h => ⟨fun k => h.1 ⟨k.1.symm, k.2.symm⟩, fun k => h.2 ⟨k.2.symm, k.1.symm⟩⟩⟩
    exact (g1.2.forall hl' hl0 hne).1 hends
  have hcharge : ∀ l ∈ ls, (A l.fBus = true ∨ A l.tBus = true) → l.b = 0 := by
    intro l hl' hA
    obtain ⟨b, hb', e⟩ := hline l hl'
    obtain ⟨q1, q2, -, -, q5, -⟩ := finite?_eq e
    have := hb b hb' (by rw [q1, q2]; exact hA)
    rw [q5] at this
    exact this
  have hin : ∀ l ∈ ls, l ≠ l0 → 0 ≤ ((if A l.fBus then l.sFrom (V l.fBus) (V l.tBus) else 0) +
      (if A l.tBus then l.sTo (V l.fBus) (V l.tBus) else 0)).re ∧ 0 ≤ ((if A l.fBus then l.sFrom (V l.fBus) (V l.tBus) else 0) +
      (if A l.tBus then l.sTo (V l.fBus) (V l.tBus) else 0)).im := by
    intro l hl' hne
    have hA : A l.fBus = A l.tBus := by
      by_contra hA
      exact hne (hsame l hl' hA)
    rw [← hA]
    cases hA' : A l.fBus with
    | false => simp
    | true =>
      have hb0 := hcharge l hl' (.inl hA')
      have G := g3 l hl'
      simp only [if_true]
      rw [branch_power G]
      obtain ⟨N, hN⟩ : ∃ N, N = ‖I * (l.b / 2 : ℝ) * V l.tBus - l.iTo (V l.fBus) (V l.tBus)‖ ^ 2 := ⟨_, rfl⟩
      have hN0 : 0 ≤ N := by rw [hN]; positivity
      rw [← hN, hb0]
      simp
      exact ⟨mul_nonneg G.r hN0, mul_nonneg G.x hN0⟩
  have kr := (one_le_sum hnodup hl0 _ fun l hl' hne => (hin l hl' hne).1).trans hTr
  have ki := (one_le_sum hnodup hl0 _ fun l hl' hne => (hin l hl' hne).2).trans hTi
  have hborder := hg.border
  unfold innerV outerV sendingV receivingV slip others
  rw [busVoltage_eq hm' hvf, busVoltage_eq hm' hvt, e3, e4, e6]
  rw [e1, e2] at hborder
  rw [e1]
  simp only [finVal]
  cases hf' : A l0.fBus <;> cases ht' : A l0.tBus <;> simp only [hf', ht', ne_eq, not_true_eq_false] at hborder
  · simp only [hf', ht', if_true, Bool.false_eq_true, if_false, zero_add] at kr ki ⊢
    exact drop_to hgood (hcharge l0 hl0 (.inr ht')) kr ki
  · simp only [hf', ht', if_true, Bool.false_eq_true, if_false, add_zero] at kr ki ⊢
    exact drop_from hgood (hcharge l0 hl0 (.inl hf')) kr ki

/-- **C147.** If nothing is produced away from the slack bus, and the lines have no charging, no bus reached from the slack bus
through lines without transformer ratio, each the only connection of what is behind it, is above the 1 p.u. of the slack bus, up to
the tolerance. -/
theorem C147_feeder (hn : CleanFile n base) (hs : SimOf n dt lam s) (hm : Numbered s m)
    (hl : FiniteLines s ls) (h : s.transition ⟨qp, realPF o, pi⟩ a = .ok (s', out))
    (hc : out.converged = true) (hcon : Consumes s' notSlack) (hb : Uncharged s' notSlack) {k : ℤ} {ε : ℝ} (hk : Fed s' k ε) :
    ‖busVoltage s' k‖ ^ 2 ≤ 1 + ε := by
  have hsub : ∀ {A : ℤ → Bool}, A 0 = false → ∀ i, A i = true → notSlack i = true := by
    intro A h0 i hi
    unfold notSlack
    rw [decide_eq_true_eq]
    rintro rfl
    rw [h0] at hi
    cases hi
  induction hk with
  | slack =>
    obtain ⟨V, hV, -⟩ := C25_converged hn hs hm hl h hc
    have hm' := numbered_same (sameConfig_transition h) hm
    have : (0 : ℤ) ∈ s'.buses.map Bus.id := by
      rw [hm'.ids]
      exact List.mem_map.2 ⟨0, by simp, rfl⟩
    obtain ⟨b, hb1, hb2⟩ := List.mem_map.1 this
    rw [busVoltage_eq hm' (v := 1) ⟨b, hb1, hb2, by rw [hV.v b hb1, hb2, hV.ref]⟩]
    simp
  | @down A br ε _ hg ht h0 hA ih =>
    have k := C147_line hn hs hm hl h hc h0 hg (fun b hb' hA' => hcon b hb' (hsub h0 _ hA')) fun br hbr hA' =>
      hb br hbr (hA'.imp (hsub h0 _) (hsub h0 _))
    have hf : A br.line.fBus = false := by
      have := hg.border
      rw [hA] at this
      simpa using this
    simp only [innerV, outerV, hf, Bool.false_eq_true, if_false, sendingV, receivingV, ht, div_one] at k
    linarith
  | @up A br ε _ hg ht h0 hA ih =>
    have k := C147_line hn hs hm hl h hc h0 hg (fun b hb' hA' => hcon b hb' (hsub h0 _ hA')) fun br hbr hA' =>
      hb br hbr (hA'.imp (hsub h0 _) (hsub h0 _))
    simp only [innerV, outerV, hA, if_true, sendingV, receivingV, ht, div_one] at k
    linarith

end

/-! ### A case that meets the hypotheses -/

/-- A load of up to 2 p.u. behind a line of resistance 1 p.u. without reactance. -/
noncomputable def ohmNet : Network ℝ :=
  ⟨.fin 1, [rbus 0 0 132 1 (rnum 1), rbus 1 1 33 3 (rnum 0)], [rline 0 1 1 0 0 1 0], [rslack 0 0, rload 1 1 0 (-2)]⟩

/-- The line of `ohmNet`. -/
noncomputable def ohmLine : LineC := ⟨0, 1, 1, 0, 0, 1, 0⟩

theorem ohmNet_mk : ∃ s, mkSim ohmNet (.fin 1) (.fin 1) = .ok s ∧ TwoFacts s true ohmLine [slackAt 0, loadAt 1 1] := by
  simp only [twoFacts_iff]
  eval_sim [ohmNet, slackAt, loadAt, Line.finite?, ohmLine]

theorem ohmNet_clean : CleanFile ohmNet 1 := by
  refine clean_of 1 rfl ?_ ?_ ?_ <;> simp only [ohmNet, List.mem_cons, List.not_mem_nil, or_false] <;> intro r hr
  · rcases hr with rfl | rfl <;> exact ⟨_, _, _, _, _, rfl⟩
  · subst hr; exact ⟨_, _, _, _, _, _, _, rfl⟩
  · rcases hr with rfl | rfl
    · exact Or.inl ⟨_, _, rfl⟩
    · exact Or.inr ⟨_, _, _, _, rfl⟩

theorem ohmNet_documented : Documented ohmNet := by
  refine ⟨⟨?_, ?_⟩, ?_⟩ <;> simp only [ohmNet, List.mem_cons, List.not_mem_nil, or_false]
  · rintro r (rfl | rfl)
    exacts [⟨0, by simp [rbus]⟩, ⟨1, by simp [rbus]⟩]
  · rintro r (rfl | rfl)
    exacts [⟨0, by simp [rslack]⟩, ⟨1, by simp [rload]⟩]
  · rintro r (rfl | rfl) <;> simp [rbus]

/-- A linear solver that leads from the flat start to the voltage 1/2. -/
noncomputable def halfOracle : LFOracle :=
  ⟨fun _ _ _ => some fun k => match k with | .inl _ => 0 | .inr _ => 1 / 2, fun _ => true,
    fun _ => ⟨fun _ => .undef, fun _ => .undef, .nan, .nan, fun _ => {}, false⟩, fun _ => .error .valueError⟩

theorem ohm_y : ymat 1 [ohmLine] 1 1 = 1 ∧ ymat 1 [ohmLine] 1 0 = -1 := by
  have e : ohmLine.series = 1 := by simp [LineC.series, ohmLine]
  have t : ohmLine.tap = 1 := by simp [LineC.tap, LineC.shift, ohmLine]
  constructor
  · simp [ymat, ybus, ybusStep, setAt, ohmLine]
    rw [show (⟨0, 1, 1, 0, 0, 1, 0⟩ : LineC) = ohmLine from rfl, e]
    simp [LineC.shunt, ohmLine]
  · simp [ymat, ybus, ybusStep, setAt, ohmLine]
    rw [show (⟨0, 1, 1, 0, 0, 1, 0⟩ : LineC) = ohmLine from rfl, e, t]
    simp

theorem newton_half {Y : Matrix (Fin 2) (Fin 2) ℂ} (h11 : Y 1 1 = 1) (h10 : Y 1 0 = -1) :
    NR.run halfOracle Y (m := 1) (fun _ => .fin (-1 / 4)) (fun _ => .fin 0) xtol =
      { nIter := 1, guess := some ⟨fun _ => 0, fun _ => 1 / 2⟩, F := fun _ => .fin 0 } := by
  have hpow : ∀ g : Guess 1, NR.power Y g 0 = g.mag 0 * exp (I * g.ang 0) * conj (g.mag 0 * exp (I * g.ang 0) - 1) := by
    intro g
    unfold NR.power
    rw [show (0 : Fin 1).succ = (1 : Fin 2) from rfl]
    simp [NR.curr, Fin.sum_univ_two, h11, h10, NR.volt]
    left
    ring
  have hF0 : (NR.init Y (m := 1) (fun _ => .fin (-1 / 4)) (fun _ => .fin 0)).F =
      fun k => .fin (match k with | .inl _ => 1 / 4 | .inr _ => 0) := by
    funext k
    rcases k with k | k <;> (have hk : k = 0 := Subsingleton.elim _ _) <;> subst hk <;>
      simp [NR.init, NR.f, hpow, NR.flat]
    norm_num
  have hF1 : NR.f Y (m := 1) (fun _ => .fin (-1 / 4)) (fun _ => .fin 0) ⟨fun _ => 0, fun _ => 1 / 2⟩ =
      fun _ => .fin 0 := by
    funext k
    rcases k with k | k <;> (have hk : k = 0 := Subsingleton.elim _ _) <;> subst hk <;>
      simp [NR.f, hpow]
    norm_num
  have hnext : NR.next halfOracle Y (some NR.flat)
      (fun k => .fin (match k with | .inl _ => 1 / 4 | .inr _ => 0)) = some ⟨fun _ => 0, fun _ => 1 / 2⟩ := by
    unfold NR.next
    simp only [halfOracle, Option.some.injEq, Guess.mk.injEq]
    constructor <;> funext k <;> simp [NR.flat]
    norm_num
  have hbody : NR.body halfOracle Y (fun _ => .fin (-1 / 4)) (fun _ => .fin 0)
      (NR.init Y (m := 1) (fun _ => .fin (-1 / 4)) (fun _ => .fin 0)) =
      { nIter := 1, guess := some ⟨fun _ => 0, fun _ => 1 / 2⟩, F := fun _ => .fin 0 } := by
    unfold NR.body
    rw [hF0]
    simp only [show (NR.init Y (m := 1) (fun _ => .fin (-1 / 4)) (fun _ => .fin 0)).guess = some NR.flat from rfl,
      hnext, NR.evalF, hF1]
    rfl
  have hc0 : NR.cond xtol (NR.init Y (m := 1) (fun _ => .fin (-1 / 4)) (fun _ => .fin 0)) := by
    refine ⟨?_, by simp [NR.init]⟩
    rw [hF0]
    simp [NR.norm, X.abs, X.zero_def, X.max_fin, xtol]
    norm_num
  have hc1 : ¬ NR.cond xtol ({ nIter := 1, guess := some ⟨fun _ => 0, fun _ => 1 / 2⟩, F := fun _ => .fin 0 } : NR.St 1) := by
    rintro ⟨hc, _⟩
    simp [NR.norm, X.abs, X.zero_def, X.max_fin, xtol] at hc
    norm_num at hc
  unfold NR.run NR.loop
  rw [if_pos hc0, hbody]
  unfold NR.loop
  rw [if_neg hc1]

theorem solve_half (inp : PFIn ℝ) :
    let po := solveFinite halfOracle inp 1 (fun _ => (.fin (-1 / 4), .fin 0)) [ohmLine]
    po.stable = true ∧ po.v 1 = .ofC (1 / 2) := by
  unfold solveFinite
  simp only [newton_half ohm_y.1 ohm_y.2, stable_zero]
  refine ⟨rfl, ?_⟩
  simp [NR.volt, outOf]

/-- **C147 is not vacuous, and the limit of C146 is reached**: a demand of 1/4 p.u. behind a line of resistance 1 p.u. converges (for
one linear solver) to the voltage 1/2. -/
theorem C147_ohm (pi : ℝ) : ∃ n s ls s' out, CleanFile n 1 ∧ SimOf n (.fin 1) (.fin 1) s ∧ Numbered s 1 ∧ FiniteLines s ls ∧ ls = [ohmLine] ∧
    Resistive s notSlack ∧
    s.transition ⟨exactQP, realPF halfOracle, pi⟩ (demand (-1 / 4) 0) = .ok (s', out) ∧ out.converged = true ∧
    Consumes s' notSlack ∧ Uncharged s' notSlack ∧ (∃ ε, Fed s' 1 ε) ∧ busVoltage s' 1 = 1 / 2 ∧
    gridLimit s = 1 / 4 ∧ gridLimit s = -deviceSum s' notSlack := by
  obtain ⟨s, hmk, F⟩ := ohmNet_mk
  have hs : SimOf ohmNet (.fin 1) (.fin 1) s := ⟨s, hmk, sameConfig_refl s⟩
  obtain ⟨i, j, hos⟩ := oneSlack_of_file ohmNet_clean ohmNet_documented hs
  obtain ⟨s', out, h⟩ := two_run (devs := [(1, 1)]) (a := demand (-1 / 4) 0) halfOracle pi ohmNet_clean hmk F (by simp [demand, Dict.get?])
  have F' := two_same (sameConfig_transition h) F
  obtain ⟨d, e, hds, hd, he⟩ := devs_two F'
  have hL := two_load (x := -1 / 4) F h (d := e) (by simp [hds]) he (by simp [demand, Dict.get?]) (by norm_num) (by norm_num)
  obtain ⟨b0, b1, inp, hb, i0, i1, f0, f1, hc, hv0, hv1⟩ := two_solved F h
  obtain ⟨hp, hq⟩ := C33_bus_sum_partial hos h (b := b1) (by simp [hb]) (by simp [f1])
  simp only [slackAt, loadAt, Prod.mk.injEq] at hd he
  simp only [devicesAt, hds, i1, List.filter, hd.2.1, he.2.1, sumX] at hp hq
  simp [zero_add_X, hL.1, hL.2] at hp hq
  simp only [if_true, hp, hq] at hc hv1
  obtain ⟨k1, k2⟩ := solve_half inp
  have hlines : ∀ t : Sim ℝ, TwoFacts t true ohmLine [slackAt 0, loadAt 1 1] → ∃ br, t.branches = [br] ∧ br.line.fBus = 0 ∧ br.line.tBus = 1 ∧
      br.line.r = .fin 1 ∧ br.line.b = .fin 0 ∧ br.line.tapMagn = .fin 1 := by
    intro t T
    obtain ⟨br, hbr, hfin⟩ := List.map_eq_singleton_iff.1 T.branches
    obtain ⟨e1, e2, e3, -, e5, e6, -⟩ := finite?_eq hfin
    exact ⟨br, hbr, e1, e2, e3, e5, e6⟩
  obtain ⟨br, hbr, g1, g2, g3, g4, g5⟩ := hlines s' F'
  obtain ⟨br0, hbr0, q1, q2, q3, q4, q5⟩ := hlines s F
  refine ⟨ohmNet, s, [ohmLine], s', out, ohmNet_clean, hs, two_numbered F, two_lines F, rfl, ?_, h, hc.trans k1, ?_, ?_, ?_, ?_, ?_⟩
  · intro b hb' _
    rw [hbr0, List.mem_singleton] at hb'
    rw [hb', q3]
    norm_num [finVal]
  · intro b hb' hA
    rw [hb] at hb'
    simp only [List.mem_cons, List.not_mem_nil, or_false] at hb'
    rcases hb' with rfl | rfl
    · rw [i0] at hA; simp [notSlack] at hA
    · rw [hp, hq]; norm_num [finVal]
  · intro b hb' _
    rw [hbr, List.mem_singleton] at hb'
    rw [hb', g4]
    rfl
  · have G : Gate s' notSlack br := by
      refine ⟨by simp [hbr], by simp [g1, g2, notSlack], ?_⟩
      intro b hb' _
      rw [hbr, List.mem_singleton] at hb'
      rw [hb']
      exact ⟨rfl, rfl⟩
    have := Fed.down (s := s') (br := br) (ε := 0) (by rw [g1]; exact .slack) G (by rw [g5]; rfl) rfl (by rw [g2]; rfl)
    rw [g2] at this
    exact ⟨_, this⟩
  · exact busVoltage_eq (two_numbered F') ⟨b1, by simp [hb], i1, by rw [hv1]; exact k2⟩
  · have hlim : gridLimit s = 1 / 4 := by
      unfold gridLimit
      rw [hbr0]
      simp [q1, q2, q3, q5, finVal, mostPower]
    refine ⟨hlim, ?_⟩
    rw [hlim]
    simp [deviceSum, hds, notSlack, hd.2.1, he.2.1, hL.1, finVal]
    norm_num

end Anm
