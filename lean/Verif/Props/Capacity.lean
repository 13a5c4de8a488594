import Verif.Props.Islands
import Verif.Props.Losses
import Verif.Props.Env

/-! # C146: what a region can draw through its lines is limited, and more than that ends the episode -/

set_option linter.unusedSectionVars false

namespace Anm

open Spec Complex ComplexConjugate

namespace Spec

/-- The most active power a line of resistance `r` can deliver from a voltage of magnitude `v` (maximum power transfer theorem). -/
noncomputable def mostPower (v r : ℝ) : ℝ := v ^ 2 / (4 * r)

/-- The most a branch can deliver into the set `A` of buses: nothing if it does not cross the border of `A`; otherwise what its
resistance allows for the voltage of the end outside of `A`, behind the transformer at the sending end. -/
noncomputable def deliver (s : Sim ℝ) (A : ℤ → Bool) (br : Branch ℝ) : ℝ :=
  if A br.line.fBus = A br.line.tBus then 0
  else if A br.line.fBus then mostPower ‖busVoltage s br.line.tBus‖ (finVal br.line.r)
  else mostPower (‖busVoltage s br.line.fBus‖ / finVal br.line.tapMagn) (finVal br.line.r)

/-- The branches across the border of `A` have a resistance. -/
def Resistive (s : Sim ℝ) (A : ℤ → Bool) : Prop := ∀ br ∈ s.branches, A br.line.fBus ≠ A br.line.tBus → 0 < finVal br.line.r

/-- All buses but the slack bus. -/
def notSlack (k : ℤ) : Bool := decide (k ≠ 0)

/-- The most the branches at the slack bus can deliver, at the voltage 1 p.u. of the slack bus: a number of the network file. -/
noncomputable def gridLimit (s : Sim ℝ) : ℝ :=
  (s.branches.map fun br => if br.line.fBus = 0 ∧ br.line.tBus ≠ 0 then mostPower (1 / finVal br.line.tapMagn) (finVal br.line.r)
    else if br.line.tBus = 0 ∧ br.line.fBus ≠ 0 then mostPower 1 (finVal br.line.r) else 0).sum

end Spec

/-- The receiving end of a line. -/
theorem to_bound {c : LineC} (hc : GoodLine c) (hr : 0 < c.r) (vf vt : ℂ) :
    -mostPower (‖vf‖ / c.tapMagn) c.r ≤ (c.sTo vf vt).re := by
  have ht : c.tap ≠ 0 := by rw [← norm_ne_zero_iff, norm_tap c hc.tap.le]; exact hc.tap.ne'
  have hz := impedance_ne hc.rx
  obtain ⟨-, e2⟩ := C71_pi_model c ht vf vt
  have hzs : (c.r + I * c.x : ℂ) * c.series = 1 := by
    unfold LineC.series
    field_simp
  have hu : (‖vf‖ / c.tapMagn) ^ 2 = ‖vf / c.tap‖ ^ 2 := by rw [norm_div, norm_tap c hc.tap.le]
  unfold LineC.sTo
  rw [e2, mostPower, hu]
  unfold piTo
  generalize vf / c.tap = u
  obtain ⟨J, hJ⟩ : ∃ J, J = c.series * (u - vt) := ⟨_, rfl⟩
  have hv : vt = u - (c.r + I * c.x) * J := by
    rw [hJ]
    linear_combination (u - vt) * hzs
  have e : c.series * (vt - u) + I * (c.b / 2) * vt = -J + I * (c.b / 2) * vt := by rw [hJ]; ring
  have h1 : (vt * conj (c.series * (vt - u) + I * (c.b / 2) * vt)).re = -(u.re * J.re + u.im * J.im) + c.r * (J.re ^ 2 + J.im ^ 2) := by
    rw [e, hv, show ((c.b : ℂ) / 2) = ((c.b / 2 : ℝ) : ℂ) by push_cast; rfl]
    generalize c.b / 2 = w
    simp
    ring
  have h2 : ‖u‖ ^ 2 = u.re ^ 2 + u.im ^ 2 := by
    rw [← Complex.normSq_eq_norm_sq, Complex.normSq_apply]
    ring
  rw [h1, h2, ← neg_div, div_le_iff₀ (by positivity)]
  nlinarith [sq_nonneg (2 * c.r * J.re - u.re), sq_nonneg (2 * c.r * J.im - u.im)]

/-- The sending end of a line. -/
theorem from_bound {c : LineC} (hc : GoodLine c) (hr : 0 < c.r) (vf vt : ℂ) :
    -mostPower ‖vt‖ c.r ≤ (c.sFrom vf vt).re := by
  have ht : c.tap ≠ 0 := by rw [← norm_ne_zero_iff, norm_tap c hc.tap.le]; exact hc.tap.ne'
  have hz := impedance_ne hc.rx
  obtain ⟨e1, -⟩ := C71_pi_model c ht vf vt
  have hzs : (c.r + I * c.x : ℂ) * c.series = 1 := by
    unfold LineC.series
    field_simp
  have h3 : vf * conj (piFrom c.series c.b c.tap vf vt) = vf / c.tap *
      conj (c.series * (vf / c.tap - vt) + I * (c.b / 2) * (vf / c.tap)) := by
    unfold piFrom
    rw [map_div₀, Complex.conj_conj]
    ring
  unfold LineC.sFrom
  rw [e1, h3, mostPower]
  generalize vf / c.tap = u
  obtain ⟨J, hJ⟩ : ∃ J, J = c.series * (vt - u) := ⟨_, rfl⟩
  have hv : u = vt - (c.r + I * c.x) * J := by
    rw [hJ]
    linear_combination (vt - u) * hzs
  have e : c.series * (u - vt) + I * (c.b / 2) * u = -J + I * (c.b / 2) * u := by rw [hJ]; ring
  have h1 : (u * conj (c.series * (u - vt) + I * (c.b / 2) * u)).re = -(vt.re * J.re + vt.im * J.im) + c.r * (J.re ^ 2 + J.im ^ 2) := by
    rw [e, hv, show ((c.b : ℂ) / 2) = ((c.b / 2 : ℝ) : ℂ) by push_cast; rfl]
    generalize c.b / 2 = w
    simp
    ring
  have h2 : ‖vt‖ ^ 2 = vt.re ^ 2 + vt.im ^ 2 := by
    rw [← Complex.normSq_eq_norm_sq, Complex.normSq_apply]
    ring
  rw [h1, h2, ← neg_div, div_le_iff₀ (by positivity)]
  nlinarith [sq_nonneg (2 * c.r * J.re - vt.re), sq_nonneg (2 * c.r * J.im - vt.im)]

/-- **C146, the limit of a line cannot be improved**: at every voltage of the sending end there is a voltage of the receiving end
for which the line delivers it. -/
theorem C146_attained {c : LineC} (hc : GoodLine c) (hr : 0 < c.r) (vf : ℂ) :
    ∃ vt, (c.sTo vf vt).re = -mostPower (‖vf‖ / c.tapMagn) c.r := by
  have ht : c.tap ≠ 0 := by rw [← norm_ne_zero_iff, norm_tap c hc.tap.le]; exact hc.tap.ne'
  have hz := impedance_ne hc.rx
  have hzs : (c.r + I * c.x : ℂ) * c.series = 1 := by
    unfold LineC.series
    field_simp
  have hu : (‖vf‖ / c.tapMagn) ^ 2 = ‖vf / c.tap‖ ^ 2 := by rw [norm_div, norm_tap c hc.tap.le]
  refine ⟨vf / c.tap - (c.r + I * c.x) * (vf / c.tap * ((1 / (2 * c.r) : ℝ) : ℂ)), ?_⟩
  unfold LineC.sTo
  rw [(C71_pi_model c ht vf _).2, mostPower, hu]
  unfold piTo
  generalize vf / c.tap = u
  have h2 : ‖u‖ ^ 2 = u.re ^ 2 + u.im ^ 2 := by
    rw [← Complex.normSq_eq_norm_sq, Complex.normSq_apply]
    ring
  obtain ⟨vt, hv⟩ : ∃ vt, vt = u - (c.r + I * c.x) * (u * ((1 / (2 * c.r) : ℝ) : ℂ)) := ⟨_, rfl⟩
  have e : c.series * (vt - u) = -(u * ((1 / (2 * c.r) : ℝ) : ℂ)) := by
    rw [hv]
    linear_combination (-(u * ((1 / (2 * c.r) : ℝ) : ℂ))) * hzs
  rw [← hv, e, hv, h2, show ((c.b : ℂ) / 2) = ((c.b / 2 : ℝ) : ℂ) by push_cast; rfl]
  generalize c.b / 2 = w
  simp
  field_simp
  ring

/-- The power entering the branches at the buses of `A`. -/
theorem region_sum {L : List ℤ} (hn : L.Nodup) {ls : List LineC} (V : ℤ → ℂ) (A : ℤ → Bool)
    (h : ∀ l ∈ ls, l.fBus ∈ L ∧ l.tBus ∈ L) :
    ((L.filter A).map fun k => V k * conj (leaving ls V k)).sum =
      (ls.map fun l => (if A l.fBus then l.sFrom (V l.fBus) (V l.tBus) else 0) +
        (if A l.tBus then l.sTo (V l.fBus) (V l.tBus) else 0)).sum := by
  induction ls with
  | nil => simp [leaving]
  | cons l ls ih =>
    obtain ⟨hf, ht⟩ := h l (by simp)
    have h1 : ∀ k : ℤ, V k * conj (leaving (l :: ls) V k) =
        ((if l.fBus = k then V k * conj (l.iFrom (V l.fBus) (V l.tBus)) else 0) +
        (if l.tBus = k then V k * conj (l.iTo (V l.fBus) (V l.tBus)) else 0)) +
        V k * conj (leaving ls V k) := by
      intro k
      unfold leaving
      rw [List.map_cons, List.sum_cons, map_add, map_add]
      split_ifs <;> simp <;> ring
    simp only [h1, List.sum_map_add]
    rw [ih fun l' hl' => h l' (by simp [hl']), sum_pick_ids hn hf A fun k => V k * conj (l.iFrom (V l.fBus) (V l.tBus)),
      sum_pick_ids hn ht A fun k => V k * conj (l.iTo (V l.fBus) (V l.tBus))]
    rw [List.map_cons, List.map_cons, List.sum_cons, List.sum_cons, List.sum_map_add]
    simp only [LineC.sFrom, LineC.sTo]
    ring

section
variable {m : ℕ} {ls : List LineC} {s s' : Sim ℝ} {o : LFOracle} {qp : QP ℝ} {pi : ℝ} {a : Sim.Args ℝ}
  {out : Sim.TransOut ℝ} {n : Network ℝ} {base : ℝ} {dt lam : X ℝ} {i j : ℤ}

/-- **C146.** After a converged transition, the buses of any region without the slack bus draw no more active power than the lines
into the region can deliver for the voltages reported at their outer ends, up to 1e-5 p.u. for each bus of the region. -/
theorem C146_region (hn : CleanFile n base) (hs : SimOf n dt lam s) (hm : Numbered s m)
    (ho : OneSlack s i j) (hl : FiniteLines s ls) (h : s.transition ⟨qp, realPF o, pi⟩ a = .ok (s', out))
    (hc : out.converged = true) {A : ℤ → Bool} (h0 : A 0 = false) (hr : Resistive s A) :
    -deviceSum s' A ≤ (s'.branches.map (deliver s' A)).sum + others s' A * 1e-5 := by
  obtain ⟨V, hV, hbal⟩ := C25_converged hn hs hm hl h hc
  obtain ⟨g1, g2, g3⟩ := simOf_lines hn hs hm hl
  have hsc := sameConfig_transition h
  have hm' := numbered_same hsc hm
  rw [device_injected hm ho h hbal h0]
  have hnear := (abs_le.1 (injected_near hm' hV hbal A)).1
  have hnd : (s'.buses.map Bus.id).Nodup := by
    rw [hm'.ids]
    exact List.nodup_range.map fun a b h => Int.ofNat_inj.1 h
  have hmem : ∀ k : ℤ, 0 ≤ k ∧ k < (m + 1 : ℕ) → k ∈ s'.buses.map Bus.id := by
    intro k hk
    rw [hm'.ids]
    exact List.mem_map.2 ⟨k.toNat, List.mem_range.2 (by omega), Int.toNat_of_nonneg hk.1⟩
  have hsum := congrArg Complex.re (region_sum hnd (ls := ls) V A fun l hl' => ⟨hmem _ (g2 l hl').1, hmem _ (g2 l hl').2⟩)
  have hre : ∀ l : List ℂ, l.sum.re = (l.map Complex.re).sum := by
    intro l
    induction l with
    | nil => rfl
    | cons a l ih => simp [ih]
  rw [hre, hre, List.map_map, List.map_map, List.filter_map, List.map_map] at hsum
  have hL : ((s'.buses.filter fun b => A b.id).map fun b => (V b.id * conj (leaving ls V b.id)).re).sum = _ := hsum
  rw [hL] at hnear
  suffices hb : -(s'.branches.map (deliver s' A)).sum ≤ (ls.map (Complex.re ∘ fun l => (if A l.fBus then l.sFrom (V l.fBus) (V l.tBus) else 0) +
        (if A l.tBus then l.sTo (V l.fBus) (V l.tBus) else 0))).sum by linarith
  have hbr : ∀ br ∈ s'.branches, ∀ c, br.line.finite? = some c → -deliver s' A br ≤
      ((if A c.fBus then c.sFrom (V c.fBus) (V c.tBus) else 0) + (if A c.tBus then c.sTo (V c.fBus) (V c.tBus) else 0)).re := by
    intro br hbr c hc1
    obtain ⟨c', hc2, hg, hf, ht, -⟩ := branch_ends hn hs hm hl h hV hbr
    rw [hc1] at hc2
    cases hc2
    obtain ⟨e1, e2, e3, -, -, e6, -⟩ := finite?_eq hc1
    have hpos : A c.fBus ≠ A c.tBus → 0 < c.r := by
      intro hne
      obtain ⟨b0, hb0, e⟩ := forall₂_mem_right hsc.branches hbr
      have := hr b0 hb0
      rw [e] at e1 e2 e3
      rw [e1, e2, e3] at this
      exact this hne
    unfold deliver
    rw [busVoltage_eq hm' hf, busVoltage_eq hm' ht, e1, e2, e3, e6]
    have hloss := (C30_branch_losses hg (V c.fBus) (V c.tBus)).2.1
    cases hf' : A c.fBus <;> cases ht' : A c.tBus <;> simp [finVal]
    · linarith [to_bound hg (hpos (by simp [hf', ht'])) (V c.fBus) (V c.tBus)]
    · linarith [from_bound hg (hpos (by simp [hf', ht'])) (V c.fBus) (V c.tBus)]
    · exact hloss
  have hfl := hV.flow
  clear hsum hL hnear hl g1 g2 g3 hV hbal
  revert hbr
  generalize s'.branches = L at hfl
  intro hbr
  induction hfl with
  | nil => simp
  | cons hab _ ih =>
    have k1 := hbr _ (by simp) _ hab.1
    have k2 := ih fun br hb => hbr br (by simp [hb])
    simp only [List.map_cons, List.sum_cons, Function.comp_apply] at k1 k2 ⊢
    linarith

theorem limit_eq (hn : CleanFile n base) (hs : SimOf n dt lam s) (hm : Numbered s m) (hl : FiniteLines s ls)
    (h : s.transition ⟨qp, realPF o, pi⟩ a = .ok (s', out)) (hc : out.converged = true) :
    (s'.branches.map (deliver s' notSlack)).sum = gridLimit s := by
  obtain ⟨V, hV, -⟩ := C25_converged hn hs hm hl h hc
  have hsc := sameConfig_transition h
  have hm' := numbered_same hsc hm
  have hlim : gridLimit s' = gridLimit s := by
    unfold gridLimit
    congr 1
    have := hsc.branches
    generalize s.branches = L at this
    generalize s'.branches = L' at this
    induction this with
    | nil => rfl
    | cons hab _ ih => rw [List.map_cons, List.map_cons, ih, hab]
  rw [← hlim]
  unfold gridLimit
  congr 1
  refine List.map_congr_left fun br hbr => ?_
  obtain ⟨c, hc1, hg, hf, ht, -⟩ := branch_ends hn hs hm hl h hV hbr
  obtain ⟨e1, e2, -⟩ := finite?_eq hc1
  unfold deliver
  rw [busVoltage_eq hm' hf, busVoltage_eq hm' ht]
  rw [← e1, ← e2]
  by_cases f0 : br.line.fBus = 0 <;> by_cases t0 : br.line.tBus = 0 <;> simp [notSlack, f0, t0, hV.ref]

/-- **C146.** If the devices away from the slack bus together draw more active power than the lines at the slack bus can deliver
(and 1e-5 p.u. for each bus), the load flow does not converge, whatever the linear solver does. -/
theorem C146_collapse (hn : CleanFile n base) (hs : SimOf n dt lam s) (hm : Numbered s m)
    (ho : OneSlack s i j) (hl : FiniteLines s ls) (h : s.transition ⟨qp, realPF o, pi⟩ a = .ok (s', out))
    (hr : Resistive s notSlack) (hd : gridLimit s + m * 1e-5 < -deviceSum s' notSlack) : out.converged = false := by
  by_contra hc
  have hc : out.converged = true := by simpa using hc
  have k := C146_region hn hs hm ho hl h hc (A := notSlack) rfl hr
  rw [limit_eq hn hs hm hl h hc] at k
  have hm' := numbered_same (sameConfig_transition h) hm
  have : others s' notSlack = m := by
    unfold others
    have e : (s'.buses.filter fun b => notSlack b.id && !b.isSlack) = s'.buses.filter fun b => notSlack b.id := by
      refine List.filter_congr fun b hb => ?_
      have := hm'.slack b hb
      cases hbs : b.isSlack <;> simp [hbs, notSlack] at this ⊢
      · exact this
    rw [e, ← List.length_map (f := Bus.id), show (s'.buses.filter fun b => notSlack b.id).map Bus.id = (s'.buses.map Bus.id).filter notSlack by
      rw [List.filter_map]; rfl, hm'.ids, List.range_succ_eq_map]
    simp [notSlack, List.filter_map, Function.comp_def]
    have : ∀ x : ℕ, ((x : ℤ) + 1 = 0) = False := by intro x; simp; omega
    simp [this]
  rw [this] at k
  linarith

/-- **C146, environments.** A step in which the devices draw more than that ends the episode. -/
theorem C146_step {ρ : Type} {c : EnvCtx ℝ ρ} {args : EnvArgs ℝ} {e e' : Env ℝ ρ} {y : EnvDyn ℝ} {act : List (X ℝ)} {r : Env.StepOut ℝ}
    (hpf : c.sim.pf = realPF o) (he : EnvOf c args e) (hn : CleanFile args.network base) (hm : Numbered e.sim m)
    (ho : OneSlack e.sim i j) (hl : FiniteLines e.sim ls) (hy : e.dyn = some y) (ht : y.terminated = false)
    (h : e.step c act = .ok (e', r)) (hr : Resistive e.sim notSlack)
    (hd : gridLimit e.sim + m * 1e-5 < -deviceSum e'.sim notSlack) : r.terminated = true := by
  obtain ⟨_, y1, hy1, ⟨ht1, _, _⟩ | ⟨_, h3⟩⟩ := step_ok h
  · rw [hy] at hy1; cases hy1; rw [ht] at ht1; cases ht1
  · obtain ⟨vars, a, t, y', J⟩ := advance_ok h3
    have htr := J.trans
    have hw : c.sim = ⟨c.sim.qp, realPF o, c.sim.pi⟩ := by rw [← hpf]
    rw [hw] at htr
    rw [J.flag, C146_collapse hn (envOf_simOf he) hm ho hl htr hr hd]
    rfl

end

/-! ### A thin line -/

/-- A load of up to 2 p.u. behind a line of resistance 1 p.u., which can deliver 1/4 p.u. -/
noncomputable def thinNet : Network ℝ :=
  ⟨.fin 1, [rbus 0 0 132 1 (rnum 1), rbus 1 1 33 3 (rnum 0)], [rline 0 1 1 1 0 1 0], [rslack 0 0, rload 1 1 0 (-2)]⟩

/-- The line of `thinNet`. -/
noncomputable def thinLine : LineC := ⟨0, 1, 1, 1, 0, 1, 0⟩

theorem thinNet_mk : ∃ s, mkSim thinNet (.fin 1) (.fin 1) = .ok s ∧ TwoFacts s true thinLine [slackAt 0, loadAt 1 1] := by
  simp only [twoFacts_iff]
  eval_sim [thinNet, slackAt, loadAt, Line.finite?, thinLine]

theorem thinNet_clean : CleanFile thinNet 1 := by
  refine clean_of 1 rfl ?_ ?_ ?_ <;> simp only [thinNet, List.mem_cons, List.not_mem_nil, or_false] <;> intro r hr
  · rcases hr with rfl | rfl <;> exact ⟨_, _, _, _, _, rfl⟩
  · subst hr; exact ⟨_, _, _, _, _, _, _, rfl⟩
  · rcases hr with rfl | rfl
    · exact Or.inl ⟨_, _, rfl⟩
    · exact Or.inr ⟨_, _, _, _, rfl⟩

theorem thinNet_documented : Documented thinNet := by
  refine ⟨⟨?_, ?_⟩, ?_⟩ <;> simp only [thinNet, List.mem_cons, List.not_mem_nil, or_false]
  · rintro r (rfl | rfl)
    exacts [⟨0, by simp [rbus]⟩, ⟨1, by simp [rbus]⟩]
  · rintro r (rfl | rfl)
    exacts [⟨0, by simp [rslack]⟩, ⟨1, by simp [rload]⟩]
  · rintro r (rfl | rfl) <;> simp [rbus]

/-- **C146 is not vacuous**: an accepted network whose line can deliver 1/4 p.u.; a demand of 1 p.u. meets the hypotheses of
`C146_collapse`, whatever the linear solver, and without demand the load flow converges, as `C146_region` assumes. -/
theorem C146_thin (o : LFOracle) (pi : ℝ) : ∃ n s ls i j, CleanFile n 1 ∧ SimOf n (.fin 1) (.fin 1) s ∧ Numbered s 1 ∧
    OneSlack s i j ∧ FiniteLines s ls ∧ Resistive s notSlack ∧ gridLimit s = 1 / 4 ∧
    (∃ s' out, s.transition ⟨exactQP, realPF o, pi⟩ (demand (-1) 0) = .ok (s', out) ∧
      gridLimit s + (1 : ℕ) * 1e-5 < -deviceSum s' notSlack ∧ out.converged = false) ∧
    ∃ s' out, s.transition ⟨exactQP, realPF o, pi⟩ (demand 0 0) = .ok (s', out) ∧ out.converged = true := by
  obtain ⟨s, hmk, F⟩ := thinNet_mk
  have hs : SimOf thinNet (.fin 1) (.fin 1) s := ⟨s, hmk, sameConfig_refl s⟩
  obtain ⟨i, j, hos⟩ := oneSlack_of_file thinNet_clean thinNet_documented hs
  obtain ⟨br, hbr, hfin⟩ := List.map_eq_singleton_iff.1 F.branches
  obtain ⟨e1, e2, e3, -, -, e6, -⟩ := finite?_eq hfin
  have hres : Resistive s notSlack := by
    intro b hb _
    rw [hbr, List.mem_singleton] at hb
    rw [hb, e3]
    norm_num [finVal, thinLine]
  have hlim : gridLimit s = 1 / 4 := by
    unfold gridLimit
    rw [hbr]
    simp [e1, e2, e3, e6, thinLine, finVal, mostPower]
  refine ⟨thinNet, s, [thinLine], i, j, thinNet_clean, hs, two_numbered F, hos, two_lines F, hres, hlim, ?_, ?_⟩
  · obtain ⟨s', out, h⟩ := two_run (devs := [(1, 1)]) (a := demand (-1) 0) o pi thinNet_clean hmk F (by simp [demand, Dict.get?])
    have F' := two_same (sameConfig_transition h) F
    obtain ⟨d, e, hds, hd, he⟩ := devs_two F'
    have hL := two_load (x := -1) F h (d := e) (by simp [hds]) he (by simp [demand, Dict.get?]) (by norm_num) (by norm_num)
    simp only [slackAt, loadAt, Prod.mk.injEq] at hd he
    have hsum : deviceSum s' notSlack = -1 := by
      simp [deviceSum, hds, notSlack, hd.2.1, he.2.1, hL.1, finVal]
    have hlt : gridLimit s + (1 : ℕ) * 1e-5 < -deviceSum s' notSlack := by
      rw [hlim, hsum]
      norm_num
    exact ⟨s', out, h, hlt, C146_collapse thinNet_clean hs (two_numbered F) hos (two_lines F) h hres hlt⟩
  · obtain ⟨s', out, h⟩ := two_run (devs := [(1, 1)]) (a := demand 0 0) o pi thinNet_clean hmk F (by simp [demand, Dict.get?])
    have F' := two_same (sameConfig_transition h) F
    obtain ⟨d, e, hds, hd, he⟩ := devs_two F'
    obtain ⟨b0, b1, hb, i0, i1, f0, f1, _⟩ := two_buses F'
    have hL := two_load (x := 0) F h (d := e) (by simp [hds]) he (by simp [demand, Dict.get?]) (by norm_num) le_rfl
    obtain ⟨hp, hq⟩ := C33_bus_sum_partial hos h (b := b1) (by simp [hb]) (by simp [f1])
    simp only [slackAt, loadAt, Prod.mk.injEq] at hd he
    simp only [devicesAt, hds, i1, List.filter, hd.2.1, he.2.1, sumX, List.map, List.foldl] at hp hq
    simp [zero_add_X, hL.1, hL.2] at hp hq
    refine ⟨s', out, h, (C73_idle thinNet_clean hs (two_numbered F) (two_lines F) (by simp [thinLine]) h ?_).1⟩
    rw [hb]
    simp [f0, f1, hp, hq]

end Anm
