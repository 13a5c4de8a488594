import Verif.Props.Order

/-! # C135: asking for more power gives no less -/

set_option linter.unusedSectionVars false

namespace Anm

open Spec

namespace Spec
variable {K : Type} [Field K] [LinearOrder K]

/-- Two runs of a network in which the storage unit `i` is asked for the same reactive power and, in the first one, for at least as much
active power as in the second one; everything else may differ. -/
inductive MoreAndLess (c c₂ : Ctx K) (i : ℤ) : Sim K → Sim K → Sim K → Sim K → Prop where
  | nil (s u : Sim K) : MoreAndLess c c₂ i s u s u
  | cons {s s1 s' u u1 u' : Sim K} {a b : Sim.Args K} {o o' : Sim.TransOut K} {p p₂ q : K} :
      s.transition c a = .ok (s1, o) → u.transition c₂ b = .ok (u1, o') →
      a.pSet.get? i = some (.fin p) → a.qSet.get? i = some (.fin q) → b.pSet.get? i = some (.fin p₂) → b.qSet.get? i = some (.fin q) → p₂ ≤ p →
      MoreAndLess c c₂ i s1 u1 s' u' → MoreAndLess c c₂ i s u s' u'

end Spec

section
variable {K : Type} [Field K] [LinearOrder K] [IsStrictOrderedRing K] [FloorRing K]
variable {c c₂ : Ctx K} {s s' s₂ u u' : Sim K} {a b : Sim.Args K} {out out₂ : Sim.TransOut K} {d d₂ : Device K}
variable {n : Network K} {lam lam₂ : X K} {base t : K}

/-- Closest points to two set-points, within one convex region: the powers move in the direction of the set-points. -/
theorem closestIn_firm {C : K → K → Prop} (hC : ConvexRegion C) {p0 q0 p q p0' q0' p' q' : K} (h : ClosestIn C p0 q0 p q)
    (h' : ClosestIn C p0' q0' p' q') : (p' - p) ^ 2 + (q' - q) ^ 2 ≤ (p0' - p0) * (p' - p) + (q0' - q0) * (q' - q) := by
  have a := closestIn_variational hC h h'.1
  have b := closestIn_variational hC h' h.1
  nlinarith

theorem more_of_firm {x w e : K} (he : 0 ≤ e) (h : w ^ 2 + x ^ 2 ≤ e * w) : 0 ≤ w ∧ w ≤ e := by
  have hw : 0 ≤ w := by
    by_contra hc
    have hc := not_le.1 hc
    have := mul_nonneg he (neg_nonneg.2 hc.le)
    have : 0 < w ^ 2 := sq_pos_of_neg hc
    nlinarith [sq_nonneg x]
  refine ⟨hw, ?_⟩
  by_contra hc
  have hc := not_le.1 hc
  nlinarith [sq_nonneg x, mul_pos (lt_of_le_of_lt he hc) (sub_pos.2 hc)]

/-- Closest points to two set-points, within two windows of active powers. -/
theorem window_more {C : K → K → Prop} (hC : ConvexRegion C) {p0 p0₂ q0 x y x₂ y₂ lo hi lo₂ hi₂ : K} (hp : p0₂ ≤ p0)
    (h : ClosestIn (fun p q => C p q ∧ lo ≤ p ∧ p ≤ hi) p0 q0 x y) (h₂ : ClosestIn (fun p q => C p q ∧ lo₂ ≤ p ∧ p ≤ hi₂) p0₂ q0 x₂ y₂)
    (hlt : x < x₂) : x = hi ∨ x₂ = lo₂ := by
  obtain ⟨⟨c1, l1, l2⟩, m⟩ := h
  obtain ⟨⟨c2, l3, l4⟩, m₂⟩ := h₂
  by_contra hn
  rw [not_or] at hn
  have g1 : x < hi := lt_of_le_of_ne l2 hn.1
  have g2 : lo₂ < x₂ := lt_of_le_of_ne l3 (Ne.symm hn.2)
  have hw : 0 < x₂ - x := sub_pos.2 hlt
  set ε := min (1/2) (min ((hi - x) / (x₂ - x)) ((x₂ - lo₂) / (x₂ - x))) with he
  have e0 : 0 < ε := lt_min (by norm_num) (lt_min (div_pos (sub_pos.2 g1) hw) (div_pos (sub_pos.2 g2) hw))
  have e1 : ε ≤ 1/2 := min_le_left _ _
  have e2 : ε * (x₂ - x) ≤ hi - x := by
    rw [← le_div_iff₀ hw]; exact (min_le_right _ _).trans (min_le_left _ _)
  have e3 : ε * (x₂ - x) ≤ x₂ - lo₂ := by
    rw [← le_div_iff₀ hw]; exact (min_le_right _ _).trans (min_le_right _ _)
  have e4 : 0 ≤ ε * (x₂ - x) := by positivity
  have d1 := m _ _ ⟨hC _ _ _ _ _ e0.le (by linarith) c1 c2, by linarith, by linarith⟩
  have d2 := m₂ _ _ ⟨hC _ _ _ _ _ e0.le (by linarith) c2 c1, by nlinarith, by nlinarith⟩
  simp only [sqDist] at d1 d2
  have k1 : 0 ≤ (p0 - p0₂) * (x₂ - x) := mul_nonneg (by linarith) hw.le
  have k2 : 0 < (x₂ - x) ^ 2 + (y₂ - y) ^ 2 := by positivity
  have k3 : 0 ≤ ε * ((ε - 1) * ((x₂ - x) ^ 2 + (y₂ - y) ^ 2) - (p0 - p0₂) * (x₂ - x)) := by nlinarith
  have k4 := nonneg_of_mul_nonneg_right k3 e0
  nlinarith

/-- The region of a storage unit is convex. -/
theorem desRegion_convex {g : DesParams K} (O : DesParamsOk g) (t soc : K) : ConvexRegion (DesRegion g t soc) := by
  rw [region_window]
  intro a1 a2 b1 b2 r r0 r1 k1 k2
  exact ⟨desCurve_convex O _ _ _ _ _ r0 r1 k1.1 k2.1, mix_bounds r0 r1 k1.2.1 k1.2.2 k2.2.1 k2.2.2⟩

/-- **C135, generators.** Two transitions of the same simulator in which a generator has the same potential and is asked for the same
reactive power: the one that asks for more active power gets no less, and no more than asked for in addition. -/
theorem C135_generator_p {pot p p₂ q : K} {g : GenParams K} (hn : CleanFile n base) (hs : SimOf n (.fin t) lam s)
    (hq : QPExact c.qp) (h : s.transition c a = .ok (s', out)) (h' : s.transition c b = .ok (s₂, out₂))
    (hd : d ∈ s'.devices) (hd₂ : d₂ ∈ s₂.devices) (hid : d₂.id = d.id) (hg : d.isNonSlackGen = true) (hgp : HasGenParams d g)
    (a0 : a.pPot.get? d.id = some (.fin pot)) (a1 : a.pSet.get? d.id = some (.fin p)) (a2 : a.qSet.get? d.id = some (.fin q))
    (b0 : b.pPot.get? d.id = some (.fin pot)) (b1 : b.pSet.get? d.id = some (.fin p₂)) (b2 : b.qSet.get? d.id = some (.fin q)) (hp : p ≤ p₂) :
    ∃ x x₂, d.p = .fin x ∧ d₂.p = .fin x₂ ∧ x ≤ x₂ ∧ x₂ ≤ x + (p₂ - p) / base := by
  have hb := basePos_of_simOf hn hs
  have hsm := transition_same hs h h' hd hd₂ hid
  have hg2 : d₂.isNonSlackGen = true := by rw [hsm.classes.2.2.2]; exact hg
  have hgp2 : HasGenParams d₂ g := by
    rw [hsm]
    exact ⟨hgp.1, hgp.2, hgp.3, hgp.4, hgp.5, hgp.6, hgp.7⟩
  rw [← hid] at b0 b1 b2
  obtain ⟨O, x, y, e1, e2, c1⟩ := transition_gen hn hs hq h hd hg hgp a0 a1 a2
  obtain ⟨-, x₂, y₂, e3, e4, c2⟩ := transition_gen hn hs hq h' hd₂ hg2 hgp2 b0 b1 b2
  have f := closestIn_firm (genRegion_convex O _) c1 c2
  rw [sub_self, zero_mul, add_zero, ← sub_div] at f
  have m := more_of_firm (div_nonneg (by linarith) hb.le) f
  exact ⟨x, x₂, e1, e3, by linarith [m.1], by linarith [m.2]⟩

/-- **C135, generators.** The same for reactive power. -/
theorem C135_generator_q {pot p q q₂ : K} {g : GenParams K} (hn : CleanFile n base) (hs : SimOf n (.fin t) lam s)
    (hq : QPExact c.qp) (h : s.transition c a = .ok (s', out)) (h' : s.transition c b = .ok (s₂, out₂))
    (hd : d ∈ s'.devices) (hd₂ : d₂ ∈ s₂.devices) (hid : d₂.id = d.id) (hg : d.isNonSlackGen = true) (hgp : HasGenParams d g)
    (a0 : a.pPot.get? d.id = some (.fin pot)) (a1 : a.pSet.get? d.id = some (.fin p)) (a2 : a.qSet.get? d.id = some (.fin q))
    (b0 : b.pPot.get? d.id = some (.fin pot)) (b1 : b.pSet.get? d.id = some (.fin p)) (b2 : b.qSet.get? d.id = some (.fin q₂)) (hqq : q ≤ q₂) :
    ∃ y y₂, d.q = .fin y ∧ d₂.q = .fin y₂ ∧ y ≤ y₂ ∧ y₂ ≤ y + (q₂ - q) / base := by
  have hb := basePos_of_simOf hn hs
  have hsm := transition_same hs h h' hd hd₂ hid
  have hg2 : d₂.isNonSlackGen = true := by rw [hsm.classes.2.2.2]; exact hg
  have hgp2 : HasGenParams d₂ g := by
    rw [hsm]
    exact ⟨hgp.1, hgp.2, hgp.3, hgp.4, hgp.5, hgp.6, hgp.7⟩
  rw [← hid] at b0 b1 b2
  obtain ⟨O, x, y, e1, e2, c1⟩ := transition_gen hn hs hq h hd hg hgp a0 a1 a2
  obtain ⟨-, x₂, y₂, e3, e4, c2⟩ := transition_gen hn hs hq h' hd₂ hg2 hgp2 b0 b1 b2
  have f := closestIn_firm (genRegion_convex O _) c1 c2
  rw [sub_self, zero_mul, zero_add, ← sub_div, add_comm] at f
  have m := more_of_firm (div_nonneg (by linarith) hb.le) f
  exact ⟨y, y₂, e2, e4, by linarith [m.1], by linarith [m.2]⟩

/-- **C135, storage units.** Two transitions of the same simulator in which a storage unit is asked for the same reactive power: the one
that asks for more active power gets no less, no more than asked for in addition, and leaves no more energy in the unit. -/
theorem C135_storage_p {i : ℤ} {p p₂ q soc : K} {g : DesParams K} (hn : CleanFile n base) (hs : SimOf n (.fin t) lam s)
    (ht : 0 < t) (he : 0 < g.eff) (hq : QPExact c.qp) (h : s.transition c a = .ok (s', out)) (h' : s.transition c b = .ok (s₂, out₂))
    (hx : Stores s i g soc)
    (a1 : a.pSet.get? i = some (.fin p)) (a2 : a.qSet.get? i = some (.fin q)) (b1 : b.pSet.get? i = some (.fin p₂)) (b2 : b.qSet.get? i = some (.fin q))
    (hp : p ≤ p₂) :
    ∃ d ∈ s'.devices, ∃ d₂ ∈ s₂.devices, ∃ x x₂ e e₂, d.id = i ∧ d₂.id = i ∧ d.p = .fin x ∧ d₂.p = .fin x₂ ∧
      d.soc = some (.fin e) ∧ d₂.soc = some (.fin e₂) ∧ x ≤ x₂ ∧ x₂ ≤ x + (p₂ - p) / base ∧ e₂ ≤ e := by
  have hb := basePos_of_simOf hn hs
  obtain ⟨d0, m0, d1, m1, i0, rfl, st1, hg1, so0⟩ := stores_after h hx
  obtain ⟨e0, n0, e1, n1, j0, j1, st2, hg2, so2⟩ := stores_after h' hx
  obtain ⟨-, -, -, -, -, -, x1, x2⟩ := hx
  obtain ⟨O, p1, q1, f1, f2, c1, r1⟩ := transition_soc hn hs ht hq h m1 st1 hg1 he m0 i0 so0 x1 x2 a1 a2
  rw [← j1] at b1 b2
  obtain ⟨-, p2, q2, f3, f4, c2, r2⟩ := transition_soc hn hs ht hq h' n1 st2 hg2 he n0 (j0.trans j1.symm) so2 x1 x2 b1 b2
  have f := closestIn_firm (desRegion_convex O t soc) c1 c2
  rw [sub_self, zero_mul, add_zero, ← sub_div] at f
  have m := more_of_firm (div_nonneg (by linarith) hb.le) f
  refine ⟨d1, m1, e1, n1, p1, p2, _, _, rfl, j1, f1, f3, r1, r2, by linarith [m.1], by linarith [m.2], ?_⟩
  rw [laterSoc_eq, laterSoc_eq]
  have := mul_le_mul_of_nonneg_left (drainRate_mono he (by linarith [m.1] : p1 ≤ p2)) ht.le
  linarith

/-- **C135, storage units.** The same for reactive power. -/
theorem C135_storage_q {i : ℤ} {p q q₂ soc : K} {g : DesParams K} (hn : CleanFile n base) (hs : SimOf n (.fin t) lam s)
    (ht : 0 < t) (he : 0 < g.eff) (hq : QPExact c.qp) (h : s.transition c a = .ok (s', out)) (h' : s.transition c b = .ok (s₂, out₂))
    (hx : Stores s i g soc)
    (a1 : a.pSet.get? i = some (.fin p)) (a2 : a.qSet.get? i = some (.fin q)) (b1 : b.pSet.get? i = some (.fin p)) (b2 : b.qSet.get? i = some (.fin q₂))
    (hqq : q ≤ q₂) :
    ∃ d ∈ s'.devices, ∃ d₂ ∈ s₂.devices, ∃ y y₂, d.id = i ∧ d₂.id = i ∧ d.q = .fin y ∧ d₂.q = .fin y₂ ∧ y ≤ y₂ ∧ y₂ ≤ y + (q₂ - q) / base := by
  have hb := basePos_of_simOf hn hs
  obtain ⟨d0, m0, d1, m1, i0, rfl, st1, hg1, so0⟩ := stores_after h hx
  obtain ⟨e0, n0, e1, n1, j0, j1, st2, hg2, so2⟩ := stores_after h' hx
  obtain ⟨-, -, -, -, -, -, x1, x2⟩ := hx
  obtain ⟨O, p1, q1, f1, f2, c1, r1⟩ := transition_soc hn hs ht hq h m1 st1 hg1 he m0 i0 so0 x1 x2 a1 a2
  rw [← j1] at b1 b2
  obtain ⟨-, p2, q2, f3, f4, c2, r2⟩ := transition_soc hn hs ht hq h' n1 st2 hg2 he n0 (j0.trans j1.symm) so2 x1 x2 b1 b2
  have f := closestIn_firm (desRegion_convex O t soc) c1 c2
  rw [sub_self, zero_mul, zero_add, ← sub_div, add_comm] at f
  have m := more_of_firm (div_nonneg (by linarith) hb.le) f
  exact ⟨d1, m1, e1, n1, q1, q2, rfl, j1, f2, f4, by linarith [m.1], by linarith [m.2]⟩

/-- **C135, one step of two runs.** -/
theorem C135_step {i : ℤ} {g : DesParams K} {p p₂ q x y : K} (hn : CleanFile n base) (hs : SimOf n (.fin t) lam s) (hu : SimOf n (.fin t) lam₂ u)
    (ht : 0 < t) (he : 0 < g.eff) (hq : QPExact c.qp) (hq₂ : QPExact c₂.qp) (h : s.transition c a = .ok (s', out)) (h' : u.transition c₂ b = .ok (u', out₂))
    (a1 : a.pSet.get? i = some (.fin p)) (a2 : a.qSet.get? i = some (.fin q)) (b1 : b.pSet.get? i = some (.fin p₂)) (b2 : b.qSet.get? i = some (.fin q))
    (hp : p₂ ≤ p) (hx : Stores s i g x) (hy : Stores u i g y) (hxy : x ≤ y) :
    ∃ x' y', Stores s' i g x' ∧ Stores u' i g y' ∧ x' ≤ y' := by
  have hb := basePos_of_simOf hn hs
  obtain ⟨d0, m0, d1, m1, i0, rfl, st1, hg1, so0⟩ := stores_after h hx
  obtain ⟨e0, n0, e1, n1, j0, j1, st2, hg2, so2⟩ := stores_after h' hy
  obtain ⟨-, -, -, -, -, -, x1, x2⟩ := hx
  obtain ⟨-, -, -, -, -, -, y1, y2⟩ := hy
  obtain ⟨O, p1, q1, -, -, c1, r1⟩ := transition_soc hn hs ht hq h m1 st1 hg1 he m0 i0 so0 x1 x2 a1 a2
  rw [← j1] at b1 b2
  obtain ⟨-, p2, q2, -, -, c2, r2⟩ := transition_soc hn hu ht hq₂ h' n1 st2 hg2 he n0 (j0.trans j1.symm) so2 y1 y2 b1 b2
  have w1 := laterSoc_mem ht he x1 x2 c1.1
  have w2 := laterSoc_mem ht he y1 y2 c2.1
  refine ⟨_, _, ⟨d1, m1, rfl, st1, hg1, r1, w1⟩, ⟨e1, n1, j1, st2, hg2, r2, w2⟩, ?_⟩
  rcases le_or_gt p2 p1 with hle | hlt
  · rw [laterSoc_eq, laterSoc_eq]
    have := mul_le_mul_of_nonneg_left (drainRate_mono he hle) ht.le
    linarith
  rw [region_window] at c1 c2
  rcases window_more (desCurve_convex O) (div_le_div_of_nonneg_right hp hb.le) c1 c2 hlt with e | e
  · refine le_trans (le_of_eq ?_) w2.1
    have : 0 ≤ p1 := by rw [e]; exact div_nonneg (mul_nonneg he.le (by linarith)) ht.le
    unfold laterSoc
    split_ifs with h0
    · have h1 : p1 = 0 := le_antisymm h0 this
      have h2 : g.eff * (x - g.socMin) = 0 := by
        rw [h1, eq_comm, div_eq_zero_iff] at e
        exact e.resolve_right ht.ne'
      rw [h1]
      have := (mul_eq_zero.1 h2).resolve_left he.ne'
      linarith
    · rw [e]
      field_simp
      ring
  · refine w1.2.trans (le_of_eq ?_)
    have : p2 ≤ 0 := by rw [e]; exact div_nonpos_of_nonpos_of_nonneg (by linarith) (by positivity)
    unfold laterSoc
    rw [if_pos this, e]
    field_simp
    ring

/-- **C135** A run that always asks a storage unit for less power (or charges it with more) than another one, and begins with no less
energy in it, never has less energy in it. -/
theorem C135_run {i : ℤ} {g : DesParams K} {x y : K} (hn : CleanFile n base) (hs : SimOf n (.fin t) lam s) (hu : SimOf n (.fin t) lam₂ u)
    (ht : 0 < t) (he : 0 < g.eff) (hq : QPExact c.qp) (hq₂ : QPExact c₂.qp) (h : MoreAndLess c c₂ i s u s' u')
    (hx : Stores s i g x) (hy : Stores u i g y) (hxy : x ≤ y) :
    ∃ x' y', Stores s' i g x' ∧ Stores u' i g y' ∧ x' ≤ y' := by
  induction h generalizing x y with
  | nil s u => exact ⟨x, y, hx, hy, hxy⟩
  | cons h1 h2 a1 a2 b1 b2 hp _ ih =>
    obtain ⟨x1, y1, k1, k2, k3⟩ := C135_step hn hs hu ht he hq hq₂ h1 h2 a1 a2 b1 b2 hp hx hy hxy
    exact ih (simOf_transition hs h1) (simOf_transition hu h2) k1 k2 k3

end

end Anm
