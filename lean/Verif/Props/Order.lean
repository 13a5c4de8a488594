import Verif.Props.Curtail
import Verif.Props.Refine
import Verif.Props.StoreEx

/-! # C129, C130: how the effects of stored energy and of set-points carry over

Two runs with the same set-points keep the order of their stored energies, and the gap between them never grows. -/

set_option linter.unusedSectionVars false

namespace Anm

open Spec

namespace Spec
variable {K : Type} [Field K] [LinearOrder K]

/-- The storage unit `i` with the data `g` stores the energy `x`, within its limits. -/
def Stores (s : Sim K) (i : ℤ) (g : DesParams K) (x : K) : Prop :=
  ∃ d ∈ s.devices, d.id = i ∧ d.isStorage = true ∧ HasDesParams d g ∧ d.soc = some (.fin x) ∧ g.socMin ≤ x ∧ x ≤ g.socMax

/-- Two runs in which the storage unit `i` gets the same set-points; everything else may differ. -/
inductive TwoRuns (c c₂ : Ctx K) (i : ℤ) : Sim K → Sim K → Sim K → Sim K → Prop where
  | nil (s u : Sim K) : TwoRuns c c₂ i s u s u
  | cons {s s1 s' u u1 u' : Sim K} {a b : Sim.Args K} {o o' : Sim.TransOut K} {p q : K} :
      s.transition c a = .ok (s1, o) → u.transition c₂ b = .ok (u1, o') →
      a.pSet.get? i = some (.fin p) → a.qSet.get? i = some (.fin q) → b.pSet.get? i = some (.fin p) → b.qSet.get? i = some (.fin q) →
      TwoRuns c c₂ i s1 u1 s' u' → TwoRuns c c₂ i s u s' u'

end Spec

section
variable {K : Type} [Field K] [LinearOrder K] [IsStrictOrderedRing K] [FloorRing K]
variable {c c₂ : Ctx K} {s s' u u' : Sim K} {a b : Sim.Args K} {out out₂ : Sim.TransOut K} {d : Device K}
variable {n : Network K} {lam lam₂ : X K} {base t : K}

/-- Closest points within two windows of active powers. -/
theorem window_order {C : K → K → Prop} (hC : ConvexRegion C) {p0 q0 x y x₂ y₂ lo hi lo₂ hi₂ : K} (hlo : lo ≤ lo₂) (hhi : hi ≤ hi₂)
    (h : ClosestIn (fun p q => C p q ∧ lo ≤ p ∧ p ≤ hi) p0 q0 x y) (h₂ : ClosestIn (fun p q => C p q ∧ lo₂ ≤ p ∧ p ≤ hi₂) p0 q0 x₂ y₂) :
    x ≤ x₂ ∧ (x < x₂ → x = hi ∨ x₂ = lo₂) := by
  obtain ⟨⟨c1, l1, l2⟩, m⟩ := h
  obtain ⟨⟨c2, l3, l4⟩, m₂⟩ := h₂
  -- two points of the segment at the same distance from its ends
  have key : ∀ ε : K, 0 < ε → ε < 1 → lo ≤ x + ε * (x₂ - x) → x + ε * (x₂ - x) ≤ hi → lo₂ ≤ x₂ + ε * (x - x₂) → x₂ + ε * (x - x₂) ≤ hi₂ → x = x₂ := by
    intro ε e0 e1 k1 k2 k3 k4
    have d1 := m _ _ ⟨hC _ _ _ _ _ e0.le e1.le c1 c2, k1, k2⟩
    have d2 := m₂ _ _ ⟨hC _ _ _ _ _ e0.le e1.le c2 c1, k3, k4⟩
    simp only [sqDist] at d1 d2
    have : 0 ≤ ε * (ε - 1) * ((x₂ - x) ^ 2 + (y₂ - y) ^ 2) := by nlinarith
    have h1 : (x₂ - x) ^ 2 + (y₂ - y) ^ 2 ≤ 0 := by
      by_contra hc
      have := mul_pos (mul_pos e0 (sub_pos.2 e1)) (not_le.1 hc)
      linarith
    have h2 : (x₂ - x) ^ 2 = 0 := le_antisymm (by linarith [sq_nonneg (y₂ - y)]) (sq_nonneg _)
    have := pow_eq_zero_iff (two_ne_zero) |>.1 h2
    linarith
  refine ⟨?_, ?_⟩
  · by_contra hc
    have hc' := not_le.1 hc
    have := key (1/2) (by norm_num) (by norm_num) (by linarith) (by linarith) (by linarith) (by linarith)
    linarith
  · intro hlt
    by_contra hn
    rw [not_or] at hn
    have g1 : x < hi := lt_of_le_of_ne l2 hn.1
    have g2 : lo₂ < x₂ := lt_of_le_of_ne l3 (Ne.symm hn.2)
    have hw : 0 < x₂ - x := sub_pos.2 hlt
    set ε := min (1/2) (min ((hi - x) / (x₂ - x)) ((x₂ - lo₂) / (x₂ - x))) with he
    have e0 : 0 < ε := lt_min (by norm_num) (lt_min (div_pos (sub_pos.2 g1) hw) (div_pos (sub_pos.2 g2) hw))
    have e1 : ε ≤ 1/2 := min_le_left _ _
    have e2 : ε * (x₂ - x) ≤ hi - x := by
      rw [← le_div_iff₀ hw]; exact (min_le_right _ _).trans (min_le_left _ _)
    have e3 : ε * (x₂ - x) ≤ x₂ - lo₂ := by
      rw [← le_div_iff₀ hw]; exact (min_le_right _ _).trans (min_le_right _ _)
    have e4 : 0 ≤ ε * (x₂ - x) := by positivity
    have := key ε e0 (by linarith) (by linarith) (by linarith) (by nlinarith) (by nlinarith)
    linarith

theorem drainRate_mono {eff x y : K} (he : 0 < eff) (h : x ≤ y) : drainRate eff x ≤ drainRate eff y := by
  unfold drainRate
  split_ifs with h1 h2 h2
  · exact mul_le_mul_of_nonneg_left h he.le
  · have := mul_nonneg he.le (neg_nonneg.2 h1)
    have := div_nonneg (not_le.1 h2).le he.le
    linarith
  · exact absurd (h.trans h2) h1
  · exact div_le_div_of_nonneg_right h he.le

/-- The energy after a transition, whatever the set-points. -/
theorem transition_soc {p q soc : K} {g : DesParams K} {d0 : Device K} (hn : CleanFile n base)
    (hs : SimOf n (.fin t) lam s) (ht : 0 < t) (hq : QPExact c.qp) (h : s.transition c a = .ok (s', out))
    (hd : d ∈ s'.devices) (hg : d.isStorage = true) (hgp : HasDesParams d g) (he : 0 < g.eff)
    (hd0 : d0 ∈ s.devices) (hid : d0.id = d.id) (hsoc : d0.soc = some (.fin soc)) (hs1 : g.socMin ≤ soc) (hs2 : soc ≤ g.socMax)
    (h2 : a.pSet.get? d.id = some (.fin p)) (h3 : a.qSet.get? d.id = some (.fin q)) :
    DesParamsOk g ∧ ∃ x y, d.p = .fin x ∧ d.q = .fin y ∧ ClosestIn (DesRegion g t soc) (p / base) (q / base) x y ∧
      d.soc = some (.fin (laterSoc g.eff t soc x)) := by
  obtain ⟨O, x, y, e1, e2, hc⟩ := transition_des hn hs ht hq h hd hg hgp he hd0 hid hsoc h2 h3
  refine ⟨O, x, y, e1, e2, hc, ?_⟩
  have et : s.deltaT = .fin t := (simOf_base hs).2.1
  obtain ⟨-, -, -, -, -, -, -, hsl⟩ := simOf_storage hn (simOf_transition hs h) hd hg
  obtain ⟨d1, hd1, hst⟩ := transition_device h hd hsl
  obtain ⟨f1, f2, f3, f4⟩ := hst.same.classes
  have hg0 := hg
  rw [f3] at hg0
  have hdd : d1 = d0 := device_unique hs hd1 hd0 (by rw [hid, hst.same])
  subst hdd
  cases hst with
  | gen _ _ _ _ _ h1 => exact absurd (nonSlackGen_notSlack h1).2.2 (by simp [hg0])
  | load _ h1 =>
    exfalso
    unfold Device.isLoad at h1; unfold Device.isStorage at hg0
    cases hk : d1.kind <;> simp_all
  | slack _ _ h1 => simp [hg0] at h1
  | none _ _ h1 => simp [hg0] at h1
  | storage p' q' x' y' rows soc' _ _ _ hp hq' hsoc' hrows hxy =>
    rw [hsoc] at hsoc'
    injection hsoc' with hsoc'
    have k1 : x' = .fin x := e1
    subst k1 hsoc'
    have i1 : d1.eff = .fin g.eff := hgp.eff
    have i2 : d1.socMin = .fin g.socMin := hgp.socMin
    have i3 : d1.socMax = .fin g.socMax := hgp.socMax
    have hc1 := hc.1.charge
    have hc2 := hc.1.discharge
    have hte : 0 < t * g.eff := mul_pos ht he
    rw [div_le_iff₀ hte] at hc1
    rw [le_div_iff₀ ht] at hc2
    show some (X.clip (if (X.fin x : X K) ≤ 0 then _ else _) d1.socMin d1.socMax) = _
    rw [i1, i2, i3, et, laterSoc]
    by_cases h0 : x ≤ 0
    · rw [if_pos (show (X.fin x : X K) ≤ 0 from h0), if_pos h0]
      simp only [X.fin_mul_fin, X.fin_sub_fin]
      rw [X.clip_fin (hs1.trans hs2)]
      have := mul_nonneg hte.le (neg_nonneg.2 h0)
      rw [max_eq_right (by linarith), min_eq_left (by linarith)]
    · rw [if_neg (show ¬ (X.fin x : X K) ≤ 0 from h0), if_neg h0]
      simp only [X.fin_mul_fin, X.fin_div_fin he.ne', X.fin_sub_fin]
      rw [X.clip_fin (hs1.trans hs2)]
      have h4 : 0 < x := not_le.1 h0
      have h5 : 0 ≤ t * x / g.eff := by positivity
      have h6 : t * x / g.eff ≤ soc - g.socMin := by
        rw [div_le_iff₀ he]; linarith
      rw [max_eq_right (by linarith), min_eq_left (by linarith)]

theorem laterSoc_mem {g : DesParams K} {soc x y : K} (ht : 0 < t) (he : 0 < g.eff) (hs1 : g.socMin ≤ soc) (hs2 : soc ≤ g.socMax)
    (h : DesRegion g t soc x y) : g.socMin ≤ laterSoc g.eff t soc x ∧ laterSoc g.eff t soc x ≤ g.socMax := by
  have hc1 := h.charge
  have hc2 := h.discharge
  have hte : 0 < t * g.eff := mul_pos ht he
  rw [div_le_iff₀ hte] at hc1
  rw [le_div_iff₀ ht] at hc2
  unfold laterSoc
  split_ifs with h0
  · have := mul_nonneg hte.le (neg_nonneg.2 h0)
    exact ⟨by linarith, by linarith⟩
  · have h4 : 0 < x := not_le.1 h0
    have h5 : 0 ≤ t * x / g.eff := by positivity
    have h6 : t * x / g.eff ≤ soc - g.socMin := by
      rw [div_le_iff₀ he]; linarith
    exact ⟨by linarith, by linarith⟩

/-- The device `i` after a transition. -/
theorem stores_after {i : ℤ} {g : DesParams K} {x : K} (h : s.transition c a = .ok (s', out)) (hx : Stores s i g x) :
    ∃ d0 ∈ s.devices, ∃ d ∈ s'.devices, d0.id = i ∧ d.id = i ∧ d.isStorage = true ∧ HasDesParams d g ∧ d0.soc = some (.fin x) := by
  obtain ⟨d0, hd0, hi, hst, hg, hsoc, -, -⟩ := hx
  obtain ⟨d, hd, hsm⟩ := forall₂_mem_left (sameConfig_transition h).devices hd0
  refine ⟨d0, hd0, d, hd, hi, by rw [hsm]; exact hi, by rw [hsm]; exact hst, ?_, hsoc⟩
  rw [hsm]
  exact ⟨hg.1, hg.2, hg.3, hg.4, hg.5, hg.6, hg.7, hg.8, hg.9, hg.10, hg.11⟩

theorem region_window (g : DesParams K) (soc : K) : DesRegion g t soc =
    fun p q => DesCurve g p q ∧ (soc - g.socMax) / (t * g.eff) ≤ p ∧ p ≤ g.eff * (soc - g.socMin) / t := by
  funext p q
  exact propext ⟨fun h => ⟨⟨h.1, h.2, h.3, h.4, h.5, h.6, h.7, h.8⟩, h.9, h.10⟩,
    fun ⟨h, h1, h2⟩ => ⟨h.1, h.2, h.3, h.4, h.5, h.6, h.7, h.8, h1, h2⟩⟩

/-- **C129, one step.** -/
theorem C129_step {i : ℤ} {g : DesParams K} {p q x y : K} (hn : CleanFile n base) (hs : SimOf n (.fin t) lam s) (hu : SimOf n (.fin t) lam₂ u)
    (ht : 0 < t) (he : 0 < g.eff) (hq : QPExact c.qp) (hq₂ : QPExact c₂.qp) (h : s.transition c a = .ok (s', out)) (h' : u.transition c₂ b = .ok (u', out₂))
    (a1 : a.pSet.get? i = some (.fin p)) (a2 : a.qSet.get? i = some (.fin q)) (b1 : b.pSet.get? i = some (.fin p)) (b2 : b.qSet.get? i = some (.fin q))
    (hx : Stores s i g x) (hy : Stores u i g y) (hxy : x ≤ y) :
    ∃ x' y', Stores s' i g x' ∧ Stores u' i g y' ∧ x' ≤ y' ∧ y' - x' ≤ y - x := by
  obtain ⟨d0, m0, d1, m1, i0, rfl, st1, hg1, so0⟩ := stores_after h hx
  obtain ⟨e0, n0, e1, n1, j0, j1, st2, hg2, so2⟩ := stores_after h' hy
  obtain ⟨-, -, -, -, -, -, x1, x2⟩ := hx
  obtain ⟨-, -, -, -, -, -, y1, y2⟩ := hy
  obtain ⟨O, p1, q1, -, -, c1, r1⟩ := transition_soc hn hs ht hq h m1 st1 hg1 he m0 i0 so0 x1 x2 a1 a2
  rw [← j1] at b1 b2
  obtain ⟨-, p2, q2, -, -, c2, r2⟩ := transition_soc hn hu ht hq₂ h' n1 st2 hg2 he n0 (j0.trans j1.symm) so2 y1 y2 b1 b2
  have w1 := laterSoc_mem ht he x1 x2 c1.1
  have w2 := laterSoc_mem ht he y1 y2 c2.1
  refine ⟨_, _, ⟨d1, m1, rfl, st1, hg1, r1, w1⟩, ⟨e1, n1, j1, st2, hg2, r2, w2⟩, ?_, ?_⟩
  all_goals
    rw [region_window] at c1 c2
    have o := window_order (desCurve_convex O) (div_le_div_of_nonneg_right (by linarith) (by positivity))
      (div_le_div_of_nonneg_right (mul_le_mul_of_nonneg_left (by linarith) he.le) ht.le) c1 c2
  · rcases o.1.lt_or_eq with hlt | heq
    · rcases o.2 hlt with e | e
      · refine le_trans (le_of_eq ?_) w2.1
        have : 0 ≤ p1 := by rw [e]; exact div_nonneg (mul_nonneg he.le (by linarith)) ht.le
        unfold laterSoc
        split_ifs with h0
        · have h1 : p1 = 0 := le_antisymm h0 this
          have h2 : g.eff * (x - g.socMin) = 0 := by
            rw [h1, eq_comm, div_eq_zero_iff] at e
            exact e.resolve_right ht.ne'
          rw [h1]
          have := (mul_eq_zero.1 h2).resolve_left he.ne'
          linarith
        · rw [e]
          field_simp
          ring
      · refine w1.2.trans (le_of_eq ?_)
        have : p2 ≤ 0 := by rw [e]; exact div_nonpos_of_nonpos_of_nonneg (by linarith) (by positivity)
        unfold laterSoc
        rw [if_pos this, e]
        field_simp
        ring
    · rw [laterSoc_eq, laterSoc_eq, heq]
      linarith
  · rw [laterSoc_eq, laterSoc_eq]
    have := mul_le_mul_of_nonneg_left (drainRate_mono he o.1) ht.le
    linarith

/-- **C129** Two runs of a network with the same set-points of a storage unit, but perhaps other stored energies, loads, weather,
costs and set-points of other devices: the run that begins with more energy in the unit always has at least as much in it, and the
gap never grows. -/
theorem C129_run {i : ℤ} {g : DesParams K} {x y : K} (hn : CleanFile n base) (hs : SimOf n (.fin t) lam s) (hu : SimOf n (.fin t) lam₂ u)
    (ht : 0 < t) (he : 0 < g.eff) (hq : QPExact c.qp) (hq₂ : QPExact c₂.qp) (h : TwoRuns c c₂ i s u s' u')
    (hx : Stores s i g x) (hy : Stores u i g y) (hxy : x ≤ y) :
    ∃ x' y', Stores s' i g x' ∧ Stores u' i g y' ∧ x' ≤ y' ∧ y' - x' ≤ y - x := by
  induction h generalizing x y with
  | nil s u => exact ⟨x, y, hx, hy, hxy, le_rfl⟩
  | cons h1 h2 a1 a2 b1 b2 _ ih =>
    obtain ⟨x1, y1, k1, k2, k3, k4⟩ := C129_step hn hs hu ht he hq hq₂ h1 h2 a1 a2 b1 b2 hx hy hxy
    obtain ⟨x2, y2, l1, l2, l3, l4⟩ := ih (simOf_transition hs h1) (simOf_transition hu h2) k1 k2 k3
    exact ⟨x2, y2, l1, l2, l3, l4.trans k4⟩

/-! ### Set-points -/

theorem closestIn_nonexpansive {C : K → K → Prop} (hC : ConvexRegion C) {p0 q0 p q p0' q0' p' q' : K} (h : ClosestIn C p0 q0 p q)
    (h' : ClosestIn C p0' q0' p' q') : sqDist p q p' q' ≤ sqDist p0 q0 p0' q0' := by
  have a := closestIn_variational hC h h'.1
  have b := closestIn_variational hC h' h.1
  simp only [sqDist]
  nlinarith [sq_nonneg (p0 - p0' - (p - p')), sq_nonneg (q0 - q0' - (q - q'))]

theorem sqDist_div {p q p' q' : K} (_hb : 0 < base) : sqDist (p / base) (q / base) (p' / base) (q' / base) = sqDist p q p' q' / base ^ 2 := by
  simp only [sqDist]
  rw [← sub_div, ← sub_div, div_pow, div_pow, ← add_div]

theorem drainRate_lip {eff x y : K} (he : 0 < eff) (he1 : eff ≤ 1) : |drainRate eff x - drainRate eff y| ≤ |x - y| / eff := by
  have hinv : eff ≤ 1 / eff := by rw [le_div_iff₀ he]; nlinarith
  wlog hxy : x ≤ y generalizing x y
  · have := this (x := y) (y := x) (le_of_not_ge hxy)
    rwa [abs_sub_comm, abs_sub_comm y x] at this
  rw [abs_sub_comm, abs_of_nonneg (sub_nonneg.2 (drainRate_mono he hxy)), abs_sub_comm, abs_of_nonneg (sub_nonneg.2 hxy), sub_div]
  unfold drainRate
  split_ifs with h1 h2 h2
  · have := mul_le_mul_of_nonneg_right hinv (sub_nonneg.2 hxy)
    rw [← sub_div, div_eq_mul_one_div (y - x)]
    linarith
  · exact absurd (hxy.trans h1) h2
  · have := mul_le_mul_of_nonneg_right hinv (neg_nonneg.2 h2)
    rw [div_eq_mul_one_div x]
    linarith
  · exact le_rfl

/-- **C130, generators.** Two transitions of the same simulator with the same potential of a generator: its injections differ by no more
than its set-points (as points of the plane; injections in per-unit). -/
theorem C130_generator {pot p q p₂ q₂ : K} {g : GenParams K} {d₂ : Device K} {s₂ : Sim K} (hn : CleanFile n base) (hs : SimOf n (.fin t) lam s)
    (hq : QPExact c.qp) (h : s.transition c a = .ok (s', out)) (h' : s.transition c b = .ok (s₂, out₂))
    (hd : d ∈ s'.devices) (hd₂ : d₂ ∈ s₂.devices) (hid : d₂.id = d.id) (hg : d.isNonSlackGen = true) (hgp : HasGenParams d g)
    (a0 : a.pPot.get? d.id = some (.fin pot)) (a1 : a.pSet.get? d.id = some (.fin p)) (a2 : a.qSet.get? d.id = some (.fin q))
    (b0 : b.pPot.get? d.id = some (.fin pot)) (b1 : b.pSet.get? d.id = some (.fin p₂)) (b2 : b.qSet.get? d.id = some (.fin q₂)) :
    ∃ x y x₂ y₂, d.p = .fin x ∧ d.q = .fin y ∧ d₂.p = .fin x₂ ∧ d₂.q = .fin y₂ ∧ sqDist x y x₂ y₂ ≤ sqDist p q p₂ q₂ / base ^ 2 := by
  have hsm := transition_same hs h h' hd hd₂ hid
  have hg2 : d₂.isNonSlackGen = true := by rw [hsm.classes.2.2.2]; exact hg
  have hgp2 : HasGenParams d₂ g := by
    rw [hsm]
    exact ⟨hgp.1, hgp.2, hgp.3, hgp.4, hgp.5, hgp.6, hgp.7⟩
  rw [← hid] at b0 b1 b2
  obtain ⟨O, x, y, e1, e2, c1⟩ := transition_gen hn hs hq h hd hg hgp a0 a1 a2
  obtain ⟨-, x₂, y₂, e3, e4, c2⟩ := transition_gen hn hs hq h' hd₂ hg2 hgp2 b0 b1 b2
  refine ⟨x, y, x₂, y₂, e1, e2, e3, e4, ?_⟩
  rw [← sqDist_div (basePos_of_simOf hn hs)]
  exact closestIn_nonexpansive (genRegion_convex O _) c1 c2

/-- **C130, storage units.** Two transitions of the same simulator: the injections of a storage unit differ by no more than its
set-points, and the stored energies by no more than what the difference of the active powers would make at the worse conversion. -/
theorem C130_storage {i : ℤ} {p q p₂ q₂ soc : K} {g : DesParams K} {s₂ : Sim K} (hn : CleanFile n base) (hs : SimOf n (.fin t) lam s)
    (ht : 0 < t) (he : 0 < g.eff) (hq : QPExact c.qp) (h : s.transition c a = .ok (s', out)) (h' : s.transition c b = .ok (s₂, out₂))
    (hx : Stores s i g soc)
    (a1 : a.pSet.get? i = some (.fin p)) (a2 : a.qSet.get? i = some (.fin q)) (b1 : b.pSet.get? i = some (.fin p₂)) (b2 : b.qSet.get? i = some (.fin q₂)) :
    ∃ d ∈ s'.devices, ∃ d₂ ∈ s₂.devices, ∃ x y x₂ y₂ e e₂, d.id = i ∧ d₂.id = i ∧ d.p = .fin x ∧ d.q = .fin y ∧ d₂.p = .fin x₂ ∧ d₂.q = .fin y₂ ∧
      d.soc = some (.fin e) ∧ d₂.soc = some (.fin e₂) ∧ sqDist x y x₂ y₂ ≤ sqDist p q p₂ q₂ / base ^ 2 ∧ |e - e₂| ≤ t * (|x - x₂| / g.eff) := by
  obtain ⟨d0, m0, d1, m1, i0, rfl, st1, hg1, so0⟩ := stores_after h hx
  obtain ⟨e0, n0, e1, n1, j0, j1, st2, hg2, so2⟩ := stores_after h' hx
  obtain ⟨-, -, -, -, -, -, x1, x2⟩ := hx
  obtain ⟨O, p1, q1, f1, f2, c1, r1⟩ := transition_soc hn hs ht hq h m1 st1 hg1 he m0 i0 so0 x1 x2 a1 a2
  rw [← j1] at b1 b2
  obtain ⟨-, p2, q2, f3, f4, c2, r2⟩ := transition_soc hn hs ht hq h' n1 st2 hg2 he n0 (j0.trans j1.symm) so2 x1 x2 b1 b2
  refine ⟨d1, m1, e1, n1, p1, q1, p2, q2, _, _, rfl, j1, f1, f2, f3, f4, r1, r2, ?_, ?_⟩
  · rw [← sqDist_div (basePos_of_simOf hn hs)]
    have hC : ConvexRegion (DesRegion g t soc) := by
      rw [region_window]
      intro a1 a2 b1 b2 r r0 r1 k1 k2
      have := mix_bounds r0 r1 k1.2.1 k1.2.2 k2.2.1 k2.2.2
      exact ⟨desCurve_convex O _ _ _ _ _ r0 r1 k1.1 k2.1, this⟩
    exact closestIn_nonexpansive hC c1 c2
  · rw [laterSoc_eq, laterSoc_eq, show soc - t * drainRate g.eff p1 - (soc - t * drainRate g.eff p2) = -(t * (drainRate g.eff p1 - drainRate g.eff p2)) by ring,
      abs_neg, abs_mul, abs_of_pos ht]
    exact mul_le_mul_of_nonneg_left (drainRate_lip he O.e1) ht.le

end

/-- Hypotheses of C129 and C130 in the example with a storage unit of 4 MWh: one run begins with 1 MWh, another one with 2 MWh, and both
deliver 0.5 MW in the next hour; two set-points (0.5 and 1 MW) are compared from 2 MWh. -/
example (o : LFOracle) (pi : ℝ) : ∃ s u s' u' v' out x' y', TwoRuns ⟨exactQP, realPF o, pi⟩ ⟨exactQP, realPF o, pi⟩ 2 s u s' u' ∧
    Stores s 2 storeDes 1 ∧ Stores u 2 storeDes 2 ∧ Stores s' 2 storeDes x' ∧ Stores u' 2 storeDes y' ∧ x' ≤ y' ∧ y' - x' ≤ 2 - 1 ∧
    u.transition ⟨exactQP, realPF o, pi⟩ ⟨[(1, .fin (-1))], [], [(2, .fin 1)], [(2, .fin 0)]⟩ = .ok (v', out) ∧
    ∃ d ∈ u'.devices, ∃ d₂ ∈ v'.devices, ∃ x y x₂ y₂ e e₂, d.id = 2 ∧ d₂.id = 2 ∧ d.p = .fin x ∧ d.q = .fin y ∧ d₂.p = .fin x₂ ∧ d₂.q = .fin y₂ ∧
      d.soc = some (.fin e) ∧ d₂.soc = some (.fin e₂) ∧ sqDist x y x₂ y₂ ≤ sqDist (1/2) 0 1 0 / 1 ^ 2 ∧ |e - e₂| ≤ 1 * (|x - x₂| / storeDes.eff) := by
  have stores : ∀ {s : Sim ℝ} {x : ℝ}, SimOf storeNet (.fin 1) (.fin 1) s → (∀ d ∈ s.devices, d.isStorage = true → d.soc = some (.fin x)) →
      0 ≤ x → x ≤ 4 → Stores s 2 storeDes x := by
    intro s x hs h h0 h4
    obtain ⟨F, hdes⟩ := storeNet_facts hs
    obtain ⟨d0, d1, d2, hds, hd0, hd1, hd2⟩ := devs_three F
    simp only [slackAt, loadAt, storeAt, Prod.mk.injEq] at hd0 hd1 hd2
    have st2 : d2.isStorage = true := by simp [Device.isStorage, hd2]
    exact ⟨d2, by simp [hds], hd2.1, st2, hdes d2 (by simp [hds]) st2, h d2 (by simp [hds]) st2, h0, h4⟩
  obtain ⟨s0, h0, -⟩ := storeNet_mk
  have hs0 := simOf_mk h0
  obtain ⟨u, hr, hu, -⟩ := store_reset o pi hs0
  have hsu := simOf_reset hs0 hr
  let a : ℝ → Sim.Args ℝ := fun w => ⟨[(1, .fin (-w))], [], [(2, .fin w)], [(2, .fin 0)]⟩
  have a1 : ∀ w, (a w).pLoad.get? 1 = some (.fin (-w)) := fun w => by simp [a, Dict.get?]
  have a2 : ∀ w, (a w).pSet.get? 2 = some (.fin w) := fun w => by simp [a, Dict.get?]
  have a3 : ∀ w, (a w).qSet.get? 2 = some (.fin 0) := fun w => by simp [a, Dict.get?]
  obtain ⟨s, o1, _, ht, -, hx, -⟩ := store_step o pi hsu hu (u := 1/2) (by norm_num) (by norm_num) (by norm_num) (by norm_num) (a1 _) (a2 _) (a3 _)
  have hss := simOf_transition hsu ht
  norm_num at hx
  obtain ⟨s', o2, _, k1, -⟩ := store_step o pi hss hx (u := 1/2) (by norm_num) (by norm_num) (by norm_num) (by norm_num) (a1 _) (a2 _) (a3 _)
  obtain ⟨v', out, _, k3, -⟩ := store_step o pi hsu hu (u := 1) (by norm_num) (by norm_num) (by norm_num) (by norm_num) (a1 _) (a2 _) (a3 _)
  have e1 := stores hss hx (by norm_num) (by norm_num)
  have e2 := stores hsu hu (by norm_num) (by norm_num)
  have two : TwoRuns ⟨exactQP, realPF o, pi⟩ ⟨exactQP, realPF o, pi⟩ 2 s u s' s := .cons k1 ht (a2 _) (a3 _) (a2 _) (a3 _) (.nil _ _)
  obtain ⟨x', y', l1, l2, l3, l4⟩ := C129_run storeNet_clean hss hsu one_pos (by norm_num [storeDes]) C16_exact_solver_exists C16_exact_solver_exists two e1 e2 (by norm_num)
  exact ⟨s, u, s', s, v', out, x', y', two, e1, e2, l1, l2, l3, l4, k3,
    C130_storage storeNet_clean hsu one_pos (by norm_num [storeDes]) C16_exact_solver_exists ht k3 e2 (a2 _) (a3 _) (a2 _) (a3 _)⟩

end Anm
