import Verif.Props.Kept

/-! # C94: limits cut the injections no more than necessary -/

set_option linter.unusedSectionVars false

namespace Anm

open Spec

namespace Spec
variable {K : Type} [Field K] [LinearOrder K]

/-- `(p, q)` is the point of the region `C` closest to `(p0, q0)`. -/
def ClosestIn (C : K → K → Prop) (p0 q0 p q : K) : Prop :=
  C p q ∧ ∀ p' q', C p' q' → sqDist p q p0 q0 ≤ sqDist p' q' p0 q0

/-- The capability curve of a storage unit, regardless of the energy stored. -/
structure DesCurve (g : DesParams K) (p q : K) : Prop where
  pLo : g.pmin ≤ p
  pHi : p ≤ g.pmax
  qLo : g.qmin ≤ q
  qHi : q ≤ g.qmax
  cutHiR : g.pplus < p → q ≤ lineAt g.pplus g.qmax g.pmax g.qplus p
  cutLoR : g.pplus < p → lineAt g.pplus g.qmin g.pmax g.qminus p ≤ q
  cutHiL : p < g.pminus → q ≤ lineAt g.pminus g.qmax g.pmin g.qplus p
  cutLoL : p < g.pminus → lineAt g.pminus g.qmin g.pmin g.qminus p ≤ q

/-- The region contains the segments between its points. -/
def ConvexRegion (C : K → K → Prop) : Prop := ∀ p q p' q' t, 0 ≤ t → t ≤ 1 → C p q → C p' q' →
  C (p + t * (p' - p)) (q + t * (q' - q))

end Spec

section
variable {K : Type} [Field K] [LinearOrder K] [IsStrictOrderedRing K]

section
variable {C : K → K → Prop}

theorem closestIn_variational (hC : ConvexRegion C) {p0 q0 p q : K} (h : ClosestIn C p0 q0 p q) {p' q' : K}
    (h' : C p' q') : (p0 - p) * (p' - p) + (q0 - q) * (q' - q) ≤ 0 := by
  by_contra hc
  push Not at hc
  set c := (p0 - p) * (p' - p) + (q0 - q) * (q' - q) with hcdef
  set m := (p' - p) ^ 2 + (q' - q) ^ 2 with hm
  have hm0 : 0 ≤ m := by positivity
  have hcm : 0 < c + m := by linarith
  set t := c / (c + m) with ht
  have t0 : 0 < t := div_pos hc hcm
  have t1 : t ≤ 1 := by rw [ht, div_le_one hcm]; linarith
  have hmin := h.2 _ _ (hC _ _ _ _ _ t0.le t1 h.1 h')
  have e : sqDist (p + t * (p' - p)) (q + t * (q' - q)) p0 q0 =
      sqDist p q p0 q0 - 2 * t * c + t ^ 2 * m := by
    simp only [sqDist, hcdef, hm]; ring
  rw [e] at hmin
  have htc : t * (c + m) = c := by rw [ht]; field_simp
  have : t * m < 2 * c := by nlinarith
  nlinarith

theorem closestIn_unique (hC : ConvexRegion C) {p0 q0 p q p' q' : K} (h : ClosestIn C p0 q0 p q)
    (h' : ClosestIn C p0 q0 p' q') : p = p' ∧ q = q' := by
  have a := closestIn_variational hC h h'.1
  have b := closestIn_variational hC h' h.1
  have h1 : (p - p') ^ 2 = 0 := le_antisymm (by nlinarith [sq_nonneg (q - q')]) (sq_nonneg _)
  have h2 : (q - q') ^ 2 = 0 := le_antisymm (by nlinarith [sq_nonneg (p - p')]) (sq_nonneg _)
  exact ⟨sub_eq_zero.1 (pow_eq_zero_iff (by norm_num) |>.1 h1), sub_eq_zero.1 (pow_eq_zero_iff (by norm_num) |>.1 h2)⟩

/-- If the line from `x` to `a` leaves the window at `w`, then `x` is on its border. -/
theorem window_border (hC : ConvexRegion C) {p0 q0 a b x y lo hi w : K} (h : ClosestIn C p0 q0 a b)
    (h' : ClosestIn (fun p q => C p q ∧ lo ≤ p ∧ p ≤ hi) p0 q0 x y) (hlo : lo ≤ w) (hhi : w ≤ hi)
    (hw : (x ≤ w ∧ w < a) ∨ (a < w ∧ w ≤ x)) : x = w := by
  have hW : ConvexRegion (fun p q => C p q ∧ lo ≤ p ∧ p ≤ hi) := by
    rintro p q p' q' t t0 t1 ⟨h1, h2, h3⟩ ⟨h1', h2', h3'⟩
    refine ⟨hC _ _ _ _ _ t0 t1 h1 h1', ?_, ?_⟩ <;> nlinarith
  by_contra hne
  have hxa : x ≠ a := by
    rintro rfl
    rcases hw with hw | hw
    · exact absurd hw.1 (not_le.2 hw.2)
    · exact absurd hw.1 (not_lt.2 hw.2)
  set t := (w - x) / (a - x) with ht
  have hd : a - x ≠ 0 := sub_ne_zero.2 hxa.symm
  have ht0 : 0 < t ∧ t ≤ 1 := by
    rcases hw with hw | hw
    · have : x < w := lt_of_le_of_ne hw.1 hne
      exact ⟨div_pos (by linarith) (by linarith), by rw [ht, div_le_one (by linarith)]; linarith⟩
    · have : w < x := lt_of_le_of_ne hw.2 (Ne.symm hne)
      exact ⟨div_pos_of_neg_of_neg (by linarith) (by linarith), by rw [ht, div_le_one_of_neg (by linarith)]; linarith⟩
  have htw : t * (a - x) = w - x := by rw [ht]; field_simp
  have hmem : C (x + t * (a - x)) (y + t * (b - y)) ∧ lo ≤ x + t * (a - x) ∧ x + t * (a - x) ≤ hi := by
    refine ⟨hC _ _ _ _ _ ht0.1.le ht0.2 h'.1.1 h.1, ?_, ?_⟩ <;> rw [htw] <;> linarith
  have v1 := closestIn_variational hW h' hmem
  have v2 := closestIn_variational hC h h'.1.1
  have v3 : t * ((p0 - x) * (a - x) + (q0 - y) * (b - y)) ≤ 0 := by linear_combination v1
  have v4 : (p0 - x) * (a - x) + (q0 - y) * (b - y) ≤ 0 := by
    by_contra hc
    push Not at hc
    nlinarith [mul_pos ht0.1 hc]
  have v5 : (a - x) ^ 2 ≤ 0 := by nlinarith [sq_nonneg (b - y)]
  exact hd (pow_eq_zero_iff (by norm_num) |>.1 (le_antisymm v5 (sq_nonneg _)))

/-- The closest point within a window of active powers: its active power is that of the closest point of the whole
region, cut to the window. -/
theorem closestIn_window (hC : ConvexRegion C) {p0 q0 a b x y lo hi : K} (hlh : lo ≤ hi) (h : ClosestIn C p0 q0 a b)
    (h' : ClosestIn (fun p q => C p q ∧ lo ≤ p ∧ p ≤ hi) p0 q0 x y) :
    x = max lo (min hi a) ∧ (lo ≤ a → a ≤ hi → y = b) := by
  obtain ⟨-, m1, m2⟩ := h'.1
  rcases lt_or_ge hi a with c | c
  · rw [min_eq_left c.le, max_eq_right hlh]
    exact ⟨window_border hC h h' hlh le_rfl (.inl ⟨m2, c⟩), fun _ c' => absurd c (not_lt.2 c')⟩
  · rw [min_eq_right c]
    rcases lt_or_ge a lo with e | e
    · rw [max_eq_left e.le]
      exact ⟨window_border hC h h' le_rfl hlh (.inr ⟨e, m1⟩), fun e' => absurd e (not_lt.2 e')⟩
    · rw [max_eq_right e]
      have hW : ConvexRegion (fun p q => C p q ∧ lo ≤ p ∧ p ≤ hi) := by
        rintro p q p' q' t t0 t1 ⟨h1, h2, h3⟩ ⟨h1', h2', h3'⟩
        refine ⟨hC _ _ _ _ _ t0 t1 h1 h1', ?_, ?_⟩ <;> nlinarith
      obtain ⟨rfl, rfl⟩ := closestIn_unique hW h' ⟨⟨h.1, e, c⟩, fun p' q' hp => h.2 p' q' hp.1⟩
      exact ⟨rfl, fun _ _ => rfl⟩

end

/-! ### The regions are convex -/

/-- Below a horizontal line and, beyond `x0`, below a falling line. -/
theorem cap_convex {x0 y0 x1 y1 p q p' q' t : K} (hx : x0 ≤ x1) (hy : y1 ≤ y0) (t0 : 0 ≤ t) (t1 : t ≤ 1)
    (hp : p ≤ x1) (hp' : p' ≤ x1) (hq : q ≤ y0) (hq' : q' ≤ y0) (h : x0 < p → q ≤ lineAt x0 y0 x1 y1 p)
    (h' : x0 < p' → q' ≤ lineAt x0 y0 x1 y1 p') :
    x0 < p + t * (p' - p) → q + t * (q' - q) ≤ lineAt x0 y0 x1 y1 (p + t * (p' - p)) := by
  intro hc
  rcases eq_or_lt_of_le hx with rfl | hx
  · exfalso; nlinarith
  · have key : ∀ {p q : K}, q ≤ y0 → (x0 < p → q ≤ lineAt x0 y0 x1 y1 p) → q ≤ lineAt x0 y0 x1 y1 p := by
      intro p q hq h
      by_cases hp : x0 < p
      · exact h hp
      · have e : 0 ≤ (y1 - y0) * ((p - x0) / (x1 - x0)) :=
          mul_nonneg_of_nonpos_of_nonpos (by linarith) (div_nonpos_of_nonpos_of_nonneg (by linarith) (by linarith))
        unfold lineAt
        linarith
    have k1 := key hq h
    have k2 := key hq' h'
    have e : lineAt x0 y0 x1 y1 (p + t * (p' - p)) =
        lineAt x0 y0 x1 y1 p + t * (lineAt x0 y0 x1 y1 p' - lineAt x0 y0 x1 y1 p) := by
      unfold lineAt; ring
    rw [e]
    nlinarith

theorem lineAt_neg_y {x0 y0 x1 y1 x : K} : lineAt x0 (-y0) x1 (-y1) x = -lineAt x0 y0 x1 y1 x := by
  unfold lineAt; ring

theorem lineAt_neg_x {x0 y0 x1 y1 x : K} : lineAt (-x0) y0 (-x1) y1 (-x) = lineAt x0 y0 x1 y1 x := by
  unfold lineAt
  rw [show -x - -x0 = -(x - x0) by ring, show -x1 - -x0 = -(x1 - x0) by ring, neg_div_neg_eq]

theorem cap_convex_lo {x0 y0 x1 y1 p q p' q' t : K} (hx : x0 ≤ x1) (hy : y0 ≤ y1) (t0 : 0 ≤ t) (t1 : t ≤ 1)
    (hp : p ≤ x1) (hp' : p' ≤ x1) (hq : y0 ≤ q) (hq' : y0 ≤ q') (h : x0 < p → lineAt x0 y0 x1 y1 p ≤ q)
    (h' : x0 < p' → lineAt x0 y0 x1 y1 p' ≤ q') :
    x0 < p + t * (p' - p) → lineAt x0 y0 x1 y1 (p + t * (p' - p)) ≤ q + t * (q' - q) := by
  intro hc
  have := cap_convex (y0 := -y0) (y1 := -y1) (q := -q) (q' := -q') hx (by linarith) t0 t1 hp hp' (by linarith) (by linarith)
    (fun hc => by rw [lineAt_neg_y]; linarith [h hc]) (fun hc => by rw [lineAt_neg_y]; linarith [h' hc]) hc
  rw [lineAt_neg_y] at this
  linarith

theorem mix_bounds {a b p p' t : K} (t0 : 0 ≤ t) (t1 : t ≤ 1) (h1 : a ≤ p) (h2 : p ≤ b) (h3 : a ≤ p') (h4 : p' ≤ b) :
    a ≤ p + t * (p' - p) ∧ p + t * (p' - p) ≤ b := by
  constructor <;> nlinarith

theorem genRegion_convex {g : GenParams K} (O : GenParamsOk g) (pot : K) : ConvexRegion (GenRegion g pot) := by
  intro p q p' q' t t0 t1 h h'
  have b1 := mix_bounds t0 t1 h.pLo h.pHi h'.pLo h'.pHi
  have b2 := mix_bounds t0 t1 h.pLo h.pPot h'.pLo h'.pPot
  have b3 := mix_bounds t0 t1 h.qLo h.qHi h'.qLo h'.qHi
  exact ⟨b1.1, b1.2, b2.2, b3.1, b3.2,
    cap_convex O.p2 O.q3 t0 t1 h.pHi h'.pHi h.qHi h'.qHi h.cutHi h'.cutHi,
    cap_convex_lo O.p2 O.q1 t0 t1 h.pHi h'.pHi h.qLo h'.qLo h.cutLo h'.cutLo⟩

theorem desCurve_convex {g : DesParams K} (O : DesParamsOk g) : ConvexRegion (DesCurve g) := by
  intro p q p' q' t t0 t1 h h'
  have b1 := mix_bounds t0 t1 h.pLo h.pHi h'.pLo h'.pHi
  have b3 := mix_bounds t0 t1 h.qLo h.qHi h'.qLo h'.qHi
  have e : -p + t * (-p' - -p) = -(p + t * (p' - p)) := by ring
  refine ⟨b1.1, b1.2, b3.1, b3.2,
    cap_convex O.p3 O.q3 t0 t1 h.pHi h'.pHi h.qHi h'.qHi h.cutHiR h'.cutHiR,
    cap_convex_lo O.p3 O.q1 t0 t1 h.pHi h'.pHi h.qLo h'.qLo h.cutLoR h'.cutLoR, fun hc => ?_, fun hc => ?_⟩
  · have := cap_convex (x0 := -g.pminus) (y0 := g.qmax) (x1 := -g.pmin) (y1 := g.qplus) (p := -p) (p' := -p')
      (by linarith [O.p1]) O.q3 t0 t1 (by linarith [h.pLo]) (by linarith [h'.pLo]) h.qHi h'.qHi
      (fun hc => by rw [lineAt_neg_x]; exact h.cutHiL (by linarith))
      (fun hc => by rw [lineAt_neg_x]; exact h'.cutHiL (by linarith)) (by rw [e]; linarith)
    rwa [e, lineAt_neg_x] at this
  · have := cap_convex_lo (x0 := -g.pminus) (y0 := g.qmin) (x1 := -g.pmin) (y1 := g.qminus) (p := -p) (p' := -p')
      (by linarith [O.p1]) O.q1 t0 t1 (by linarith [h.pLo]) (by linarith [h'.pLo]) h.qLo h'.qLo
      (fun hc => by rw [lineAt_neg_x]; exact h.cutLoL (by linarith))
      (fun hc => by rw [lineAt_neg_x]; exact h'.cutLoL (by linarith)) (by rw [e]; linarith)
    rwa [e, lineAt_neg_x] at this


/-! ### Transitions -/

variable [FloorRing K] {n : Network K} {base t : K} {lam : X K} {s s' s₂ : Sim K} {c : Ctx K} {a a₂ : Sim.Args K}
  {out out₂ : Sim.TransOut K} {d d₂ : Device K}

/-- What a generator injects: the point of its capability region, limited by its potential, that is closest to
the request. -/
theorem transition_gen {pot p q : K} {g : GenParams K} (hn : CleanFile n base) (hs : SimOf n (.fin t) lam s)
    (hq : QPExact c.qp) (h : s.transition c a = .ok (s', out)) (hd : d ∈ s'.devices) (hg : d.isNonSlackGen = true)
    (hgp : HasGenParams d g) (h1 : a.pPot.get? d.id = some (.fin pot)) (h2 : a.pSet.get? d.id = some (.fin p))
    (h3 : a.qSet.get? d.id = some (.fin q)) :
    GenParamsOk g ∧ ∃ x y, d.p = .fin x ∧ d.q = .fin y ∧
      ClosestIn (GenRegion g (min (max g.pmin (pot / base)) g.pmax)) (p / base) (q / base) x y := by
  have hb := basePos_of_simOf hn hs
  have eb : s.baseMVA = .fin base := (simOf_base hs).1.trans hn.base
  have hns := nonSlackGen_notSlack hg
  obtain ⟨d0, hd0, hst⟩ := transition_device h hd hns.1
  obtain ⟨e1, e2, e3, e4⟩ := hst.same.classes
  have hg0 := hg
  rw [e1, e2, e3] at hns
  rw [e4] at hg0
  have hdiv : ∀ y : K, (X.fin y / X.fin base : X K) = .fin (y / base) := fun y => X.fin_div_fin hb.ne'
  cases hst with
  | load _ hl => simp [hl] at hns
  | storage _ _ _ _ _ _ hl => simp [hl] at hns
  | slack _ _ _ hl => simp [hl] at hns
  | none _ hl => simp [hl] at hg0
  | gen pot' p' q' x y hl _ hpot hp hq' hxy =>
    have i1 : d0.pMin = .fin g.pmin := hgp.pmin
    have i2 : d0.pMax = .fin g.pmax := hgp.pmax
    have j1 := Dict.getE_ok.1 hpot
    have j2 := Dict.getE_ok.1 hp
    have j3 := Dict.getE_ok.1 hq'
    have k1 : pot' = .fin pot := Option.some.inj (j1.symm.trans h1)
    have k2 : p' = .fin p := Option.some.inj (j2.symm.trans h2)
    have k3 : q' = .fin q := Option.some.inj (j3.symm.trans h3)
    subst k1 k2 k3
    obtain ⟨r, _, ids, df, kind, hok, hm, hsm, hdf⟩ := simOf_gen hn hs hd0 hg0
    have hgf : HasGenParams df g := by
      rw [hsm] at hgp
      exact ⟨hgp.1, hgp.2, hgp.3, hgp.4, hgp.5, hgp.6, hgp.7⟩
    have O := genParamsOk (C05_generator hok hb hm hdf) hgf
    have hle : g.pmin ≤ g.pmax := O.p1.trans O.p2
    rw [eb, hdiv, hdiv, hdiv, i1, i2, X.clip_fin hle] at hxy
    have hpp : (d0.setPPot (.fin (min (max g.pmin (pot / base)) g.pmax))).pPot =
        .fin (min (max g.pmin (pot / base)) g.pmax) := by
      show X.clip _ d0.pMin d0.pMax = _
      rw [i1, i2, X.clip_fin hle]
      congr 1
      rw [max_eq_right (le_min (le_max_left _ _) hle), min_assoc, min_self]
    have hsd : SameMachine df (d0.setPPot (.fin (min (max g.pmin (pot / base)) g.pmax))) := sameMachine_trans hsm rfl
    have hf : FinCoeffs (d0.setPPot (.fin (min (max g.pmin (pot / base)) g.pmax))).genConstraints := by
      rw [genRows_eq hm hgf hsd hpp]
      simp [FinCoeffs, X.IsFin]
    obtain ⟨x', y', hx, hc⟩ := hq.closest _ _ _ _ hf hxy
    simp only [Prod.mk.injEq] at hx
    obtain ⟨rfl, rfl⟩ := hx
    have hreg := fun p q => C12_gen_region (p := p) (q := q) hok hb hm hdf hgf hsd hpp
    exact ⟨O, x', y', rfl, rfl, (hreg _ _).1 hc.1, fun p' q' h' => hc.2 _ _ ((hreg _ _).2 h')⟩

/-- What a storage unit injects: the point of its capability region, limited by the stored energy, that is closest
to the request. -/
theorem transition_des {p q soc : K} {g : DesParams K} {d0 : Device K} (hn : CleanFile n base)
    (hs : SimOf n (.fin t) lam s) (ht : 0 < t) (hq : QPExact c.qp) (h : s.transition c a = .ok (s', out))
    (hd : d ∈ s'.devices) (hg : d.isStorage = true) (hgp : HasDesParams d g) (he : 0 < g.eff)
    (hd0 : d0 ∈ s.devices) (hid : d0.id = d.id) (hsoc : d0.soc = some (.fin soc))
    (h2 : a.pSet.get? d.id = some (.fin p)) (h3 : a.qSet.get? d.id = some (.fin q)) :
    DesParamsOk g ∧ ∃ x y, d.p = .fin x ∧ d.q = .fin y ∧ ClosestIn (DesRegion g t soc) (p / base) (q / base) x y := by
  have hb := basePos_of_simOf hn hs
  have eb : s.baseMVA = .fin base := (simOf_base hs).1.trans hn.base
  have et : s.deltaT = .fin t := (simOf_base hs).2.1
  obtain ⟨-, -, -, -, -, -, -, hsl⟩ := simOf_storage hn (simOf_transition hs h) hd hg
  obtain ⟨d1, hd1, hst⟩ := transition_device h hd hsl
  obtain ⟨e1, e2, e3, e4⟩ := hst.same.classes
  have hg0 := hg
  rw [e3] at hg0
  have hdd : d1 = d0 := device_unique hs hd1 hd0 (by rw [hid, hst.same])
  subst hdd
  have hdiv : ∀ y : K, (X.fin y / X.fin base : X K) = .fin (y / base) := fun y => X.fin_div_fin hb.ne'
  cases hst with
  | gen _ _ _ _ _ h1 => exact absurd (nonSlackGen_notSlack h1).2.2 (by simp [hg0])
  | load _ h1 =>
    exfalso
    unfold Device.isLoad at h1; unfold Device.isStorage at hg0
    cases hk : d1.kind <;> simp_all
  | slack _ _ h1 => simp [hg0] at h1
  | none _ _ h1 => simp [hg0] at h1
  | storage p' q' x y rows soc' _ _ _ hp hq' hsoc' hrows hxy =>
    rw [hsoc] at hsoc'
    injection hsoc' with hsoc'
    have k2 : p' = .fin p := Option.some.inj ((Dict.getE_ok.1 hp).symm.trans h2)
    have k3 : q' = .fin q := Option.some.inj ((Dict.getE_ok.1 hq').symm.trans h3)
    subst k2 k3 hsoc'
    obtain ⟨r, _, ids, df, hok, hm, hsm, hdf⟩ := simOf_storage hn hs hd1 hg0
    have hgf : HasDesParams df g := by
      rw [hsm] at hgp
      exact ⟨hgp.1, hgp.2, hgp.3, hgp.4, hgp.5, hgp.6, hgp.7, hgp.8, hgp.9, hgp.10, hgp.11⟩
    have O := desParamsOk (C06_storage hok hb hm) hgf
    rw [eb, hdiv, hdiv] at hxy
    rw [et] at hrows
    have hreg : ∀ p q, Feasible rows (.fin p) (.fin q) ↔ DesRegion g t soc p q := by
      intro p q
      obtain ⟨rows', hr', hiff⟩ := C13_storage_region (p := p) (q := q) hok hb hm hgf hsm hsoc ht he
      rw [hrows] at hr'
      injection hr' with hr'
      subst hr'
      exact hiff
    have hf : FinCoeffs rows := by
      have := desRows_eq hm hgf hsm hsoc ht he
      rw [hrows] at this
      injection this with this
      rw [this]
      simp [FinCoeffs, X.IsFin]
    obtain ⟨x', y', hx, hc⟩ := hq.closest _ _ _ _ hf hxy
    simp only [Prod.mk.injEq] at hx
    obtain ⟨rfl, rfl⟩ := hx
    exact ⟨O, x', y', rfl, rfl, (hreg _ _).1 hc.1, fun p' q' h' => hc.2 _ _ ((hreg _ _).2 h')⟩

/-- The results of two transitions of a simulator contain the same machines. -/
theorem transition_same {dt : X K} (hs : SimOf n dt lam s) (h : s.transition c a = .ok (s', out))
    (h' : s.transition c a₂ = .ok (s₂, out₂)) (hd : d ∈ s'.devices) (hd₂ : d₂ ∈ s₂.devices) (hid : d₂.id = d.id) :
    SameMachine d d₂ := by
  obtain ⟨e, he, hed⟩ := forall₂_mem_right (sameConfig_transition h).devices hd
  obtain ⟨f, hf, hfd⟩ := forall₂_mem_right (sameConfig_transition h').devices hd₂
  have i1 : d.id = e.id := by rw [hed]
  have i2 : d₂.id = f.id := by rw [hfd]
  obtain rfl := device_unique hs he hf (by rw [← i1, ← i2, hid])
  exact sameMachine_trans (sameMachine_symm hed) hfd

/-- **C94, generators.** Compare two transitions that differ in the potential of a generator (and perhaps in what the
other devices do).  With the smaller potential the generator injects what it injects with the larger one, cut to
the smaller potential (but not below its minimum); if nothing is cut, the reactive power is the same as well. -/
theorem C94_generator {pot pot₂ p q : K} {g : GenParams K} (hn : CleanFile n base) (hs : SimOf n (.fin t) lam s)
    (hq : QPExact c.qp) (h : s.transition c a = .ok (s', out)) (h' : s.transition c a₂ = .ok (s₂, out₂))
    (hd : d ∈ s'.devices) (hd₂ : d₂ ∈ s₂.devices) (hid : d₂.id = d.id) (hg : d.isNonSlackGen = true)
    (hgp : HasGenParams d g)
    (h1 : a.pPot.get? d.id = some (.fin pot)) (h1' : a₂.pPot.get? d.id = some (.fin pot₂)) (hle : pot ≤ pot₂)
    (h2 : a.pSet.get? d.id = some (.fin p)) (h2' : a₂.pSet.get? d.id = some (.fin p))
    (h3 : a.qSet.get? d.id = some (.fin q)) (h3' : a₂.qSet.get? d.id = some (.fin q)) :
    ∃ x y x₂ y₂, d.p = .fin x ∧ d.q = .fin y ∧ d₂.p = .fin x₂ ∧ d₂.q = .fin y₂ ∧
      x = max g.pmin (min (pot / base) x₂) ∧ (x₂ ≤ pot / base → y = y₂) := by
  have hb := basePos_of_simOf hn hs
  have hsame := transition_same hs h h' hd hd₂ hid
  have hgp₂ : HasGenParams d₂ g := by
    rw [hsame]
    exact ⟨hgp.1, hgp.2, hgp.3, hgp.4, hgp.5, hgp.6, hgp.7⟩
  have hg₂ : d₂.isNonSlackGen = true := by rw [hsame.classes.2.2.2]; exact hg
  obtain ⟨O, x, y, ex, ey, hc⟩ := transition_gen hn hs hq h hd hg hgp h1 h2 h3
  obtain ⟨-, x₂, y₂, ex₂, ey₂, hc₂⟩ := transition_gen hn hs hq h' hd₂ hg₂ hgp₂ (hid ▸ h1') (hid ▸ h2') (hid ▸ h3')
  refine ⟨x, y, x₂, y₂, ex, ey, ex₂, ey₂, ?_⟩
  have hpot : pot / base ≤ pot₂ / base := by gcongr
  have hle' : g.pmin ≤ g.pmax := O.p1.trans O.p2
  have hc' : ClosestIn (fun p q => GenRegion g (min (max g.pmin (pot₂ / base)) g.pmax) p q ∧ g.pmin ≤ p ∧
      p ≤ max g.pmin (pot / base)) (p / base) (q / base) x y := by
    have key : ∀ p q, (GenRegion g (min (max g.pmin (pot₂ / base)) g.pmax) p q ∧ g.pmin ≤ p ∧
        p ≤ max g.pmin (pot / base)) ↔ GenRegion g (min (max g.pmin (pot / base)) g.pmax) p q := by
      intro p q
      constructor
      · rintro ⟨h, -, h'⟩
        exact ⟨h.pLo, h.pHi, le_min h' h.pHi, h.qLo, h.qHi, h.cutHi, h.cutLo⟩
      · intro h
        have h' : p ≤ max g.pmin (pot / base) := h.pPot.trans (min_le_left _ _)
        exact ⟨⟨h.pLo, h.pHi, le_min (h'.trans (max_le_max le_rfl hpot)) h.pHi, h.qLo, h.qHi, h.cutHi, h.cutLo⟩, h.pLo, h'⟩
    exact ⟨(key _ _).2 hc.1, fun p' q' h' => hc.2 _ _ ((key _ _).1 h')⟩
  obtain ⟨k1, k2⟩ := closestIn_window (genRegion_convex O _) (le_max_left _ _) hc₂ hc'
  have hx₂ := hc₂.1.pLo
  constructor
  · rw [k1]
    rcases le_total (pot / base) g.pmin with c | c
    · rw [max_eq_left c, min_eq_left hx₂, max_self, max_eq_left ((min_le_left _ _).trans c)]
    · rw [max_eq_right c]
  · exact fun c => k2 hx₂ (c.trans (le_max_right _ _))

/-- **C94.** More potential never reduces the injection of a generator, and increases it by at most the difference. -/
theorem C94_monotone {pot pot₂ p q : K} {g : GenParams K} (hn : CleanFile n base) (hs : SimOf n (.fin t) lam s)
    (hq : QPExact c.qp) (h : s.transition c a = .ok (s', out)) (h' : s.transition c a₂ = .ok (s₂, out₂))
    (hd : d ∈ s'.devices) (hd₂ : d₂ ∈ s₂.devices) (hid : d₂.id = d.id) (hg : d.isNonSlackGen = true)
    (hgp : HasGenParams d g)
    (h1 : a.pPot.get? d.id = some (.fin pot)) (h1' : a₂.pPot.get? d.id = some (.fin pot₂)) (hle : pot ≤ pot₂)
    (h2 : a.pSet.get? d.id = some (.fin p)) (h2' : a₂.pSet.get? d.id = some (.fin p))
    (h3 : a.qSet.get? d.id = some (.fin q)) (h3' : a₂.qSet.get? d.id = some (.fin q)) :
    ∃ x x₂, d.p = .fin x ∧ d₂.p = .fin x₂ ∧ x ≤ x₂ ∧ x₂ ≤ x + (pot₂ - pot) / base := by
  have hb := basePos_of_simOf hn hs
  obtain ⟨x, y, x₂, y₂, ex, ey, ex₂, ey₂, e1, -⟩ := C94_generator hn hs hq h h' hd hd₂ hid hg hgp h1 h1' hle h2 h2' h3 h3'
  have hsame := transition_same hs h h' hd hd₂ hid
  have hgp₂ : HasGenParams d₂ g := by
    rw [hsame]
    exact ⟨hgp.1, hgp.2, hgp.3, hgp.4, hgp.5, hgp.6, hgp.7⟩
  have hg₂ : d₂.isNonSlackGen = true := by rw [hsame.classes.2.2.2]; exact hg
  obtain ⟨O, x₂', y₂', ex₂', -, hc₂⟩ := transition_gen hn hs hq h' hd₂ hg₂ hgp₂ (hid ▸ h1') (hid ▸ h2') (hid ▸ h3')
  rw [ex₂] at ex₂'
  injection ex₂' with ex₂'
  subst ex₂'
  have hd0 : 0 ≤ (pot₂ - pot) / base := div_nonneg (by linarith) hb.le
  have hlo := hc₂.1.pLo
  have hhi : x₂ ≤ max g.pmin (pot₂ / base) := hc₂.1.pPot.trans (min_le_left _ _)
  rw [sub_div] at hd0 ⊢
  refine ⟨x, x₂, ex, ex₂, ?_, ?_⟩
  · rw [e1]
    exact max_le hlo (min_le_right _ _)
  · have l1 : g.pmin ≤ x := e1 ▸ le_max_left _ _
    have l2 : min (pot / base) x₂ ≤ x := e1 ▸ le_max_right _ _
    rcases le_total (pot / base) x₂ with m | m
    · rw [min_eq_left m] at l2
      rcases le_max_iff.1 hhi with w | w <;> linarith
    · rw [min_eq_right m] at l2
      linarith

/-- **C94, storage units.** The active power of a storage unit is the one it would have with unlimited energy, cut to
what its state of charge allows; if nothing is cut, the reactive power is the same as well. -/
theorem C94_storage {p q soc a' b' : K} {g : DesParams K} {d0 : Device K} (hn : CleanFile n base)
    (hs : SimOf n (.fin t) lam s) (ht : 0 < t) (hq : QPExact c.qp) (h : s.transition c a = .ok (s', out))
    (hd : d ∈ s'.devices) (hg : d.isStorage = true) (hgp : HasDesParams d g) (he : 0 < g.eff)
    (hd0 : d0 ∈ s.devices) (hid : d0.id = d.id) (hsoc : d0.soc = some (.fin soc)) (hs1 : g.socMin ≤ soc)
    (hs2 : soc ≤ g.socMax)
    (h2 : a.pSet.get? d.id = some (.fin p)) (h3 : a.qSet.get? d.id = some (.fin q))
    (hfree : ClosestIn (DesCurve g) (p / base) (q / base) a' b') :
    ∃ x y, d.p = .fin x ∧ d.q = .fin y ∧
      x = max (-((g.socMax - soc) / (t * g.eff))) (min (g.eff * (soc - g.socMin) / t) a') ∧
      (-((g.socMax - soc) / (t * g.eff)) ≤ a' → a' ≤ g.eff * (soc - g.socMin) / t → y = b') := by
  obtain ⟨O, x, y, ex, ey, hc⟩ := transition_des hn hs ht hq h hd hg hgp he hd0 hid hsoc h2 h3
  have e : -((g.socMax - soc) / (t * g.eff)) = (soc - g.socMax) / (t * g.eff) := by rw [← neg_div, neg_sub]
  refine ⟨x, y, ex, ey, ?_⟩
  rw [e]
  have l1 : (soc - g.socMax) / (t * g.eff) ≤ 0 := div_nonpos_of_nonpos_of_nonneg (by linarith) (by positivity)
  have l2 : 0 ≤ g.eff * (soc - g.socMin) / t := div_nonneg (mul_nonneg he.le (by linarith)) ht.le
  refine closestIn_window (desCurve_convex O) (l1.trans l2) hfree ?_
  have key : ∀ p q, (DesCurve g p q ∧ (soc - g.socMax) / (t * g.eff) ≤ p ∧ p ≤ g.eff * (soc - g.socMin) / t) ↔
      DesRegion g t soc p q := by
    intro p q
    exact ⟨fun ⟨h, h1, h2⟩ => ⟨h.1, h.2, h.3, h.4, h.5, h.6, h.7, h.8, h1, h2⟩,
      fun h => ⟨⟨h.1, h.2, h.3, h.4, h.5, h.6, h.7, h.8⟩, h.9, h.10⟩⟩
  exact ⟨(key _ _).2 hc.1, fun p' q' h' => hc.2 _ _ ((key _ _).1 h')⟩

end
end Anm
