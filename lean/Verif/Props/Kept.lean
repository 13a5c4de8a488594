import Verif.Props.EnvStep
import Verif.Props.DynamicsEx

/-! # C89: feasible set-points are carried out unchanged -/

set_option linter.unusedSectionVars false

namespace Anm

open Spec

section
variable {K : Type} [Field K] [LinearOrder K] [IsStrictOrderedRing K] [FloorRing K]
variable {c : Ctx K} {s s' : Sim K} {a : Sim.Args K} {out : Sim.TransOut K} {d : Device K}
variable {n : Network K} {lam : X K} {base t : K}

theorem X.clip_fin {x lo hi : K} (h : lo ≤ hi) : X.clip (.fin x) (.fin lo) (.fin hi) = .fin (min (max lo x) hi) := by
  simp only [X.clip, X.maximum, X.minimum]
  by_cases h1 : lo ≤ x <;> simp [h1, max_def, min_def] <;> split_ifs <;> simp_all

/-- **C89, generators.** A transition carries out the set-points of a generator unchanged, if they are within
its capability region and at most its potential. -/
theorem C89_generator {pot p q : K} {g : GenParams K} (hn : CleanFile n base) (hs : SimOf n (.fin t) lam s)
    (hq : QPKeeps c.qp) (h : s.transition c a = .ok (s', out)) (hd : d ∈ s'.devices) (hg : d.isNonSlackGen = true)
    (hgp : HasGenParams d g) (h1 : a.pPot.get? d.id = some (.fin pot)) (h2 : a.pSet.get? d.id = some (.fin p))
    (h3 : a.qSet.get? d.id = some (.fin q)) (hr : GenRegion g (pot / base) (p / base) (q / base)) :
    d.p = .fin (p / base) ∧ d.q = .fin (q / base) := by
  have hb := basePos_of_simOf hn hs
  have eb : s.baseMVA = .fin base := (simOf_base hs).1.trans hn.base
  have hns := nonSlackGen_notSlack hg
  obtain ⟨d0, hd0, hst⟩ := transition_device h hd hns.1
  obtain ⟨e1, e2, e3, e4⟩ := hst.same.classes
  have hg0 := hg
  rw [e1, e2, e3] at hns
  rw [e4] at hg0
  have hdiv : ∀ y : K, (X.fin y / X.fin base : X K) = .fin (y / base) := fun y => X.fin_div_fin hb.ne'
  cases hst with
  | load _ hl => simp [hl] at hns
  | storage _ _ _ _ _ _ hl => simp [hl] at hns
  | slack _ _ _ hl => simp [hl] at hns
  | none _ hl => simp [hl] at hg0
  | gen pot' p' q' x y hl _ hpot hp hq' hxy =>
    have i1 : d0.pMin = .fin g.pmin := hgp.pmin
    have i2 : d0.pMax = .fin g.pmax := hgp.pmax
    have j1 := Dict.getE_ok.1 hpot
    have j2 := Dict.getE_ok.1 hp
    have j3 := Dict.getE_ok.1 hq'
    have k1 : pot' = .fin pot := Option.some.inj (j1.symm.trans h1)
    have k2 : p' = .fin p := Option.some.inj (j2.symm.trans h2)
    have k3 : q' = .fin q := Option.some.inj (j3.symm.trans h3)
    subst k1 k2 k3
    have hle : g.pmin ≤ g.pmax := hr.pLo.trans hr.pHi
    obtain ⟨r, _, ids, df, kind, hok, hm, hsm, hdf⟩ := simOf_gen hn hs hd0 hg0
    have hgf : HasGenParams df g := by
      rw [hsm] at hgp
      exact ⟨hgp.1, hgp.2, hgp.3, hgp.4, hgp.5, hgp.6, hgp.7⟩
    rw [eb, hdiv, hdiv, hdiv, i1, i2, X.clip_fin hle] at hxy
    have hpp : (d0.setPPot (.fin (min (max g.pmin (pot / base)) g.pmax))).pPot =
        .fin (min (max g.pmin (pot / base)) g.pmax) := by
      show X.clip _ d0.pMin d0.pMax = _
      rw [i1, i2, X.clip_fin hle]
      congr 1
      rw [max_eq_right (le_min (le_max_left _ _) hle), min_assoc, min_self]
    have hsd : SameMachine df (d0.setPPot (.fin (min (max g.pmin (pot / base)) g.pmax))) := sameMachine_trans hsm rfl
    have hf : FinCoeffs (d0.setPPot (.fin (min (max g.pmin (pot / base)) g.pmax))).genConstraints := by
      rw [genRows_eq hm hgf hsd hpp]
      simp [FinCoeffs, X.IsFin]
    have hk := hq _ _ _ hf ((C12_gen_region hok hb hm hdf hgf hsd hpp).2
      ⟨hr.pLo, hr.pHi, le_min (hr.pPot.trans (le_max_right _ _)) hr.pHi, hr.qLo, hr.qHi, hr.cutHi, hr.cutLo⟩)
    rw [hk] at hxy
    simp only [Option.some.injEq, Prod.mk.injEq] at hxy
    exact ⟨hxy.1.symm, hxy.2.symm⟩

/-- **C89, storage units.** A transition carries out the set-points of a storage unit unchanged, if they are
within its capability region and the stored energy allows them for the whole time step.  The new state of
charge is then exactly the one that these powers give. -/
theorem C89_storage {p q soc : K} {g : DesParams K} {d0 : Device K} (hn : CleanFile n base)
    (hs : SimOf n (.fin t) lam s) (ht : 0 < t) (hq : QPKeeps c.qp) (h : s.transition c a = .ok (s', out))
    (hd : d ∈ s'.devices) (hg : d.isStorage = true) (hgp : HasDesParams d g) (he : 0 < g.eff)
    (hd0 : d0 ∈ s.devices) (hid : d0.id = d.id) (hsoc : d0.soc = some (.fin soc)) (hs1 : g.socMin ≤ soc) (hs2 : soc ≤ g.socMax)
    (h2 : a.pSet.get? d.id = some (.fin p)) (h3 : a.qSet.get? d.id = some (.fin q))
    (hr : DesRegion g t soc (p / base) (q / base)) :
    d.p = .fin (p / base) ∧ d.q = .fin (q / base) ∧
      d.soc = some (.fin (if p ≤ 0 then soc - t * g.eff * (p / base) else soc - t * (p / base) / g.eff)) := by
  have hb := basePos_of_simOf hn hs
  have eb : s.baseMVA = .fin base := (simOf_base hs).1.trans hn.base
  have et : s.deltaT = .fin t := (simOf_base hs).2.1
  obtain ⟨-, -, -, -, -, -, -, hsl⟩ := simOf_storage hn (simOf_transition hs h) hd hg
  obtain ⟨d1, hd1, hst⟩ := transition_device h hd hsl
  obtain ⟨e1, e2, e3, e4⟩ := hst.same.classes
  have hg0 := hg
  rw [e3] at hg0
  have hdd : d1 = d0 := device_unique hs hd1 hd0 (by rw [hid, hst.same])
  subst hdd
  have hdiv : ∀ y : K, (X.fin y / X.fin base : X K) = .fin (y / base) := fun y => X.fin_div_fin hb.ne'
  cases hst with
  | gen _ _ _ _ _ h1 => exact absurd (nonSlackGen_notSlack h1).2.2 (by simp [hg0])
  | load _ h1 =>
    exfalso
    unfold Device.isLoad at h1; unfold Device.isStorage at hg0
    cases hk : d1.kind <;> simp_all
  | slack _ _ h1 => simp [hg0] at h1
  | none _ _ h1 => simp [hg0] at h1
  | storage p' q' x y rows soc' _ _ _ hp hq' hsoc' hrows hxy =>
    rw [hsoc] at hsoc'
    injection hsoc' with hsoc'
    have k2 : p' = .fin p := Option.some.inj ((Dict.getE_ok.1 hp).symm.trans h2)
    have k3 : q' = .fin q := Option.some.inj ((Dict.getE_ok.1 hq').symm.trans h3)
    subst k2 k3 hsoc'
    obtain ⟨r, _, ids, df, hok, hm, hsm, hdf⟩ := simOf_storage hn hs hd1 hg0
    have hgf : HasDesParams df g := by
      rw [hsm] at hgp
      exact ⟨hgp.1, hgp.2, hgp.3, hgp.4, hgp.5, hgp.6, hgp.7, hgp.8, hgp.9, hgp.10, hgp.11⟩
    rw [eb, hdiv, hdiv] at hxy
    rw [et] at hrows
    obtain ⟨rows', hr', hiff⟩ := C13_storage_region (p := p / base) (q := q / base) hok hb hm hgf hsm hsoc ht he
    rw [hrows] at hr'
    injection hr' with hr'
    subst hr'
    have hf : FinCoeffs rows := by
      have := desRows_eq hm hgf hsm hsoc ht he
      rw [hrows] at this
      injection this with this
      rw [this]
      simp [FinCoeffs, X.IsFin]
    rw [hq _ _ _ hf (hiff.2 hr)] at hxy
    simp only [Option.some.injEq, Prod.mk.injEq] at hxy
    obtain ⟨rfl, rfl⟩ := hxy
    refine ⟨rfl, rfl, ?_⟩
    have i1 : d1.eff = .fin g.eff := hgp.eff
    have i2 : d1.socMin = .fin g.socMin := hgp.socMin
    have i3 : d1.socMax = .fin g.socMax := hgp.socMax
    have hc1 := hr.charge
    have hc2 := hr.discharge
    have hte : 0 < t * g.eff := mul_pos ht he
    rw [div_le_iff₀ hte] at hc1
    rw [le_div_iff₀ ht] at hc2
    show some (X.clip (if (X.fin (p / base) : X K) ≤ 0 then _ else _) d1.socMin d1.socMax) = _
    have hpp : p / base ≤ 0 ↔ p ≤ 0 := by
      rw [div_le_iff₀ hb, zero_mul]
    rw [i1, i2, i3, et]
    by_cases h0 : p ≤ 0
    · have h0' := hpp.2 h0
      rw [if_pos (show (X.fin (p / base) : X K) ≤ 0 from h0'), if_pos h0]
      simp only [X.fin_mul_fin, X.fin_sub_fin]
      rw [X.clip_fin (hs1.trans hs2)]
      have := mul_nonneg hte.le (neg_nonneg.2 h0')
      rw [max_eq_right (by nlinarith), min_eq_left (by nlinarith)]
    · have h0' : ¬ p / base ≤ 0 := fun h => h0 (hpp.1 h)
      rw [if_neg (show ¬ (X.fin (p / base) : X K) ≤ 0 from h0'), if_neg h0]
      simp only [X.fin_mul_fin, X.fin_div_fin he.ne', X.fin_sub_fin]
      rw [X.clip_fin (hs1.trans hs2)]
      have h4 : 0 < p / base := not_le.1 h0'
      have h5 : 0 ≤ t * (p / base) / g.eff := by positivity
      have h6 : t * (p / base) / g.eff ≤ soc - g.socMin := by
        rw [div_le_iff₀ he]; nlinarith
      rw [max_eq_right (by linarith), min_eq_left (by linarith)]

end

/-- C89 on the demo run: the generator is asked for 15 MW and 5 MVAr with a potential of 20 MW, the half-full
storage unit is asked to charge at 40 MW. -/
example : ∃ (s1 s2 : Sim ℚ) (o : Sim.TransOut ℚ) (d e : Device ℚ), s1.transition demoCtx (demoArgs (-40)) = .ok (s2, o) ∧
    s2.devices[2]? = some d ∧ d.p = .fin (15/100) ∧ d.q = .fin (5/100) ∧
    s2.devices[3]? = some e ∧ e.p = .fin (-40/100) ∧ e.q = .fin (0/100) ∧ e.soc = some (.fin (59/100)) := by
  obtain ⟨⟨s0, s1, b, s2, o⟩, h, hp⟩ : ∃ r, (do
      let s0 ← mkSim demoNet (.fin (1/4)) (.fin 100)
      let r ← s0.reset demoCtx demoInit
      let t ← r.1.transition demoCtx (demoArgs (-40))
      pure (s0, r.1, r.2, t.1, t.2) : Except PyErr (Sim ℚ × Sim ℚ × Bool × Sim ℚ × Sim.TransOut ℚ)) = .ok r ∧
      ((r.2.2.2.1.devices[2]?).any (fun d => d.id = 2 && d.isNonSlackGen && decide (HasGenParams d genG)) = true ∧
        (r.2.2.2.1.devices[3]?).any (fun d => d.id = 3 && d.isStorage && decide (HasDesParams d desG)) = true ∧
        unitIs r.2.1 (-1/5) (1/2)) :=
    exOk (by decide +kernel)
  simp only [bind_ok, pure_ok] at h
  obtain ⟨s0', h0, ⟨s1', b'⟩, h1, ⟨s2', o'⟩, h2, h4⟩ := h
  simp only [Prod.mk.injEq] at h4
  obtain ⟨rfl, rfl, rfl, rfl, rfl⟩ := h4
  obtain ⟨p1, p2, p3⟩ := hp
  obtain ⟨d0, m0, i0, -, -, c0, -⟩ := unitIs_ex p3
  have hs1 := simOf_reset (simOf_mk h0) h1
  cases hd : s2'.devices[2]? with
  | none => simp [hd] at p1
  | some d =>
    cases he : s2'.devices[3]? with
    | none => simp [he] at p2
    | some e =>
      simp [hd] at p1
      simp [he] at p2
      have hd' := List.mem_of_getElem? hd
      have he' := List.mem_of_getElem? he
      have r1 := C89_generator (pot := 20) (p := 15) (q := 5) demo_clean hs1 demoQP_keeps h2 hd' p1.1.2 p1.2
        (by rw [p1.1.1]; rfl) (by rw [p1.1.1]; rfl) (by rw [p1.1.1]; rfl) (by constructor <;> norm_num [genG, lineAt])
      have r2 := C89_storage (p := -40) (q := 0) (soc := 1/2) demo_clean hs1 (by norm_num) demoQP_keeps h2 he' p2.1.2 p2.2
        (by norm_num [desG]) m0 (by rw [i0, p2.1.1]) c0 (by norm_num [desG]) (by norm_num [desG]) (by rw [p2.1.1]; rfl)
        (by rw [p2.1.1]; rfl) (by constructor <;> norm_num [desG, lineAt])
      refine ⟨_, _, _, d, e, h2, hd, r1.1, r1.2, he, r2.1, r2.2.1, ?_⟩
      rw [r2.2.2]
      norm_num [desG]

end Anm
