import Verif.Props.Dynamics
import Verif.Props.EnvObs
import Verif.Props.RenderPage

/-!
# Demands and maximum productions outside the limits

The demand of a load and the maximum production of a generator given to a transition are cut to the limits
of the device (`devices.py:156-167`, `:185-187`, `simulator.py:386-389`): inside the limits they are kept,
outside they are replaced by the limit that is violated.
-/

namespace Anm
open Spec

variable {K : Type} [Field K] [LinearOrder K] [IsStrictOrderedRing K] [FloorRing K]
variable {c : Ctx K} {n : Network K} {base : K} {dt lam : X K} {s s' : Sim K} {a : Sim.Args K} {out : Sim.TransOut K}
  {d : Device K}

/-- What becomes of a quantity `x` cut to `[lo, hi]`. -/
def Spec.CutTo (lo hi x y : X K) : Prop :=
  (lo ≤ x → x ≤ hi → y = x) ∧ (hi ≤ x → y = hi) ∧ (x ≤ lo → y = lo)

/-- **C18 (outside the limits).** After a transition the active power of every load is its demand, cut to
the limits of the load. -/
theorem C18_load_saturates (hn : CleanFile n base) (hs : SimOf n dt lam s)
    (h : s.transition c a = .ok (s', out)) (hd : d ∈ s'.devices) (hl : d.isLoad = true) :
    ∃ x, a.pLoad.get? d.id = some x ∧ Spec.CutTo d.pMin d.pMax (x / .fin base) d.p := by
  have hs' := simOf_transition hs h
  have hb := basePos_of_simOf hn hs
  obtain ⟨r, hr, ids, d1, hok, hm, hsm, hsl⟩ := simOf_load hn hs' hd hl
  have L := C03_load hok hb hm
  obtain ⟨d0, _, hst⟩ := transition_device h hd hsl
  have e := hst.same.classes
  rw [e.2.1] at hl
  cases hst with
  | gen _ _ _ _ _ _ h1 => simp [hl] at h1
  | storage _ _ _ _ _ _ _ _ h1 => simp [hl] at h1
  | slack h1 => simp [hl] at h1
  | none h1 => simp [hl] at h1
  | load x _ hx =>
    have eb : s.baseMVA = .fin base := (simOf_base hs).1.trans hn.base
    rw [eb] at hsm hd
    have f1 : d1.pMin = d0.pMin := by rw [sameMachine_symm hsm]; rfl
    have f2 : d1.pMax = d0.pMax := by rw [sameMachine_symm hsm]; rfl
    rw [eb]
    exact ⟨x, Dict.getE_ok.1 hx, fun h1 h2 => X.clip_eq_self h1 h2, clip_eq_hi (f1 ▸ f2 ▸ L.ordered),
      clip_eq_lo (f1 ▸ f2 ▸ L.ordered)⟩

/-- **C17 (the maximum production).** After a transition the reported maximum production of every
generator other than the slack is the one given, cut to the limits of the generator. -/
theorem C17_potential (hn : CleanFile n base) (hs : SimOf n dt lam s)
    (h : s.transition c a = .ok (s', out)) (hd : d ∈ s'.devices) (hgen : d.isNonSlackGen = true) :
    ∃ x, a.pPot.get? d.id = some x ∧ Spec.CutTo d.pMin d.pMax (x / .fin base) d.pPot := by
  have hs' := simOf_transition hs h
  have hbp := basePos_of_simOf hn hs
  have hns := nonSlackGen_notSlack hgen
  obtain ⟨r, hr, ids, d1, kind, hok, hm, hsm, hd1⟩ := simOf_gen hn hs' hd hgen
  have G := C05_generator hok hbp hm hd1
  have hle : d.pMin ≤ d.pMax := by
    rw [hsm]; exact X.le_trans' G.p1 G.p2
  obtain ⟨d0, hd0, hr⟩ := transition_device h hd hns.1
  obtain ⟨e1, e2, e3, e4⟩ := hr.same.classes
  rw [e4] at hgen
  rw [e1, e2, e3] at hns
  have eb : s.baseMVA = .fin base := (simOf_base hs).1.trans hn.base
  cases hr with
  | load _ hl => simp [hl] at hns
  | storage _ _ _ _ _ _ hl => simp [hl] at hns
  | slack _ _ _ hl => simp [hl] at hns
  | none _ hl => simp [hl] at hgen
  | gen pot p q x y hl _ hpot =>
    have hle' : d0.pMin ≤ d0.pMax := hle
    refine ⟨pot, Dict.getE_ok.1 hpot, ?_, ?_, ?_⟩
    · intro h1 h2
      have e : X.clip (pot / s.baseMVA) d0.pMin d0.pMax = pot / .fin base := by
        rw [eb]; exact X.clip_eq_self h1 h2
      change X.clip (X.clip (pot / s.baseMVA) d0.pMin d0.pMax) d0.pMin d0.pMax = _
      rw [e]; exact X.clip_eq_self h1 h2
    · intro h1
      have e : X.clip (pot / s.baseMVA) d0.pMin d0.pMax = d0.pMax := by
        rw [eb]; exact clip_eq_hi hle' h1
      change X.clip (X.clip (pot / s.baseMVA) d0.pMin d0.pMax) d0.pMin d0.pMax = _
      rw [e]; exact clip_eq_hi hle' (X.le_refl_of (X.le_notNan hle').2)
    · intro h1
      have e : X.clip (pot / s.baseMVA) d0.pMin d0.pMax = d0.pMin := by
        rw [eb]; exact clip_eq_lo hle' h1
      change X.clip (X.clip (pot / s.baseMVA) d0.pMin d0.pMax) d0.pMin d0.pMax = _
      rw [e]; exact clip_eq_lo hle' (X.le_refl_of (X.le_notNan hle').1)

end Anm
