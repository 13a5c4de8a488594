import Verif.Props.Kept
import Verif.Props.Clipped

/-! # C108: a reset reproduces a feasible initial state -/

namespace Anm

open Spec

section
variable {K : Type} [Field K] [LinearOrder K] [IsStrictOrderedRing K] [FloorRing K]
variable {c : Ctx K} {s s' : Sim K} {n : Network K} {dt lam : X K} {base t : K} {init : List (X K)} {b : Bool} {k : ℕ} {d : Device K}

/-- The transition inside a reset, seen from a device that is no storage unit. -/
theorem reset_device (hs : SimOf n dt lam s) (h : s.reset c init = .ok (s', b)) (hk : s'.devices[k]? = some d)
    (hst : d.isStorage = false) :
    ∃ (s0 s1 : Sim K) (a : Sim.Args K) (out : Sim.TransOut K) (d0 : Device K), SimOf n dt lam s0 ∧ s0.transition c a = .ok (s1, out) ∧
      b = out.converged ∧ d ∈ s1.devices ∧ s.devices[k]? = some d0 ∧ SameMachine d0 d ∧
      (d.isLoad = true → ∃ x, init[k]? = some x ∧ a.pLoad.get? d.id = some x) ∧
      (d.isLoad = false → d.isGen = true → d.isSlack = false → ∃ x y, init[k]? = some x ∧ init[s.nDevice + k]? = some y ∧
        a.pSet.get? d.id = some x ∧ a.qSet.get? d.id = some y) ∧
      (d.isNonSlackGen = true → ∃ z,
        init[2 * s.nDevice + s.nDes + ((s.devices.take k).filter Device.isNonSlackGen).length]? = some z ∧ a.pPot.get? d.id = some z) := by
  obtain ⟨a, ds, ds', s1, out, I, hb⟩ := reset_ok h
  obtain ⟨st, _, hres⟩ := I.result
  have hk1 : ds'[k]? = some d := by rw [hres] at hk; exact hk
  obtain ⟨d2, hk2, h2a, h2b⟩ := assignSoc_get I.assign hk1
  have hst2 : d2.isStorage = false := by
    cases hc : d2.isStorage with
    | false => rfl
    | true =>
      obtain ⟨x, -, rfl⟩ := h2b hc
      exact absurd hst (by simp [Device.isStorage] at hc ⊢; exact hc)
  obtain rfl := h2a hst2
  have c1 : SameConfig s { s with state := none, devices := ds } := by
    refine ⟨rfl, rfl, rfl, List.forall₂_same.2 fun _ _ => rfl, List.forall₂_same.2 fun _ _ => rfl, ?_⟩
    refine I.soc.imp fun d d' hd => ?_
    have := resetSoc_ok hd
    cases hs : d.isStorage with
    | false => rw [this.1 hs]; rfl
    | true => obtain ⟨p, _, rfl⟩ := this.2 hs; rfl
  have hs0 : SimOf n dt lam { s with state := none, devices := ds } := by
    obtain ⟨s00, h00, hc0⟩ := hs
    exact ⟨s00, h00, sameConfig_trans hc0 c1⟩
  obtain ⟨d0, hk0, hsm⟩ := forall₂_get (sameConfig_trans c1 (sameConfig_transition I.trans)).devices hk2
  have hsm : SameMachine d0 d := hsm
  have hid : d.id = d0.id := by rw [hsm]
  obtain ⟨e1, e2, e3, e4⟩ := hsm.classes
  have e5 : d.isGen = d0.isGen := by rw [hsm]; rfl
  have E := (resetArgs_ok (simOf_sorted hs) I.args).2 k d0 hk0
  simp only [Nat.zero_add] at E
  refine ⟨_, s1, a, out, d0, hs0, I.trans, hb, List.mem_of_getElem? hk2, hk0, hsm, fun hl => ?_, fun hl hg hsl => ?_, fun hg => ?_⟩
  · obtain ⟨x, h1, h2⟩ := E.load (e2 ▸ hl)
    have := (slice_get h1).1
    exact ⟨x, by simpa using this, by rw [hid]; exact h2⟩
  · obtain ⟨x, y, h1, h2, h3, h4⟩ := E.set (e2 ▸ hl) (by rw [← e5, ← e3, ← e1, hg, hsl]; simp)
    exact ⟨x, y, by simpa using (slice_get h1).1, (slice_get h2).1, by rw [hid]; exact h3, by rw [hid]; exact h4⟩
  · obtain ⟨z, h1, h2⟩ := E.pot (e2 ▸ (nonSlackGen_notSlack hg).2.1) (e4 ▸ hg)
    exact ⟨z, (slice_get h1).1, by rw [hid]; exact h2⟩

/-- **C108, loads.** After a reset a load has the requested active power, if that is within its limits, and the reactive
power that belongs to it, whatever reactive power was requested. -/
theorem C108_load {p : K} (hn : CleanFile n base) (hs : SimOf n dt lam s) (h : s.reset c init = .ok (s', b)) (hk : s'.devices[k]? = some d)
    (hl : d.isLoad = true) (hp : init[k]? = some (.fin p)) (h1 : d.pMin ≤ .fin (p / base)) (h2 : .fin (p / base) ≤ d.pMax) :
    d.p = .fin (p / base) ∧ ∃ r ratio, IsRowOf n d.id r ∧ r .qp = some ratio ∧ d.q = .fin (p / base) * ratio := by
  have hb := basePos_of_simOf hn hs
  have hst : d.isStorage = false := by
    unfold Device.isLoad at hl; unfold Device.isStorage
    cases hc : d.kind <;> simp_all
  obtain ⟨s0, s1, a, out, d0, g1, g2, g3, g4, g5, g6, g7, -⟩ := reset_device hs h hk hst
  obtain ⟨x, i1, i2⟩ := g7 hl
  obtain ⟨x', ratio, j1, ⟨r, j2, -, j3, -⟩, j4, -, j5⟩ := C18_load_clip hn g1 g2 g4 hl
  rw [i2] at j1
  rw [hp] at i1
  cases i1
  cases j1
  rw [X.fin_div_fin hb.ne'] at j5
  have := j5 h1 h2
  exact ⟨this, r, ratio, j2, j3, by rw [j4, this]⟩

/-- **C108, generators.** After a reset a generator has the requested maximum production, if that is within its limits, and
the requested powers, if they are within its capability region with that maximum production. -/
theorem C108_generator {pot p q : K} {g : GenParams K} (hn : CleanFile n base) (hs : SimOf n (.fin t) lam s) (hq : QPKeeps c.qp)
    (h : s.reset c init = .ok (s', b)) (hk : s'.devices[k]? = some d) (hg : d.isNonSlackGen = true) (hgp : HasGenParams d g)
    (hp : init[k]? = some (.fin p)) (hqq : init[s.nDevice + k]? = some (.fin q))
    (hpot : init[2 * s.nDevice + s.nDes + ((s.devices.take k).filter Device.isNonSlackGen).length]? = some (.fin pot)) :
    (g.pmin ≤ pot / base → pot / base ≤ g.pmax → d.pPot = .fin (pot / base)) ∧
      (GenRegion g (pot / base) (p / base) (q / base) → d.p = .fin (p / base) ∧ d.q = .fin (q / base)) := by
  have hb := basePos_of_simOf hn hs
  obtain ⟨ns1, ns2, ns3⟩ := nonSlackGen_notSlack hg
  obtain ⟨s0, s1, a, out, d0, g1, g2, g3, g4, g5, g6, -, g8, g9⟩ := reset_device hs h hk ns3
  have hgen : d.isGen = true := by
    unfold Device.isNonSlackGen at hg
    simp only [Bool.and_eq_true] at hg
    exact hg.1
  obtain ⟨x, y, i1, i2, i3, i4⟩ := g8 ns2 hgen ns1
  obtain ⟨z, i5, i6⟩ := g9 hg
  rw [hp] at i1
  rw [hqq] at i2
  rw [hpot] at i5
  cases i1
  cases i2
  cases i5
  refine ⟨fun h1 h2 => ?_, fun hr => C89_generator hn g1 hq g2 g4 hg hgp i6 i3 i4 hr⟩
  obtain ⟨x', j1, j2, -⟩ := C17_potential hn g1 g2 g4 hg
  rw [i6] at j1
  cases j1
  rw [X.fin_div_fin hb.ne', hgp.pmin, hgp.pmax] at j2
  exact j2 h1 h2

/-- **C108, storage units.** After a reset a storage unit has the requested energy; it has the requested powers, if they are
within its capability region and the capacity of the unit allows them for a whole time step. -/
theorem C108_storage {p q soc : K} {g : DesParams K} (hn : CleanFile n base) (hs : SimOf n (.fin t) lam s) (ht : 0 < t) (hq : QPKeeps c.qp)
    (h : s.reset c init = .ok (s', b)) (hk : s'.devices[k]? = some d) (hst : d.isStorage = true) (hg : HasDesParams d g) (he : 0 < g.eff)
    (hp : init[k]? = some (.fin p)) (hqq : init[s.nDevice + k]? = some (.fin q))
    (hsoc : init[2 * s.nDevice + ((s.devices.take k).filter Device.isStorage).length]? = some (.fin soc)) :
    d.soc = some (.fin (soc / base)) ∧
      (DesRegion g t (if p ≤ 0 then g.socMin else g.socMax) (p / base) (q / base) → d.p = .fin (p / base) ∧ d.q = .fin (q / base)) := by
  have hb := basePos_of_simOf hn hs
  refine ⟨?_, fun hr => ?_⟩
  · obtain ⟨d0, -, -, ⟨x, h1, h2⟩, -⟩ := reset_storage hn hs h hk hst
    rw [hsoc] at h1
    cases h1
    rw [h2, X.fin_div_fin hb.ne']
  · obtain ⟨h1, h2, -⟩ := C24_reset_injection hn hs ht hq h hk hst hg he hp hqq hsoc hr
    exact ⟨h1, h2⟩

end

end Anm
