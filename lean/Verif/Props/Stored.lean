import Verif.Props.Kept
import Verif.Props.EnvMade
import Verif.Props.RealDemo

/-! # C91: no policy earns more than the energy initially stored

The reported energy loss may be negative (a storage unit that discharges), so that rewards may be positive.  Over
any run the losses add up to at least minus the energy that the storage units can deliver from their initial
states of charge. -/

set_option linter.unusedSimpArgs false

namespace Anm

open Spec Complex ComplexConjugate

noncomputable section

/-- The energy a storage unit can deliver before it is empty, in p.u. times hours. -/
def Spec.deliverable (d : Device ℝ) : ℝ :=
  match d.soc with
  | some x => finVal d.eff * (finVal x - finVal d.socMin)
  | none => 0

/-- The energy all storage units can deliver. -/
def Spec.storedEnergy (s : Sim ℝ) : ℝ := ((s.devices.filter Device.isStorage).map deliverable).sum

/-- Successive transitions whose load flows converge, with finite potentials of the renewable generators, and what
they return. -/
inductive Spec.ConvergedRun (c : Ctx ℝ) : Sim ℝ → List (Sim.TransOut ℝ) → Sim ℝ → Prop where
  | nil (s : Sim ℝ) : ConvergedRun c s [] s
  | cons {s s1 s' : Sim ℝ} {a : Sim.Args ℝ} {o : Sim.TransOut ℝ} {os : List (Sim.TransOut ℝ)} :
      s.transition c a = .ok (s1, o) → o.converged = true →
      (∀ d ∈ s1.devices, d.isRenewable = true → ∃ p, d.pPot = .fin p) →
      ConvergedRun c s1 os s' → ConvergedRun c s (o :: os) s'

section
variable {n : Network ℝ} {base : ℝ} {lam : X ℝ} {s s' : Sim ℝ} {m : ℕ} {ls : List LineC} {i j : ℤ}
  {qp : QP ℝ} {o : LFOracle} {pi : ℝ} {a : Sim.Args ℝ} {out : Sim.TransOut ℝ} {t ε : ℝ}

theorem deliverable_nonneg (hn : CleanFile n base) (hs : SimOf n (.fin t) lam s) (hf : FiniteCapacity s) (h0 : SocOk s)
    {d : Device ℝ} (hd : d ∈ s.devices) (hl : d.isStorage = true) : 0 ≤ deliverable d := by
  obtain ⟨m, M, e, h1, h2, h3, m0, -, e0, -⟩ := soc_params hn hs hd hl (hf d hd hl)
  obtain ⟨z, hz, z1, z2⟩ := h0 d hd hl
  rw [h1] at z1; rw [h2] at z2
  obtain ⟨x, rfl, k1⟩ : ∃ x, z = .fin x ∧ m ≤ x := by
    cases z with
    | fin x => exact ⟨x, rfl, z1⟩
    | nan => exact absurd z1 (by simp)
    | ninf => exact absurd z1 (by simp)
    | pinf => exact absurd z2 (by simp)
  simp only [deliverable, hz, h3, h1, finVal]
  exact mul_nonneg e0 (sub_nonneg.2 k1)

theorem stored_nonneg (hn : CleanFile n base) (hs : SimOf n (.fin t) lam s) (hf : FiniteCapacity s) (h0 : SocOk s) :
    0 ≤ storedEnergy s := by
  refine List.sum_nonneg fun x hx => ?_
  obtain ⟨d, hd, rfl⟩ := List.mem_map.1 hx
  obtain ⟨h1, h2⟩ := List.mem_filter.1 hd
  exact deliverable_nonneg hn hs hf h0 h1 h2

/-- Storage by storage. -/
theorem sum_storage {f g : Device ℝ → ℝ} {R : Device ℝ → Device ℝ → Prop} {l l' : List (Device ℝ)}
    (h : List.Forall₂ R l l') (hk : ∀ d d', R d d' → d'.isStorage = d.isStorage) {r : Device ℝ → ℝ} {δ : ℝ}
    (hp : ∀ d d', R d d' → d ∈ l → d' ∈ l' → d'.isStorage = true → g d' ≤ f d + r d' + δ) :
    ((l'.filter Device.isStorage).map g).sum ≤ ((l.filter Device.isStorage).map f).sum +
      ((l'.filter Device.isStorage).map r).sum + (l'.filter Device.isStorage).length * δ := by
  induction h with
  | nil => simp
  | @cons a b l1 l2 h1 h2 ih =>
    have ih := ih fun d d' hr hm1 hm2 => hp d d' hr (List.mem_cons_of_mem _ hm1) (List.mem_cons_of_mem _ hm2)
    have hab := hk _ _ h1
    cases hb : b.isStorage with
    | false =>
      rw [hb] at hab
      simpa [List.filter_cons, hb, ← hab] using ih
    | true =>
      rw [hb] at hab
      have := hp _ _ h1 (by simp) (by simp) hb
      simp only [List.filter_cons, hb, ← hab, if_true, List.map_cons, List.sum_cons, List.length_cons]
      push_cast
      linarith

theorem storage_count (h : SameConfig s s') :
    (s'.devices.filter Device.isStorage).length = (s.devices.filter Device.isStorage).length := by
  have := h.devices
  generalize s.devices = l at this
  generalize s'.devices = l' at this
  induction this with
  | nil => rfl
  | cons h1 h2 ih => rw [List.filter_cons, List.filter_cons, h1.classes.2.2.1]; split <;> simp [ih]

/-- **C91, one transition.** The reported energy loss covers what the storage units gain, up to the tolerances of
the load flow and of the projection. -/
theorem C91_transition (ht : 0 < t) (hε : 0 ≤ ε) (hn : CleanFile n base) (hs : SimOf n (.fin t) lam s)
    (hm : Numbered s m) (ho : OneSlack s i j) (hl : FiniteLines s ls)
    (hal : ∀ d ∈ s.devices, d.busId = i → d.isSlack = true)
    (hq : QPSound ε qp) (hf : FiniteCapacity s) (h0 : SocOk s)
    (h : s.transition ⟨qp, realPF o, pi⟩ a = .ok (s', out)) (hc : out.converged = true)
    (hpot : ∀ d ∈ s'.devices, d.isRenewable = true → ∃ p, d.pPot = .fin p) :
    ∃ e, out.eLoss = .fin e ∧
      storedEnergy s' ≤ storedEnergy s + e + t * (m * 1e-5 + (s.devices.filter Device.isStorage).length * ε) := by
  obtain ⟨-, V, e, hV, he, habs⟩ := C32_energy_loss ht.le hn hs hm ho hl hal h hc hpot
  refine ⟨e, he, ?_⟩
  obtain ⟨-, -, hg⟩ := simOf_lines hn hs hm hl
  have hsc := sameConfig_transition h
  have hs' := simOf_transition hs h
  -- losses and curtailment are not negative
  have p1 : 0 ≤ (ls.map fun l => loss l V).sum := by
    refine List.sum_nonneg fun x hx => ?_
    obtain ⟨l, hl', rfl⟩ := List.mem_map.1 hx
    exact (C30_branch_losses (hg l hl') _ _).2.1
  have p2 : 0 ≤ (s'.devices.map curtailed).sum := by
    refine List.sum_nonneg fun x hx => ?_
    obtain ⟨d, hd, rfl⟩ := List.mem_map.1 hx
    unfold curtailed
    split
    · exact le_max_left _ _
    · exact le_rfl
  -- storage units
  have hlen := storage_count hsc
  have p3 := sum_storage (f := deliverable) (g := deliverable) (r := fun d => -(t * finVal d.p)) (δ := t * ε)
    hsc.devices (fun d d' hr => hr.classes.2.2.1) (by
      intro d d' hr hd hd' hst
      obtain ⟨d0, hd0, hid, soc, soc', p, q, e, k1, k2, k3, k4, k5, k6, k7, k8⟩ :=
        C21_soc_accounting_tol hn hs ht hε hq hf h0 h hd' hst
      have e1 : d0 = d := device_unique hs hd0 hd (by rw [hid, hr])
      subst e1
      obtain ⟨b, hb⟩ := hf d0 hd0 (hr.classes.2.2.1 ▸ hst)
      obtain ⟨m1, M1, e2, j1, -, j3, -, -, -, j7⟩ := soc_params hn hs hd0 (hr.classes.2.2.1 ▸ hst) ⟨b, hb⟩
      have j4 : d'.socMin = .fin m1 := by rw [hr]; exact j1
      have j5 : d0.eff = .fin e := by rw [hr] at k5; exact k5
      rw [j5] at j3; injection j3 with j3; subst j3
      simp only [deliverable, k1, k2, k3, k5, j1, j4, j5, finVal]
      rcases le_or_gt p 0 with hp | hp
      · obtain ⟨a1, -⟩ := k7 hp
        have : e * (soc' - soc) ≤ e * (-(t * e * p)) := mul_le_mul_of_nonneg_left (by linarith) k6.le
        have h3 : e * (-(t * e * p)) ≤ -(t * p) := by
          have : e * e ≤ 1 := by nlinarith
          nlinarith [mul_nonneg ht.le (neg_nonneg.2 hp)]
        nlinarith [mul_nonneg ht.le hε]
      · obtain ⟨-, a2⟩ := k8 hp
        have : e * (soc' - soc) ≤ e * (-(t * p / e) + t * ε / e) := mul_le_mul_of_nonneg_left (by linarith) k6.le
        have h3 : e * (-(t * p / e) + t * ε / e) = -(t * p) + t * ε := by field_simp
        linarith)
  rw [hlen] at p3
  have p4 : ((s'.devices.filter Device.isStorage).map fun d => -(t * finVal d.p)).sum =
      -(t * ((s'.devices.filter Device.isStorage).map fun d => finVal d.p).sum) := by
    generalize s'.devices.filter Device.isStorage = l
    induction l with
    | nil => simp
    | cons d l ih => simp only [List.map_cons, List.sum_cons, ih]; ring
  rw [p4] at p3
  have := (abs_le.1 habs).1
  unfold storedEnergy
  nlinarith [mul_nonneg ht.le (add_nonneg p1 p2)]

/-- **C91.** Over any run of converged transitions the reported energy losses are finite, and add up to at least
minus the energy initially stored plus the energy stored at the end, up to the tolerances. -/
theorem C91_run (ht : 0 < t) (hε : 0 ≤ ε) (hn : CleanFile n base) (hs : SimOf n (.fin t) lam s)
    (hm : Numbered s m) (ho : OneSlack s i j) (hl : FiniteLines s ls)
    (hal : ∀ d ∈ s.devices, d.busId = i → d.isSlack = true)
    (hq : QPSound ε qp) (hf : FiniteCapacity s) (h0 : SocOk s) {os : List (Sim.TransOut ℝ)}
    (h : ConvergedRun ⟨qp, realPF o, pi⟩ s os s') :
    ∃ es : List ℝ, os.map (·.eLoss) = es.map X.fin ∧ 0 ≤ storedEnergy s' ∧
      storedEnergy s' - storedEnergy s -
        os.length * (t * (m * 1e-5 + (s.devices.filter Device.isStorage).length * ε)) ≤ es.sum := by
  induction h with
  | nil s => exact ⟨[], rfl, stored_nonneg hn hs hf h0, by simp⟩
  | @cons s s1 s' a o1 os h1 hc hp hr ih =>
    obtain ⟨e, he, hle⟩ := C91_transition ht hε hn hs hm ho hl hal hq hf h0 h1 hc hp
    have hsc := sameConfig_transition h1
    have hlen := storage_count hsc
    obtain ⟨es, e1, e2, e3⟩ := ih (simOf_transition hs h1) (numbered_same hsc hm) (oneSlack_same hsc ho)
      (finiteLines_same hsc hl) (by
        intro d hd hdi
        obtain ⟨d0, hd0, hsm⟩ := forall₂_mem_right hsc.devices hd
        rw [hsm] at hdi ⊢
        exact hal d0 hd0 hdi) (finiteCapacity_same hsc hf)
      (socOk_step hn hs ht (storageNotNan_of_sound hq _) hf h0 h1)
    refine ⟨e :: es, by simp [he, e1], e2, ?_⟩
    rw [hlen] at e3
    simp only [List.length_cons, List.sum_cons]
    push_cast
    linarith

end

/-! ### Environments -/

section
variable {ρ : Type} {c : EnvCtx ℝ ρ} {a : EnvArgs ℝ} {e e' : Env ℝ ρ} {as : List (List (X ℝ))}
  {os : List (Env.StepOut ℝ)} {base t l ε : ℝ} {m : ℕ} {ls : List LineC} {i j : ℤ} {qp : QP ℝ} {o : LFOracle} {pi : ℝ}

theorem X.clip_finite {x : ℝ} {lo hi : X ℝ} {y : ℝ} (h1 : lo = .fin y) (h2 : lo ≤ hi) : ∃ p, X.clip (.fin x) lo hi = .fin p := by
  subst h1
  cases hi with
  | nan => exact absurd h2 (by simp)
  | ninf => exact absurd h2 (by simp)
  | fin b => exact ⟨_, X.clip_fin h2⟩
  | pinf =>
    simp only [X.clip, X.maximum, X.minimum]
    by_cases h : y ≤ x <;> simp [h]

/-- Finite inputs give finite potentials. -/
theorem potential_finite {n : Network ℝ} {dt lam : X ℝ} {s s' : Sim ℝ} {k : Ctx ℝ} {args : Sim.Args ℝ}
    {out : Sim.TransOut ℝ} (hn : CleanFile n base) (hs : SimOf n dt lam s)
    (hmin : ∀ d ∈ s.devices, d.isRenewable = true → ∃ p, d.pMin = .fin p)
    (h : s.transition k args = .ok (s', out)) (hpot : ∀ i x, args.pPot.getE i = .ok x → X.IsFin x) :
    ∀ d ∈ s'.devices, d.isRenewable = true → ∃ p, d.pPot = .fin p := by
  intro d hd hr
  obtain ⟨r, hrow, ids, d0, hok, hcl, hsm⟩ := simOf_class hn (simOf_transition hs h) hd
  have hns : d.isSlack = false ∧ d.isNonSlackGen = true := by
    have hc := hsm.classes
    have h1 : d.kind = d0.kind := by rw [hsm]
    have h2 : d.isSlack = d0.isSlack := by rw [hsm]
    unfold Device.isRenewable at hr
    rw [h1] at hr
    unfold Device.isNonSlackGen Device.isGen
    rw [h1, h2]
    cases hcl <;> simp_all
  obtain ⟨d1, hd1, hst⟩ := transition_device h hd hns.1
  have hng := hns.2
  rw [hst.same.classes.2.2.2] at hng
  cases hst with
  | gen pot p q x y k1 k2 k3 k4 k5 k6 =>
    obtain ⟨r, -, ids, d0, kind, hok, hmk, hsm, hsl⟩ := simOf_gen hn hs hd1 hng
    have S := C05_generator hok (basePos_of_simOf hn hs) hmk hsl
    obtain ⟨pm, hpm⟩ := hmin d1 hd1 hr
    obtain ⟨z, hz⟩ := X.isFin_iff.1 (hpot _ _ k3)
    have hb := (simOf_base hs).1
    have hle : d1.pMin ≤ d1.pMax := by
      have := X.le_trans' S.p1 S.p2
      rw [hsm]
      exact this
    have h0 := (basePos_of_simOf hn hs).ne'
    rw [hb, hn.base, hz, X.fin_div_fin h0]
    obtain ⟨w, hw⟩ := X.clip_finite (x := z / base) hpm hle
    rw [hw]
    exact X.clip_finite (x := w) hpm hle
  | load _ h1 => exact absurd h1 (by simp [(nonSlackGen_notSlack hng).2.1])
  | storage _ _ _ _ _ _ h1 => exact absurd h1 (by simp [(nonSlackGen_notSlack hng).2.2])
  | slack _ h1 => exact absurd h1 (by simp [hng])
  | none _ h1 => exact absurd h1 (by simp [hng])

/-- **C91, environments.** Without clipping of the costs, the rewards of any episode that does not end in a
collapse add up to at most the energy initially stored (in p.u. times hours), up to the tolerances. -/
theorem C91_return (he : EnvOf c a e) (hclip : a.clipping = none) (hdt : a.deltaT = .fin t) (hlam : a.lamb = .fin l)
    (ht : 0 < t) (hl0 : 0 < l) (hε : 0 ≤ ε) (hn : CleanFile a.network base) (hm : Numbered e.sim m)
    (ho : OneSlack e.sim i j) (hl : FiniteLines e.sim ls) (hal : ∀ d ∈ e.sim.devices, d.busId = i → d.isSlack = true)
    (hmin : ∀ d ∈ e.sim.devices, d.isRenewable = true → ∃ p, d.pMin = .fin p)
    (hsim : c.sim = ⟨qp, realPF o, pi⟩) (hq : QPSound ε qp) (hf : FiniteCapacity e.sim) (h0 : SocOk e.sim)
    (hnext : ∀ st r v r', c.nextVars st r = .ok (v, r') → ∀ x ∈ v, X.IsFin x)
    (hE : Episode c e as os e') (hlive : ∀ out ∈ os, out.terminated = false) :
    (os.map (·.reward)).sum ≤ .fin (storedEnergy e.sim +
      os.length * (t * (m * 1e-5 + (e.sim.devices.filter Device.isStorage).length * ε))) := by
  suffices H : ∃ r : ℝ, (os.map (·.reward)).sum ≤ .fin r ∧ 0 ≤ storedEnergy e'.sim ∧
      r ≤ storedEnergy e.sim - storedEnergy e'.sim +
      os.length * (t * (m * 1e-5 + (e.sim.devices.filter Device.isStorage).length * ε)) by
    obtain ⟨r, h1, h2, h3⟩ := H
    exact X.le_trans' h1 (X.fin_le_fin.2 (by linarith))
  have hs : SimOf a.network (.fin t) (.fin l) e.sim := by
    have := envOf_simOf he
    rwa [hdt, hlam] at this
  induction hE with
  | nil e => exact ⟨0, by simp [X.zero_def], stored_nonneg hn hs hf h0, by simp⟩
  | @cons e e1 e' act as out os h1 hr ih =>
    have hterm := hlive out (by simp)
    obtain ⟨_, y, hy, ⟨_, _, rfl⟩ | ⟨hy1, hadv⟩⟩ := step_ok h1
    · cases hterm
    obtain ⟨vars, args, tr, y', I⟩ := advance_ok hadv
    have hconv : tr.converged = true := by have := I.flag; rw [hterm] at this; simpa using this.symm
    have hfin := hnext _ _ _ _ I.next
    obtain ⟨r1, hd1, hd2⟩ := distributed_of (simOf_sorted hs) I.size
    rw [I.dicts] at hd1
    cases hd1
    have htr := I.trans
    have hsc := sameConfig_transition htr
    have hpot := potential_finite hn hs hmin htr (by
      intro i x hx
      have hx := Dict.getE_ok.1 hx
      obtain ⟨d, hd, hid⟩ := ((hd2.2.2 i).2).1 ⟨x, hx⟩
      obtain ⟨k, hk⟩ := List.mem_iff_getElem?.1 hd
      obtain ⟨z, hz, hz'⟩ := hd2.2.1 k d hk
      rw [hid, hx] at hz'
      cases hz'
      exact hfin x (List.mem_of_getElem? hz))
    rw [hsim] at htr
    obtain ⟨el, he1, he2⟩ := C91_transition ht hε hn hs hm ho hl hal hq hf h0 htr hconv hpot
    obtain ⟨-, hpen, -⟩ := C37_converged hn hs ht hl0 hm hl htr hconv
    obtain ⟨args', o', htr', hrew⟩ := C47_unclipped he hclip h1 hterm
    have heq : o'.eLoss = tr.eLoss ∧ o'.penalty = tr.penalty := by
      obtain ⟨_, _, J1⟩ := transition_ok htr'
      obtain ⟨_, _, J2⟩ := transition_ok htr
      have := J1.reward.symm.trans J2.reward
      simp only [Except.ok.injEq, Prod.mk.injEq] at this
      exact this.2
    rw [heq.1, heq.2, he1] at hrew
    have hr1 := hrew trivial hpen
    have hr2 : out.reward ≤ .fin (-el) := by
      rw [hr1]
      generalize tr.penalty = pen at hpen
      cases pen with
      | nan => exact absurd hpen (by simp)
      | ninf => exact absurd hpen (by simp [X.zero_def])
      | fin w =>
        have : 0 ≤ w := hpen
        simp only [X.fin_add_fin, X.neg_fin, X.fin_le_fin]
        linarith
      | pinf => trivial
    obtain ⟨r, hr3, hr4, hr5⟩ := ih (envOf_call he (.inr (.inl ⟨_, _, h1⟩))) (numbered_same hsc hm) (oneSlack_same hsc ho)
      (finiteLines_same hsc hl) (by
        intro d hd hdi
        obtain ⟨d0, hd0, hsm⟩ := forall₂_mem_right hsc.devices hd
        rw [hsm] at hdi ⊢
        exact hal d0 hd0 hdi) (by
        intro d hd hdr
        obtain ⟨d0, hd0, hsm⟩ := forall₂_mem_right hsc.devices hd
        rw [hsm] at hdr ⊢
        exact hmin d0 hd0 hdr) (finiteCapacity_same hsc hf)
      (socOk_step hn hs ht (c := c.sim) (by rw [hsim]; exact storageNotNan_of_sound hq _) hf h0 I.trans)
      (fun out ho => hlive out (List.mem_cons_of_mem _ ho)) (simOf_transition hs htr)
    refine ⟨-el + r, ?_, hr4, ?_⟩
    · rw [List.map_cons, List.sum_cons]
      exact X.add_le_fin hr2 hr3
    · rw [storage_count hsc] at hr5
      simp only [List.length_cons]
      push_cast
      linarith

end
end
end Anm
