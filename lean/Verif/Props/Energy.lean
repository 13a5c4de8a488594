import Verif.Props.PowerFlow
import Verif.Props.Slack

/-! # Energy accounting: C32, and the exact content of C33 at the slack bus -/

set_option linter.unusedSectionVars false

namespace Anm

open Spec Complex ComplexConjugate

section
variable {K : Type} [Field K] [LinearOrder K] [IsStrictOrderedRing K]

theorem foldl_add_fin {l : List (X K)} {a : X K} {c : K} (h : l.foldl (· + ·) a = .fin c) :
    (∃ a', a = .fin a') ∧ ∀ x ∈ l, ∃ x', x = .fin x' := by
  induction l generalizing a with
  | nil => exact ⟨⟨c, h⟩, by simp⟩
  | cons y l ih =>
    obtain ⟨⟨z, hz⟩, h2⟩ := ih h
    have hz' : X.add a y = .fin z := hz
    cases a <;> cases y <;> simp [X.add] at hz'
    refine ⟨⟨_, rfl⟩, ?_⟩
    intro x hx
    rcases List.mem_cons.1 hx with rfl | hx
    · exact ⟨_, rfl⟩
    · exact h2 x hx

theorem foldl_add_of_fin {α : Type} {l : List α} {f : α → X K} {g : α → K} (a : K)
    (h : ∀ x ∈ l, f x = .fin (g x)) : (l.map f).foldl (· + ·) (.fin a) = .fin (a + (l.map g).sum) := by
  induction l generalizing a with
  | nil => simp
  | cons y l ih =>
    rw [List.map_cons, List.foldl_cons, h y (by simp), X.fin_add_fin, ih _ fun x hx => h x (by simp [hx])]
    simp [add_assoc]

theorem sumX_fin {l : List (X K)} {c : K} (h : sumX l = .fin c) : ∀ x ∈ l, ∃ x', x = .fin x' :=
  (foldl_add_fin h).2

theorem sumX_of_fin {α : Type} {l : List α} {f : α → X K} {g : α → K} (h : ∀ x ∈ l, f x = .fin (g x)) :
    sumX (l.map f) = .fin (l.map g).sum := by
  have := foldl_add_of_fin 0 h
  simpa [sumX, X.zero_def] using this

theorem sum_filter_add {α : Type} (l : List α) (p : α → Bool) (g : α → K) :
    (l.map g).sum = ((l.filter p).map g).sum + ((l.filter fun x => !p x).map g).sum := by
  induction l with
  | nil => simp
  | cons a l ih =>
    by_cases h : p a = true
    · simp [h, ih, add_assoc]
    · have h : p a = false := by simpa using h
      simp [h, ih, add_left_comm]

variable [FloorRing K] {s s' : Sim K} {i j : ℤ} {c : Ctx K} {a : Sim.Args K} {out : Sim.TransOut K}

theorem slack_alone_filter (ho : OneSlack s i j) {d0 : Device K} (hd0 : d0 ∈ s.devices)
    (hs0 : d0.isSlack = true) : (devicesAt s i).filter Device.isSlack = [d0] := by
  have hmem : ∀ x, x ∈ (devicesAt s i).filter Device.isSlack ↔ x = d0 := by
    intro x
    simp only [devicesAt, List.mem_filter, decide_eq_true_eq]
    constructor
    · rintro ⟨⟨hx, hxb⟩, hxs⟩
      exact sorted_id_inj ho.devices hx hd0 (((ho.dev x hx).1 hxs).trans ((ho.dev d0 hd0).1 hs0).symm)
    · rintro rfl
      exact ⟨⟨hd0, ho.on x hd0 hs0⟩, hs0⟩
  have hnd : ((devicesAt s i).filter Device.isSlack).Nodup :=
    (List.Nodup.filter _ (ho.devices.imp fun h e => by rw [e] at h; exact lt_irrefl _ h)).filter _
  refine List.perm_singleton.1 ((List.perm_ext_iff_of_nodup hnd (List.nodup_singleton d0)).2 ?_)
  intro x
  rw [hmem x]
  simp

/-- **C33, exactly what holds at the slack bus.** The slack device is given the whole injection of the
slack bus; the sum over the devices of that bus exceeds the reported injection by what the other devices
of the bus inject (reactive power: likewise). -/
theorem C33_slack_excess (ho : OneSlack s i j) (h : s.transition c a = .ok (s', out)) {b : Bus K}
    (hb : b ∈ s'.buses) (hbs : b.isSlack = true)
    (hfin : ∀ d ∈ devicesAt s' b.id, (∃ p, d.p = .fin p) ∧ ∃ q, d.q = .fin q) :
    let others := (devicesAt s' b.id).filter fun d => !d.isSlack
    (∃ B R, b.p = .fin B ∧ sumX (others.map Device.p) = .fin R ∧
      sumX ((devicesAt s' b.id).map Device.p) = .fin (B + R)) ∧
    (∃ B R, b.q = .fin B ∧ sumX (others.map Device.q) = .fin R ∧
      sumX ((devicesAt s' b.id).map Device.q) = .fin (B + R)) := by
  have ho' := oneSlack_same (sameConfig_transition h) ho
  have hid := (ho'.bus b hb).1 hbs
  obtain ⟨d0, hd0, hj⟩ := ho'.devMem
  have hs0 := (ho'.dev d0 hd0).2 hj
  obtain ⟨e1, e2⟩ := slack_device ho h hb hbs hd0 hs0
  have hone := slack_alone_filter ho' hd0 hs0
  have hd0' : d0 ∈ devicesAt s' i := by
    have : d0 ∈ (devicesAt s' i).filter Device.isSlack := by rw [hone]; simp
    exact (List.mem_filter.1 this).1
  rw [hid] at hfin ⊢
  have key : ∀ f : Device K → X K, (∀ d ∈ devicesAt s' i, ∃ p, f d = .fin p) →
      ∃ B R, f d0 = .fin B ∧ sumX (((devicesAt s' i).filter fun d => !d.isSlack).map f) = .fin R ∧
        sumX ((devicesAt s' i).map f) = .fin (B + R) := by
    intro f hf
    have hg : ∀ d ∈ devicesAt s' i, f d = .fin (match f d with | .fin x => x | _ => 0) := by
      intro d hd
      obtain ⟨p, hp⟩ := hf d hd
      rw [hp]
    refine ⟨_, _, hg d0 hd0', sumX_of_fin fun d hd => hg d (List.mem_filter.1 hd).1, ?_⟩
    rw [sumX_of_fin hg, sum_filter_add _ Device.isSlack, hone]
    simp
  constructor
  · obtain ⟨B, R, h1, h2, h3⟩ := key Device.p fun d hd => (hfin d hd).1
    exact ⟨B, R, e1 ▸ h1, h2, h3⟩
  · obtain ⟨B, R, h1, h2, h3⟩ := key Device.q fun d hd => (hfin d hd).2
    exact ⟨B, R, e2 ▸ h1, h2, h3⟩

end

/-! ### C32 -/

section
variable {n : Network ℝ} {base : ℝ} {dt lam : X ℝ} {s s' : Sim ℝ} {m : ℕ} {ls : List LineC} {i j : ℤ}
  {o : LFOracle} {qp : QP ℝ} {pi : ℝ} {a : Sim.Args ℝ} {out : Sim.TransOut ℝ}

theorem Spec.finVal_fin (x : ℝ) : finVal (.fin x) = x := rfl

theorem fin_finVal {x : X ℝ} (h : ∃ y, x = .fin y) : x = .fin (finVal x) := by
  obtain ⟨y, rfl⟩ := h; rfl

/-- Active power a renewable generator could have injected but did not. -/
noncomputable def Spec.curtailed (d : Device ℝ) : ℝ :=
  if d.isRenewable then max 0 (finVal d.pPot - finVal d.p) else 0

theorem eLoss_fold {ds : List (Device ℝ)} (hp : ∀ d ∈ ds, ∃ p, d.p = .fin p)
    (hpot : ∀ d ∈ ds, d.isRenewable = true → ∃ p, d.pPot = .fin p) (e : ℝ) :
    ds.foldl Sim.eLossStep (.fin e) = .fin (e + (ds.map fun d =>
      (if d.isGen || d.isLoad then finVal d.p else 0) + curtailed d).sum) := by
  induction ds generalizing e with
  | nil => simp
  | cons d ds ih =>
    have h1 : Sim.eLossStep (.fin e) d = .fin (e + ((if d.isGen || d.isLoad then finVal d.p else 0) +
        curtailed d)) := by
      obtain ⟨p, hp⟩ := hp d (by simp)
      unfold Sim.eLossStep curtailed
      by_cases hr : d.isRenewable = true
      · obtain ⟨pot, hpo⟩ := hpot d (by simp) hr
        simp only [hp, hpo, hr, if_true, X.fin_sub_fin, X.zero_def, X.max_fin, finVal_fin]
        split_ifs <;> simp [add_assoc]
      · simp only [Bool.not_eq_true] at hr
        simp only [hp, hr, finVal_fin, Bool.false_eq_true, if_false]
        split_ifs <;> simp
    rw [List.foldl_cons, h1, ih (fun d hd => hp d (by simp [hd])) fun d hd => hpot d (by simp [hd])]
    simp [add_assoc]

theorem kind_split (d : Device ℝ) : (d.isGen || d.isLoad) = !d.isStorage := by
  unfold Device.isGen Device.isLoad Device.isStorage
  cases d.kind <;> rfl

theorem sum_by_bus {bs : List (Bus ℝ)} (hp : bs.Pairwise fun a b => a.id < b.id) (ds : List (Device ℝ))
    (hd : ∀ d ∈ ds, ∃ b ∈ bs, b.id = d.busId) (f : Device ℝ → ℝ) :
    (bs.map fun b => ((ds.filter fun d => d.busId = b.id).map f).sum).sum = (ds.map f).sum := by
  induction ds with
  | nil => simp
  | cons d ds ih =>
    have h1 : ∀ b : Bus ℝ, (((d :: ds).filter fun d => d.busId = b.id).map f).sum =
        (if d.busId = b.id then f d else 0) + ((ds.filter fun d => d.busId = b.id).map f).sum := by
      intro b
      by_cases h : d.busId = b.id <;> simp [h]
    simp only [h1, List.sum_map_add, ih fun d hd' => hd d (by simp [hd'])]
    rw [List.map_cons, List.sum_cons]
    congr 1
    obtain ⟨b, hb, e⟩ := hd d (by simp)
    rw [← e]
    clear ih h1 hd
    induction bs with
    | nil => simp at hb
    | cons x bs ih =>
      rw [List.pairwise_cons] at hp
      rcases List.mem_cons.1 hb with rfl | hb
      · simp only [List.map_cons, List.sum_cons, if_true]
        have : (bs.map fun y => if b.id = y.id then f d else 0) = bs.map fun _ => (0 : ℝ) := by
          refine List.map_congr_left fun y hy => ?_
          rw [if_neg (ne_of_lt (hp.1 y hy))]
        rw [this]
        simp
      · have := hp.1 b hb
        simp only [List.map_cons, List.sum_cons]
        rw [if_neg (ne_of_gt this), ih hp.2 hb, zero_add]

theorem sum_range_ite (m : ℕ) (ε : ℝ) :
    (((List.range (m + 1)).map Int.ofNat).map fun k => if k = 0 then (0 : ℝ) else ε).sum = m * ε := by
  induction m with
  | zero => simp
  | succ m ih =>
    rw [List.range_succ, List.map_append, List.map_append, List.sum_append, ih]
    have : (Int.ofNat (m + 1)) ≠ 0 := by simp; omega
    rw [List.map_singleton, List.map_singleton, List.sum_singleton, if_neg this]
    push_cast
    ring

theorem list_range_sum (f : ℕ → ℝ) (k : ℕ) : ((List.range k).map f).sum = ∑ i : Fin k, f i := by
  rw [← Finset.sum_range]
  induction k with
  | zero => simp
  | succ k ih => rw [List.range_succ, List.map_append, List.sum_append, ih, Finset.sum_range_succ]; simp

theorem split_storage (ds : List (Device ℝ)) : (ds.map fun d =>
      (if d.isGen || d.isLoad then finVal d.p else 0) + curtailed d).sum =
      (ds.map fun d => finVal d.p).sum + (ds.map curtailed).sum -
      ((ds.filter Device.isStorage).map fun d => finVal d.p).sum := by
  induction ds with
  | nil => simp
  | cons d l ih =>
    rw [List.map_cons, List.sum_cons, ih, kind_split, List.filter_cons]
    cases hst : d.isStorage <;> simp <;> ring

/-- **C32.** Energy accounting of a converged transition: if the slack device is alone on the slack bus,
the reported energy loss is `delta_t` times (line losses + renewable curtailment - storage injections), up
to the residual tolerance of the load flow. -/
theorem C32_energy_loss {t : ℝ} (ht : 0 ≤ t) (hn : CleanFile n base) (hs : SimOf n (.fin t) lam s)
    (hm : Numbered s m) (ho : OneSlack s i j) (hl : FiniteLines s ls)
    (hal : ∀ d ∈ s.devices, d.busId = i → d.isSlack = true)
    (h : s.transition ⟨qp, realPF o, pi⟩ a = .ok (s', out)) (hc : out.converged = true)
    (hpot : ∀ d ∈ s'.devices, d.isRenewable = true → ∃ p, d.pPot = .fin p) :
    (∀ d ∈ s'.devices, ∃ p, d.p = .fin p) ∧
    ∃ V e, Solved s' ls V ∧ out.eLoss = .fin e ∧
      |e - t * ((ls.map fun l => loss l V).sum + (s'.devices.map curtailed).sum -
        ((s'.devices.filter Device.isStorage).map fun d => finVal d.p).sum)| ≤ t * (m * 1e-5) := by
  obtain ⟨V, hV, hbal⟩ := C25_converged hn hs hm hl h hc
  have hsc := sameConfig_transition h
  have hm' := numbered_same hsc hm
  have ho' := oneSlack_same hsc ho
  have hal' : ∀ d ∈ s'.devices, d.busId = i → d.isSlack = true := by
    intro d hd hdi
    obtain ⟨d0, hd0, hsm⟩ := forall₂_mem_right hsc.devices hd
    rw [hsm] at hdi ⊢
    exact hal d0 hd0 hdi
  have hi0 : i = 0 := by
    obtain ⟨b, hb, e⟩ := ho'.busMem
    rw [← e]
    exact (hm'.slack b hb).1 ((ho'.bus b hb).2 e)
  subst hi0
  -- powers of buses and of devices
  have hsum : ∀ b ∈ s'.buses, b.p = sumX ((devicesAt s' b.id).map Device.p) := fun b hb =>
    (C33_bus_sum_partial ho h hb fun hbs d hd e =>
      hal' d hd (e.trans ((ho'.bus b hb).1 hbs))).1
  have hbp : ∀ b ∈ s'.buses, ∃ p, b.p = .fin p := by
    intro b hb
    cases hbs : b.isSlack with
    | true => exact ⟨_, (hV.slack b hb hbs).1⟩
    | false => obtain ⟨p, _, hp, _⟩ := hbal b hb hbs; exact ⟨p, hp⟩
  have hdp : ∀ d ∈ s'.devices, ∃ p, d.p = .fin p := by
    intro d hd
    obtain ⟨b, hb, e⟩ := ho'.busOf d hd
    obtain ⟨p, hp⟩ := hbp b hb
    rw [hsum b hb] at hp
    exact sumX_fin hp _ (List.mem_map_of_mem (List.mem_filter.2 ⟨hd, by simp [e]⟩))
  refine ⟨hdp, V, ?_⟩
  -- the reported energy
  obtain ⟨ds, po, I⟩ := transition_ok h
  have hdt : s'.deltaT = .fin t := by
    obtain ⟨s0, h0, hc0⟩ := hs
    rw [hsc.dt, hc0.dt]
    obtain ⟨_, buses, branches, devices, bl, brl, dl, _, rfl⟩ := mkSim_ok.1 h0
    rfl
  have he : out.eLoss = .fin ((s'.devices.map fun d =>
      (if d.isGen || d.isLoad then finVal d.p else 0) + curtailed d).sum * t) := by
    have := I.reward
    simp only [Sim.computeReward, bind_ok, pure_ok, Prod.mk.injEq] at this
    obtain ⟨_, _, _, h2, _⟩ := this
    rw [← h2, X.zero_def, eLoss_fold hdp hpot, hdt, X.fin_mul_fin, zero_add]
  refine ⟨_, hV, he, ?_⟩
  -- total device power = total bus power
  have h1 : (s'.devices.map fun d => finVal d.p).sum = (s'.buses.map fun b => finVal b.p).sum := by
    rw [← sum_by_bus ho'.buses s'.devices ho'.busOf]
    congr 1
    refine List.map_congr_left fun b hb => ?_
    have e : sumX ((devicesAt s' b.id).map Device.p) = .fin _ :=
      sumX_of_fin fun d hd => fin_finVal (hdp d (List.mem_filter.1 hd).1)
    rw [hsum b hb, e]
    rfl
  have h2 := split_storage s'.devices
  -- total bus power against the losses
  obtain ⟨g1, g2, _⟩ := simOf_lines hn hs hm hl
  have hloss : (s'.buses.map fun b => (V b.id * conj (leaving ls V b.id)).re).sum =
      (ls.map fun l => loss l V).sum := by
    let v : Fin (m + 1) → ℂ := fun k => V (k : ℕ)
    have hat : ∀ k : ℤ, 0 ≤ k ∧ k < (m + 1 : ℕ) → atId v k = V k := by
      intro k hk
      obtain ⟨k', rfl⟩ := Int.eq_ofNat_of_zero_le hk.1
      exact atId_nat v ⟨k', by exact_mod_cast hk.2⟩
    have e1 : ∀ l ∈ ls, atId v l.fBus = V l.fBus ∧ atId v l.tBus = V l.tBus := fun l hl' =>
      ⟨hat _ (g2 l hl').1, hat _ (g2 l hl').2⟩
    have e2 : ∀ k, leaving ls V k = leaving ls (atId v) k := by
      intro k
      unfold leaving
      congr 1
      refine List.map_congr_left fun l hl' => ?_
      rw [(e1 l hl').1, (e1 l hl').2]
    have e3 : (ls.map fun l => loss l V) = ls.map fun l => loss l (atId v) := by
      refine List.map_congr_left fun l hl' => ?_
      unfold loss
      rw [(e1 l hl').1, (e1 l hl').2]
    rw [e3, ← (C31_total_losses hn hs hm hl v).1]
    have e4 : (s'.buses.map fun b => (V b.id * conj (leaving ls V b.id)).re) =
        ((s'.buses.map Bus.id).map fun k => (V k * conj (leaving ls V k)).re) := by
      rw [List.map_map]; rfl
    rw [e4, hm'.ids, List.map_map, list_range_sum]
    refine Finset.sum_congr rfl fun k _ => ?_
    rw [C29_kirchhoff hn hs hm hl v k, ← e2]
    rfl
  have hdiff : |(s'.buses.map fun b => finVal b.p).sum - (ls.map fun l => loss l V).sum| ≤ m * 1e-5 := by
    rw [← hloss]
    have e1 : ∀ l : List (Bus ℝ), (∀ b ∈ l, |finVal b.p - (V b.id * conj (leaving ls V b.id)).re| ≤
        if b.id = 0 then (0 : ℝ) else 1e-5) →
        |(l.map fun b => finVal b.p).sum - (l.map fun b => (V b.id * conj (leaving ls V b.id)).re).sum| ≤
        ((l.map Bus.id).map fun k => if k = 0 then (0 : ℝ) else 1e-5).sum := by
      intro l hl'
      induction l with
      | nil => simp
      | cons b l ih =>
        have a1 := hl' b (by simp)
        have a2 := ih fun b hb => hl' b (by simp [hb])
        simp only [List.map_cons, List.sum_cons]
        calc _ = |(finVal b.p - (V b.id * conj (leaving ls V b.id)).re) +
              ((l.map fun b => finVal b.p).sum -
                (l.map fun b => (V b.id * conj (leaving ls V b.id)).re).sum)| := by ring_nf
          _ ≤ _ := (abs_add_le _ _).trans (add_le_add a1 a2)
    refine (e1 s'.buses ?_).trans (le_of_eq ?_)
    · intro b hb
      cases hbs : b.isSlack with
      | true =>
        have e := (hm'.slack b hb).1 hbs
        rw [(hV.slack b hb hbs).1, if_pos e, e]
        simp [finVal]
      | false =>
        obtain ⟨p, q, hp, _, hre, _⟩ := hbal b hb hbs
        have : b.id ≠ 0 := fun e => by rw [(hm'.slack b hb).2 e] at hbs; cases hbs
        rw [hp, if_neg this, abs_sub_comm]
        exact hre
    · rw [hm'.ids, sum_range_ite]
  rw [h2, h1]
  have : ∀ A B C D : ℝ, (A + B - C) * t - t * (D + B - C) = t * (A - D) := by intros; ring
  rw [this, abs_mul, abs_of_nonneg ht]
  exact mul_le_mul_of_nonneg_left hdiff ht

end

end Anm
