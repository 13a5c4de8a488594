import Verif.Model.Rounding
import Verif.Props.EnvStep
import Verif.Props.SlackPower

/-! # C132: the guarantees that survive the rounding of floating-point arithmetic

The theorems hold for every rounding that satisfies `Spec.IsRounding`, in particular for round-to-nearest of IEEE 754
binary64, where results above the largest float become infinite. -/

set_option linter.unusedSectionVars false

namespace Anm

variable {K : Type} [Field K] [LinearOrder K] [IsStrictOrderedRing K]

namespace Spec

/-- A rounding of the extended numbers: NaN exactly from NaN, monotone, symmetric about 0, idempotent. -/
structure IsRounding (fl : X K → X K) : Prop where
  nan : fl .nan = .nan
  number : ∀ x, X.NotNan x → X.NotNan (fl x)
  mono : ∀ x y, x ≤ y → fl x ≤ fl y
  neg : ∀ x, fl (-x) = -fl x
  zero : fl 0 = 0
  idem : ∀ x, fl (fl x) = fl x

/-- A storage unit with finite energy limits, a level between them, and an efficiency in (0, 1]. -/
def StorageOk (d : Device K) : Prop :=
  ∃ soc lo hi e : K, d.soc = some (.fin soc) ∧ d.socMin = .fin lo ∧ d.socMax = .fin hi ∧ d.eff = .fin e ∧
    lo ≤ soc ∧ soc ≤ hi ∧ 0 < e ∧ e ≤ 1

/-- The solver of the projections returns finite active powers. -/
def QPFinite (qp : QP K) : Prop := ∀ rows r x, qp rows r = some x → X.IsFin x.1

/-- A run of rounded time steps, with arbitrary inputs at every step. -/
inductive RunR (fl : X K → X K) (c : Ctx K) : Sim K → Sim K → Prop where
  | refl (s : Sim K) : RunR fl c s s
  | step {s s' s'' : Sim K} (a : Sim.Args K) : RunR fl c s s' → s'.solveStepR fl c a = .ok s'' → RunR fl c s s''

end Spec

open Spec

/-! ## The rounded functions are those of the model when nothing is rounded -/

theorem updateSocR_id (d : Device K) (dt : X K) : d.updateSocR id dt = d.updateSoc dt := rfl

theorem stepDeviceR_id (qp : QP K) (b dt : X K) (a : Sim.Args K) (d : Device K) :
    Sim.stepDeviceR id qp b dt a d = Sim.stepDevice qp b dt a d := rfl

/-- Without rounding, the rounded step is the step of the model. -/
theorem C132_solve_id (c : Ctx K) (s : Sim K) (a : Sim.Args K) : s.solveStepR id c a = s.solveStep c a := rfl

/-- Without rounding, the rounded costs are those of the model. -/
theorem C132_reward_id (s : Sim K) : s.computeRewardR id = s.computeReward := rfl

/-- Without rounding, the rounded clipping is that of the model. -/
theorem C132_clip_id {ρ : Type} (e : Env K ρ) (x y : X K) : e.rewardOf true x y = .ok (rewardOfR id e.c1 e.c2 x y) := rfl

/-! ## Numbers -/

namespace X

theorem fin_sub_notNan {a : K} {x : X K} (h : NotNan x) : NotNan (fin a - x) := by
  cases x <;> first | exact h | exact trivial

theorem clip_fin_cases {w : X K} {lo hi : K} (hw : NotNan w) (h : lo ≤ hi) :
    ∃ z, clip w (fin lo) (fin hi) = fin z ∧ lo ≤ z ∧ z ≤ hi ∧
      (w = fin z ∨ (z = lo ∧ w ≤ fin lo) ∨ (z = hi ∧ fin hi ≤ w)) := by
  cases w with
  | nan => simp at hw
  | pinf => exact ⟨hi, clip_eq_hi (x := pinf) (lo := fin lo) h trivial, h, le_rfl, Or.inr (Or.inr ⟨rfl, trivial⟩)⟩
  | ninf => exact ⟨lo, clip_eq_lo (x := ninf) (hi := fin hi) h trivial, le_rfl, h, Or.inr (Or.inl ⟨rfl, trivial⟩)⟩
  | fin w =>
    rcases le_total w lo with h1 | h1
    · exact ⟨lo, clip_eq_lo (x := fin w) (hi := fin hi) h h1, le_rfl, h, Or.inr (Or.inl ⟨rfl, h1⟩)⟩
    rcases le_total w hi with h2 | h2
    · exact ⟨w, clip_eq_self h1 h2, h1, h2, Or.inl rfl⟩
    · exact ⟨hi, clip_eq_hi (x := fin w) (lo := fin lo) h h2, h, le_rfl, Or.inr (Or.inr ⟨rfl, h2⟩)⟩

theorem sum_le {a b : X K} {x y : K} (h1 : a ≤ fin x) (h2 : b ≤ fin y) : a + b ≤ fin (x + y) := by
  cases a <;> cases b <;> simp_all
  · trivial
  · trivial
  · trivial
  · exact add_le_add h1 h2

theorem le_sum {a b : X K} {x y : K} (h1 : fin x ≤ a) (h2 : fin y ≤ b) : fin (x + y) ≤ a + b := by
  cases a <;> cases b <;> simp_all
  · exact add_le_add h1 h2
  all_goals trivial

theorem fin_le_sub {a : K} {x : X K} (h : x ≤ 0) : fin a ≤ fin a - x := by
  cases x with
  | fin x => simp only [zero_def, fin_le_fin, fin_sub_fin] at h ⊢; linarith
  | nan => simp at h
  | pinf => simp [zero_def] at h
  | ninf => exact trivial

theorem sub_le_fin {a : K} {x : X K} (h : 0 ≤ x) : fin a - x ≤ fin a := by
  cases x with
  | fin x => simp only [zero_def, fin_le_fin, fin_sub_fin] at h ⊢; linarith
  | nan => simp at h
  | ninf => simp [zero_def] at h
  | pinf => exact trivial

theorem div_nonneg {x : X K} {e : K} (he : 0 < e) (h : 0 ≤ x) : 0 ≤ x / fin e := by
  cases x with
  | fin x => rw [fin_div_fin he.ne']; exact _root_.div_nonneg h he.le
  | nan => simp at h
  | ninf => simp [zero_def] at h
  | pinf => rw [pinf_div he]; trivial

theorem div_pos_notNan {x : X K} {e : K} (he : 0 < e) (h : NotNan x) : NotNan (x / fin e) := div_notNan he h

end X

theorem fl_mul_finite {fl : X K → X K} (hf : IsRounding fl) {t e : K} (ht : 0 < t) (hr : fl (.fin t) = .fin t)
    (he : 0 < e) (he1 : e ≤ 1) : ∃ y, fl (.fin t * .fin e) = .fin y ∧ 0 ≤ y := by
  have h0 : (0 : X K) ≤ .fin t * .fin e := (mul_pos ht he).le
  have h1 : (.fin t * .fin e : X K) ≤ .fin t := by
    simp only [X.fin_mul_fin, X.fin_le_fin]
    exact mul_le_of_le_one_right ht.le he1
  have a := hf.mono _ _ h0
  have b := hf.mono _ _ h1
  rw [hf.zero] at a
  rw [hr] at b
  revert a b
  generalize fl (.fin t * .fin e) = z
  intro a b
  cases z with
  | fin y => exact ⟨y, rfl, a⟩
  | nan => simp at b
  | pinf => simp at b
  | ninf => simp [X.zero_def] at a

/-- The value that is clipped by the rounded update is a number. -/
theorem socR_number {fl : X K → X K} (hf : IsRounding fl) {t e p soc : K} (ht : 0 < t) (hr : fl (.fin t) = .fin t)
    (he : 0 < e) (he1 : e ≤ 1) :
    X.NotNan (fl (.fin soc - fl (fl (.fin t * .fin e) * .fin p))) ∧
      X.NotNan (fl (.fin soc - fl (fl (.fin t * .fin p) / .fin e))) := by
  constructor
  · obtain ⟨y, hy, _⟩ := fl_mul_finite hf ht hr he he1
    rw [hy]
    exact hf.number _ (X.fin_sub_notNan (hf.number _ trivial))
  · exact hf.number _ (X.fin_sub_notNan (hf.number _ (X.div_pos_notNan he (hf.number _ trivial))))

/-! ## The level of a storage unit -/

/-- One rounded update of a unit whose quantities are finite. -/
theorem updateSocR_ok {fl : X K → X K} {d d' : Device K} {t p soc lo hi e : K} (hp : d.p = .fin p)
    (h1 : d.soc = some (.fin soc)) (h2 : d.socMin = .fin lo) (h3 : d.socMax = .fin hi) (h4 : d.eff = .fin e)
    (h : d.updateSocR fl (.fin t) = .ok d') :
    d'.socMin = .fin lo ∧ d'.socMax = .fin hi ∧ d'.eff = .fin e ∧
      d'.soc = some (X.clip (if p ≤ 0 then fl (.fin soc - fl (fl (.fin t * .fin e) * .fin p))
        else fl (.fin soc - fl (fl (.fin t * .fin p) / .fin e))) (.fin lo) (.fin hi)) := by
  unfold Device.updateSocR at h
  rw [h1] at h
  injection h with h
  subst h
  refine ⟨h2, h3, h4, ?_⟩
  simp only [hp, h2, h3, h4, X.zero_def, X.fin_le_fin]

/-- **C132, level.** Whatever the rounding and the (finite) power, the level after an update lies between the two
limits of the unit. -/
theorem C132_level {fl : X K → X K} (hf : IsRounding fl) {d d' : Device K} {t p : K} (hd : StorageOk d) (ht : 0 < t)
    (hr : fl (.fin t) = .fin t) (hp : d.p = .fin p) (h : d.updateSocR fl (.fin t) = .ok d') :
    StorageOk d' ∧ d'.socMin = d.socMin ∧ d'.socMax = d.socMax := by
  obtain ⟨soc, lo, hi, e, h1, h2, h3, h4, g1, g2, g3, g4⟩ := hd
  obtain ⟨n1, n2⟩ := socR_number hf (p := p) (soc := soc) ht hr g3 g4
  obtain ⟨k1, k2, k3, k4⟩ := updateSocR_ok hp h1 h2 h3 h4 h
  have hx : X.NotNan (if p ≤ 0 then fl (.fin soc - fl (fl (.fin t * .fin e) * .fin p))
      else fl (.fin soc - fl (fl (.fin t * .fin p) / .fin e))) := by split_ifs <;> assumption
  obtain ⟨z, z1, z2, z3, _⟩ := X.clip_fin_cases hx (g1.trans g2)
  rw [z1] at k4
  exact ⟨⟨z, lo, hi, e, k4, k1, k2, k3, z2, z3, g3, g4⟩, k1.trans h2.symm, k2.trans h3.symm⟩

/-- **C132, direction.** Charging (a nonpositive power) never lowers the level and discharging never raises it,
whatever the rounding, provided that the current level and the limits are themselves rounded numbers; the next level
is then a rounded number as well. -/
theorem C132_direction {fl : X K → X K} (hf : IsRounding fl) {d d' : Device K} {t p soc soc' : K} (hd : StorageOk d)
    (ht : 0 < t) (hr : fl (.fin t) = .fin t) (hp : d.p = .fin p) (hs : d.soc = some (.fin soc))
    (hrs : fl (.fin soc) = .fin soc) (h : d.updateSocR fl (.fin t) = .ok d') (hs' : d'.soc = some (.fin soc')) :
    (p ≤ 0 → soc ≤ soc') ∧ (0 ≤ p → soc' ≤ soc) ∧
      (fl d.socMin = d.socMin → fl d.socMax = d.socMax → fl (.fin soc') = .fin soc') := by
  obtain ⟨_, lo, hi, e, h1, h2, h3, h4, g1, g2, g3, g4⟩ := hd
  rw [hs] at h1
  injection h1 with h1
  injection h1 with h1
  subst h1
  obtain ⟨n1, n2⟩ := socR_number hf (p := p) (soc := soc) ht hr g3 g4
  obtain ⟨y, hy, hy0⟩ := fl_mul_finite hf ht hr g3 g4
  obtain ⟨k1, k2, k3, k4⟩ := updateSocR_ok hp hs h2 h3 h4 h
  rw [hs'] at k4
  have k4 := Option.some.inj k4
  have up : p ≤ 0 → (.fin soc : X K) ≤ fl (.fin soc - fl (fl (.fin t * .fin e) * .fin p)) := by
    intro hp0
    have := hf.mono _ _ (show (fl (.fin t * .fin e) * .fin p : X K) ≤ 0 by
      rw [hy]; exact mul_nonpos_of_nonneg_of_nonpos hy0 hp0)
    rw [hf.zero] at this
    have := hf.mono _ _ (X.fin_le_sub (a := soc) this)
    rwa [hrs] at this
  have down : 0 ≤ p → fl (.fin soc - fl (fl (.fin t * .fin p) / .fin e)) ≤ .fin soc := by
    intro hp0
    have := hf.mono _ _ (show (0 : X K) ≤ .fin t * .fin p from mul_nonneg ht.le hp0)
    rw [hf.zero] at this
    have := hf.mono _ _ (X.div_nonneg g3 this)
    rw [hf.zero] at this
    have := hf.mono _ _ (X.sub_le_fin (a := soc) this)
    rwa [hrs] at this
  refine ⟨fun hp0 => ?_, fun hp0 => ?_, fun e1 e2 => ?_⟩
  · rw [if_pos hp0] at k4
    obtain ⟨z, z1, z2, z3, zc⟩ := X.clip_fin_cases n1 (g1.trans g2)
    rw [z1] at k4
    injection k4 with k4
    subst k4
    have u := up hp0
    rcases zc with w | ⟨w1, w2⟩ | ⟨w1, w2⟩
    · rw [w] at u; exact u
    · exact X.fin_le_fin.1 (w1 ▸ X.le_trans' u w2)
    · rw [w1]; exact g2
  · by_cases hp1 : p ≤ 0
    · have : p = 0 := le_antisymm hp1 hp0
      subst this
      rw [if_pos le_rfl, hy, X.fin_mul_fin, mul_zero, ← X.zero_def, hf.zero, X.zero_def, X.fin_sub_fin, sub_zero, hrs,
        X.clip_eq_self (show (X.fin lo : X K) ≤ .fin soc from g1) g2] at k4
      injection k4 with k4
      exact k4.le
    · rw [if_neg hp1] at k4
      obtain ⟨z, z1, z2, z3, zc⟩ := X.clip_fin_cases n2 (g1.trans g2)
      rw [z1] at k4
      injection k4 with k4
      subst k4
      have u := down hp0
      rcases zc with w | ⟨w1, w2⟩ | ⟨w1, w2⟩
      · rw [w] at u; exact u
      · rw [w1]; exact g1
      · exact X.fin_le_fin.1 (w1 ▸ X.le_trans' w2 u)
  · have hx : X.NotNan (if p ≤ 0 then fl (.fin soc - fl (fl (.fin t * .fin e) * .fin p))
        else fl (.fin soc - fl (fl (.fin t * .fin p) / .fin e))) := by split_ifs <;> assumption
    obtain ⟨z, z1, z2, z3, zc⟩ := X.clip_fin_cases hx (g1.trans g2)
    rw [z1] at k4
    injection k4 with k4
    subst k4
    rcases zc with w | ⟨w1, w2⟩ | ⟨w1, w2⟩
    · rw [← w]; split_ifs <;> exact hf.idem _
    · rw [w1, ← h2]; exact e1
    · rw [w1, ← h3]; exact e2

/-! ## Whole runs -/

theorem stepDeviceR_storage {fl : X K → X K} (hf : IsRounding fl) {qp : QP K} (hq : QPFinite qp) {b : X K} {t : K}
    (ht : 0 < t) (hr : fl (.fin t) = .fin t) {a : Sim.Args K} {d d' : Device K}
    (h : Sim.stepDeviceR fl qp b (.fin t) a d = .ok d') (hd : d.isStorage = true → StorageOk d) :
    d'.kind = d.kind ∧ d'.isSlack = d.isSlack ∧ (d'.isStorage = true → StorageOk d') := by
  unfold Sim.stepDeviceR at h
  split_ifs at h with h1 h2 h3 h4
  · simp only [bind_ok, pure_ok] at h
    obtain ⟨x, _, rfl⟩ := h
    refine ⟨rfl, rfl, fun hs => ?_⟩
    have hs : d.isStorage = true := hs
    cases hk : d.kind <;> simp_all [Device.isLoad, Device.isStorage]
  · simp only [bind_ok, Device.mapGen, Device.project] at h
    obtain ⟨x, _, y, _, z, _, h⟩ := h
    split at h
    · cases h
    · injection h with h
      subst h
      refine ⟨rfl, rfl, fun hs => ?_⟩
      obtain ⟨soc, lo, hi, e, g⟩ := hd hs
      exact ⟨soc, lo, hi, e, g⟩
  · simp only [bind_ok, Device.mapStorage, Device.project] at h
    obtain ⟨x, _, y, _, d1, ⟨rows, _, hm⟩, h⟩ := h
    split at hm
    · cases hm
    · rename_i p' q' hx
      injection hm with hm
      subst hm
      have hfin := hq _ _ _ hx
      obtain ⟨p, hp⟩ : ∃ p, p' = .fin p := by
        cases p' with
        | fin p => exact ⟨p, rfl⟩
        | nan => cases hfin
        | pinf => cases hfin
        | ninf => cases hfin
      have hk : d'.kind = d.kind ∧ d'.isSlack = d.isSlack := by
        unfold Device.updateSocR at h
        split at h
        · cases h
        · injection h with h
          subst h
          exact ⟨rfl, rfl⟩
      obtain ⟨soc, lo, hi, e, g⟩ := hd h3
      exact ⟨hk.1, hk.2, fun _ => (C132_level hf (d := { d with p := p', q := q' }) ⟨soc, lo, hi, e, g⟩ ht hr hp h).1⟩
  · cases h
    exact ⟨rfl, rfl, fun hs => by obtain ⟨soc, lo, hi, e, g⟩ := hd hs; exact ⟨soc, lo, hi, e, g⟩⟩
  · cases h
    exact ⟨rfl, rfl, hd⟩

theorem solveStepR_ok {fl : X K → X K} {c : Ctx K} {s s' : Sim K} {a : Sim.Args K} (h : s.solveStepR fl c a = .ok s') :
    ∃ ds, List.Forall₂ (fun d d' => Sim.stepDeviceR fl c.qp s.baseMVA s.deltaT a d = .ok d') s.devices ds ∧
      List.Forall₂ (fun d d' => d' = d ∨ ∃ p q, d.isSlack = true ∧ d' = { d with p := p, q := q }) ds s'.devices ∧
      s'.baseMVA = s.baseMVA ∧ s'.deltaT = s.deltaT ∧ s'.lamb = s.lamb := by
  simp only [Sim.solveStepR, bind_ok, pure_ok] at h
  obtain ⟨ds, hds, o, _, s1, h1, rfl⟩ := h
  have I := applyPF_ok h1
  refine ⟨ds, mapE_ok.1 hds, I.devices.imp fun d d' hd => ?_, I.base, I.dt, I.lamb⟩
  by_cases hs : d.isSlack = true
  · obtain ⟨b, _, rfl⟩ := hd.2 hs
    exact Or.inr ⟨_, _, hs, rfl⟩
  · exact Or.inl (hd.1 (by simpa using hs))

/-- **C132, runs.** However many time steps are simulated, with whatever inputs, load flow and rounding, the level of
every storage unit stays finite and between its limits. -/
theorem C132_run {fl : X K → X K} (hf : IsRounding fl) {c : Ctx K} (hq : QPFinite c.qp) {s s' : Sim K} {t : K}
    (ht : 0 < t) (hr : fl (.fin t) = .fin t) (hdt : s.deltaT = .fin t)
    (hd : ∀ d ∈ s.devices, d.isStorage = true → StorageOk d) (h : RunR fl c s s') :
    ∀ d ∈ s'.devices, d.isStorage = true → StorageOk d := by
  suffices H : s'.deltaT = .fin t ∧ ∀ d ∈ s'.devices, d.isStorage = true → StorageOk d from H.2
  induction h with
  | refl => exact ⟨hdt, hd⟩
  | step a _ hst ih =>
    obtain ⟨i1, i2⟩ := ih
    obtain ⟨ds, f1, f2, _, e2, _⟩ := solveStepR_ok hst
    refine ⟨e2.trans i1, fun d hd' hs => ?_⟩
    obtain ⟨d1, m1, r1⟩ := forall₂_mem_right f2 hd'
    obtain ⟨d0, m0, r0⟩ := forall₂_mem_right f1 m1
    rw [i1] at r0
    obtain ⟨_, _, k3⟩ := stepDeviceR_storage hf hq ht hr r0 (i2 d0 m0)
    rcases r1 with rfl | ⟨p, q, _, rfl⟩
    · exact k3 hs
    · obtain ⟨soc, lo, hi, e, g⟩ := k3 hs
      exact ⟨soc, lo, hi, e, g⟩

/-- **C132, loads and potentials.** After a rounded step whose inputs are numbers, every load consumes within its
limits and every non-slack generator has its potential within its limits. -/
theorem C132_limits {fl : X K → X K} (hf : IsRounding fl) {c : Ctx K} {s s' : Sim K} {a : Sim.Args K} {b : K}
    (hb : 0 < b) (hbase : s.baseMVA = .fin b) (hl : ∀ i x, a.pLoad.getE i = .ok x → X.NotNan x)
    (hg : ∀ i x, a.pPot.getE i = .ok x → X.NotNan x) (hlim : ∀ d ∈ s.devices, d.pMin ≤ d.pMax)
    (h : s.solveStepR fl c a = .ok s') :
    ∀ d ∈ s'.devices, d.isSlack = false → (d.isLoad = true → d.pMin ≤ d.p ∧ d.p ≤ d.pMax) ∧
      (d.isNonSlackGen = true → d.pMin ≤ d.pPot ∧ d.pPot ≤ d.pMax) := by
  intro d hd hns
  obtain ⟨ds, f1, f2, _⟩ := solveStepR_ok h
  obtain ⟨d1, m1, r1⟩ := forall₂_mem_right f2 hd
  rcases r1 with rfl | ⟨p, q, hsl, rfl⟩
  swap
  · have : d1.isSlack = false := hns
    rw [hsl] at this
    cases this
  obtain ⟨d0, m0, r0⟩ := forall₂_mem_right f1 m1
  rw [hbase] at r0
  unfold Sim.stepDeviceR at r0
  split_ifs at r0 with h1 h2 h3 h4
  · simp only [bind_ok, pure_ok] at r0
    obtain ⟨x, hx, rfl⟩ := r0
    refine ⟨fun _ => X.clip_mem (hf.number _ (X.div_notNan hb (hl _ _ hx))) (hlim d0 m0), fun hn => ?_⟩
    have hn : d0.isNonSlackGen = true := hn
    cases hk : d0.kind <;> simp_all [Device.isLoad, Device.isNonSlackGen, Device.isGen]
  · simp only [bind_ok, Device.mapGen, Device.project] at r0
    obtain ⟨x, hx, y, _, z, _, r0⟩ := r0
    split at r0
    · cases r0
    · injection r0 with r0
      subst r0
      refine ⟨fun hn => absurd hn h1, fun _ => ?_⟩
      have m := X.clip_mem (hf.number _ (X.div_notNan hb (hg _ _ hx))) (hlim _ m0)
      have : X.NotNan (X.clip (fl (x / .fin b)) d0.pMin d0.pMax) := by
        have := m.1
        revert this
        generalize X.clip (fl (x / .fin b)) d0.pMin d0.pMax = w
        intro hw
        cases w <;> first | trivial | (cases d0.pMin <;> simp_all)
      exact X.clip_mem this (hlim d0 m0)
  · simp only [bind_ok, Device.mapStorage, Device.project] at r0
    obtain ⟨x, _, y, _, dd, ⟨rows, _, hm⟩, r0⟩ := r0
    split at hm
    · cases hm
    · injection hm with hm
      subst hm
      unfold Device.updateSocR at r0
      split at r0
      · cases r0
      · injection r0 with r0
        subst r0
        exact ⟨fun hn => absurd hn h1, fun hn => absurd hn h2⟩
  · cases r0
    exact ⟨fun hn => absurd hn h1, fun hn => absurd hn h2⟩
  · cases r0
    exact ⟨fun hn => absurd hn h1, fun hn => absurd hn h2⟩

/-! ## Costs -/

namespace X

/-- NaN or nonnegative. -/
def NanOrNonneg (x : X K) : Prop := NotNan x → 0 ≤ x

theorem NanOrNonneg.add {x y : X K} (hx : NanOrNonneg x) (hy : NanOrNonneg y) : NanOrNonneg (x + y) := by
  intro h
  obtain ⟨h1, h2⟩ := add_notNan h
  have a := hx h1
  have b := hy h2
  clear h h1 h2 hx hy
  cases x <;> cases y <;> simp_all [zero_def]
  · exact add_nonneg a b
  all_goals trivial

theorem NanOrNonneg.mul {x y : X K} (hx : NanOrNonneg x) (hy : NanOrNonneg y) : NanOrNonneg (x * y) := by
  intro h
  cases x with
  | nan => exact h.elim
  | ninf => exact absurd (hx trivial) (by simp [zero_def])
  | fin x =>
    have a : 0 ≤ x := hx trivial
    cases y with
    | nan => exact h.elim
    | ninf => exact absurd (hy trivial) (by simp [zero_def])
    | fin y => exact mul_nonneg a (hy trivial)
    | pinf =>
      have e : (fin x * pinf : X K) = infOf (sgn (fin x) * 1) := rfl
      rw [e] at h ⊢
      rcases a.eq_or_lt with rfl | a
      · exact absurd h (by simp [infOf, sgn])
      · simp [infOf, sgn, a, zero_def]
  | pinf =>
    cases y with
    | nan => exact h.elim
    | ninf => exact absurd (hy trivial) (by simp [zero_def])
    | pinf => exact trivial
    | fin y =>
      have a : 0 ≤ y := hy trivial
      have e : (pinf * fin y : X K) = infOf (1 * sgn (fin y)) := rfl
      rw [e] at h ⊢
      rcases a.eq_or_lt with rfl | a
      · exact absurd h (by simp [infOf, sgn])
      · simp [infOf, sgn, a, zero_def]

theorem NanOrNonneg.fl {fl : X K → X K} (hf : IsRounding fl) {x : X K} (hx : NanOrNonneg x) : NanOrNonneg (fl x) := by
  intro h
  have : NotNan x := by
    cases x with
    | nan => rw [hf.nan] at h; exact h
    | _ => trivial
  have := hf.mono _ _ (hx this)
  rwa [hf.zero] at this

theorem NanOrNonneg.maximum (x : X K) : NanOrNonneg (X.maximum 0 x) := by
  intro h
  unfold X.maximum at h ⊢
  rw [if_neg (by simp [zero_def])] at h ⊢
  by_cases h2 : x = nan
  · rw [if_pos h2] at h; exact h.elim
  rw [if_neg h2] at h ⊢
  by_cases h3 : x ≤ 0
  · rw [if_pos h3]; simp [zero_def]
  rw [if_neg h3]
  cases x with
  | nan => simp at h2
  | ninf => exact absurd (show (ninf : X K) ≤ 0 from trivial) h3
  | pinf => trivial
  | fin x => exact (not_le.1 h3).le

theorem NanOrNonneg.foldl {α : Type} {fl : X K → X K} (hf : IsRounding fl) (g : α → X K) (l : List α)
    (hg : ∀ x ∈ l, NanOrNonneg (g x)) {z : X K} (hz : NanOrNonneg z) :
    NanOrNonneg (l.foldl (fun a x => fl (a + g x)) z) := by
  induction l generalizing z with
  | nil => exact hz
  | cons x l ih =>
    exact ih (fun y hy => hg y (List.mem_cons_of_mem _ hy)) ((hz.add (hg x List.mem_cons_self)).fl hf)

end X

/-- **C132, penalty.** With nonnegative step length and weight, the rounded penalty is NaN or nonnegative, whatever the
voltages and flows are. -/
theorem C132_penalty {fl : X K → X K} (hf : IsRounding fl) {s : Sim K} {r el pen : X K} (ht : 0 ≤ s.deltaT)
    (hl : 0 ≤ s.lamb) (h : s.computeRewardR fl = .ok (r, el, pen)) :
    r = -(fl (el + pen)) ∧ (X.NotNan pen → 0 ≤ pen) := by
  simp only [Sim.computeRewardR, bind_ok, pure_ok, Prod.mk.injEq] at h
  obtain ⟨bp, hbp, rfl, rfl, rfl⟩ := h
  refine ⟨rfl, X.NanOrNonneg.fl hf (X.NanOrNonneg.mul ?_ (X.NanOrNonneg.fl hf (X.NanOrNonneg.mul (fun _ => ht) fun _ => hl)))⟩
  refine X.NanOrNonneg.foldl hf _ _ (fun b _ => X.NanOrNonneg.maximum _) (X.NanOrNonneg.foldl hf (fun x => x) _ ?_ fun _ => ?_)
  · intro x hx
    obtain ⟨b, _, hb⟩ := forall₂_mem_right (mapE_ok.1 hbp) hx
    unfold Sim.busPenaltyR at hb
    split at hb
    · cases hb
    · injection hb with hb
      subst hb
      exact X.NanOrNonneg.fl hf ((X.NanOrNonneg.maximum _).add (X.NanOrNonneg.maximum _))
  · simp [X.zero_def]

theorem fl_excess {fl : X K → X K} (hf : IsRounding fl) {x y : X K} (hx : X.IsFin x) (h : x ≤ y) :
    X.maximum 0 (fl (x - y)) = 0 := by
  have h0 : x - y ≤ 0 := by
    cases x <;> cases y <;> simp_all [X.IsFin, X.zero_def]
    trivial
  have := hf.mono _ _ h0
  rw [hf.zero] at this
  revert this
  generalize fl (x - y) = w
  intro hw
  unfold X.maximum
  rw [if_neg (by simp [X.zero_def]), if_neg (by rintro rfl; simp at hw), if_pos hw]

/-- **C132, no violation.** If all voltage magnitudes and apparent flows are finite and within their limits, the
rounded penalty is exactly 0: rounding never makes a network within its limits pay. -/
theorem C132_no_violation {fl : X K → X K} (hf : IsRounding fl) {s : Sim K} {r el pen : X K}
    (hw : X.IsFin (fl (s.deltaT * s.lamb)))
    (hb : ∀ b ∈ s.buses, X.IsFin b.v.abs ∧ b.v.abs ≤ b.vMax ∧ ∀ v, b.vMin = some v → X.IsFin v ∧ v ≤ b.v.abs)
    (hr : ∀ b ∈ s.branches, X.IsFin b.flow.sApparentMax ∧ X.abs b.flow.sApparentMax ≤ b.line.rate)
    (h : s.computeRewardR fl = .ok (r, el, pen)) : pen = 0 := by
  simp only [Sim.computeRewardR, bind_ok, pure_ok, Prod.mk.injEq] at h
  obtain ⟨bp, hbp, rfl, rfl, rfl⟩ := h
  have z0 : fl ((0 : X K) + 0) = 0 := by
    rw [X.zero_def, X.fin_add_fin, add_zero, ← X.zero_def, hf.zero]
  have zf : ∀ {α : Type} (g : α → X K) (l : List α), (∀ x ∈ l, g x = 0) → l.foldl (fun a x => fl (a + g x)) 0 = 0 := by
    intro α g l
    induction l with
    | nil => intro _; rfl
    | cons x l ih =>
      intro hg
      rw [List.foldl_cons, hg x List.mem_cons_self, z0]
      exact ih fun y hy => hg y (List.mem_cons_of_mem _ hy)
  have z1 : bp.foldl (fun a x => fl (a + x)) 0 = 0 := by
    refine zf (fun x => x) bp fun x hx => ?_
    obtain ⟨b, hb', hbx⟩ := forall₂_mem_right (mapE_ok.1 hbp) hx
    obtain ⟨f1, f2, f3⟩ := hb b hb'
    unfold Sim.busPenaltyR at hbx
    split at hbx
    · cases hbx
    · rename_i v hv
      injection hbx with hbx
      subst hbx
      rw [fl_excess hf f1 f2, fl_excess hf (f3 v hv).1 (f3 v hv).2, z0]
  rw [z1, zf (fun b => Sim.branchPenaltyR fl b) s.branches fun b hb' => ?_]
  · revert hw
    generalize fl (s.deltaT * s.lamb) = w
    intro hw
    cases w with
    | fin w => rw [X.zero_def, X.fin_mul_fin, zero_mul, ← X.zero_def, hf.zero]
    | nan => cases hw
    | pinf => cases hw
    | ninf => cases hw
  · obtain ⟨f1, f2⟩ := hr b hb'
    refine fl_excess hf ?_ f2
    cases hx : b.flow.sApparentMax <;> rw [hx] at f1 <;> first | (cases f1; done) | exact trivial

/-- **C132, reward.** The costs stored by the environment lie between their clipping values, and the reward between
minus the rounded sum of the two values and the first one. -/
theorem C132_reward {fl : X K → X K} (hf : IsRounding fl) {c1 c2 : K} (h1 : 0 ≤ c1) (h2 : 0 ≤ c2)
    (hr : fl (.fin c1) = .fin c1) {x y : X K} (hx : X.NotNan x) (hy : X.NotNan y) :
    let o := rewardOfR fl (.fin c1) (.fin c2) x y
    (.fin (-c1) ≤ o.2.1 ∧ o.2.1 ≤ .fin c1) ∧ (0 ≤ o.2.2 ∧ o.2.2 ≤ .fin c2) ∧
      -(fl (.fin (c1 + c2))) ≤ o.1 ∧ o.1 ≤ .fin c1 := by
  have P := X.clip_mem hy (show (0 : X K) ≤ .fin c2 from h2)
  obtain ⟨a1, a2, _⟩ := X.clip_energy hx h1
  have hr' : fl (.fin (-c1)) = .fin (-c1) := by
    have := hf.neg (.fin c1)
    rw [hr] at this
    exact this
  have b1 := hf.mono _ _ a1
  have b2 := hf.mono _ _ a2
  rw [hr'] at b1
  rw [hr] at b2
  have mneg : ∀ u v : X K, u ≤ v → -v ≤ -u := by
    intro u v huv
    cases u <;> cases v <;> simp_all
    all_goals trivial
  have s1 := X.sum_le b2 P.2
  have s2 := X.le_sum b1 P.1
  refine ⟨⟨b1, b2⟩, P, mneg _ _ (hf.mono _ _ s1), ?_⟩
  have := mneg _ _ (hf.mono _ _ s2)
  rw [add_zero, hr'] at this
  have e : (-(X.fin (-c1)) : X K) = .fin c1 := by
    show X.fin (- -c1) = _
    rw [neg_neg]
  rw [e] at this
  exact this

/-! ## A rounding: to the nearest multiple of a step, halves away from zero -/

/-- The nearest multiple of `h`. -/
def gridNear (h x : ℚ) : ℚ := if 0 ≤ x then ⌊x / h + 1 / 2⌋ * h else -(⌊-x / h + 1 / 2⌋ * h)

/-- Rounding to a grid, infinities and NaN being kept. -/
def gridFl (h : ℚ) : X ℚ → X ℚ
  | .fin x => .fin (gridNear h x)
  | x => x

theorem gridNear_nonneg {h x : ℚ} (hh : 0 < h) (hx : 0 ≤ x) : 0 ≤ gridNear h x := by
  rw [gridNear, if_pos hx]
  have : 0 ≤ ⌊x / h + 1 / 2⌋ := Int.floor_nonneg.2 (by positivity)
  have : (0 : ℚ) ≤ ⌊x / h + 1 / 2⌋ := by exact_mod_cast this
  positivity

theorem gridNear_mono_nonneg {h x y : ℚ} (hh : 0 < h) (hx : 0 ≤ x) (hxy : x ≤ y) : gridNear h x ≤ gridNear h y := by
  rw [gridNear, gridNear, if_pos hx, if_pos (hx.trans hxy)]
  have : ⌊x / h + 1 / 2⌋ ≤ ⌊y / h + 1 / 2⌋ := Int.floor_le_floor (by gcongr)
  have : (⌊x / h + 1 / 2⌋ : ℚ) ≤ ⌊y / h + 1 / 2⌋ := by exact_mod_cast this
  gcongr

theorem gridNear_zero (h : ℚ) : gridNear h 0 = 0 := by
  have : ⌊(1 / 2 : ℚ)⌋ = 0 := by norm_num
  simp only [gridNear, le_refl, if_true, zero_div, zero_add, this, Int.cast_zero, zero_mul]

theorem gridNear_neg (h x : ℚ) : gridNear h (-x) = -gridNear h x := by
  rcases lt_trichotomy x 0 with hx | rfl | hx
  · rw [gridNear, gridNear, if_pos (by linarith), if_neg (not_le.2 hx), neg_neg]
  · rw [neg_zero, gridNear_zero, neg_zero]
  · rw [gridNear, gridNear, if_neg (by linarith), if_pos hx.le, neg_neg]

theorem gridNear_idem {h x : ℚ} (hh : 0 < h) : gridNear h (gridNear h x) = gridNear h x := by
  have key : ∀ y : ℚ, 0 ≤ y → gridNear h (gridNear h y) = gridNear h y := by
    intro y hy
    have h0 := gridNear_nonneg hh hy
    rw [gridNear, if_pos h0]
    have e : gridNear h y = ⌊y / h + 1 / 2⌋ * h := by rw [gridNear, if_pos hy]
    rw [e, mul_div_assoc, div_self hh.ne', mul_one]
    have : ⌊(⌊y / h + 1 / 2⌋ : ℚ) + 1 / 2⌋ = ⌊y / h + 1 / 2⌋ := by
      rw [Int.floor_intCast_add]
      norm_num
    rw [this]
  rcases le_total 0 x with hx | hx
  · exact key x hx
  · have := key (-x) (by linarith)
    rw [gridNear_neg, gridNear_neg, neg_inj] at this
    exact this

theorem gridFl_rounding {h : ℚ} (hh : 0 < h) : IsRounding (gridFl h) where
  nan := rfl
  number x hx := by cases x <;> exact hx
  mono x y hxy := by
    cases x with
    | nan => exact hxy.elim
    | ninf => cases y <;> exact hxy
    | pinf => cases y <;> exact hxy
    | fin x =>
      cases y with
      | nan => exact hxy.elim
      | ninf => exact hxy.elim
      | pinf => trivial
      | fin y =>
        have hxy : x ≤ y := hxy
        show gridNear h x ≤ gridNear h y
        rcases le_total 0 x with hx | hx
        · exact gridNear_mono_nonneg hh hx hxy
        rcases le_total 0 y with hy | hy
        · have := gridNear_nonneg hh (x := -x) (by linarith)
          rw [gridNear_neg] at this
          linarith [gridNear_nonneg hh hy]
        · have := gridNear_mono_nonneg hh (x := -y) (y := -x) (by linarith) (by linarith)
          rw [gridNear_neg, gridNear_neg] at this
          linarith
  neg x := by
    cases x with
    | fin x => exact congrArg X.fin (gridNear_neg h x)
    | _ => rfl
  zero := congrArg X.fin (gridNear_zero h)
  idem x := by
    cases x with
    | fin x => exact congrArg X.fin (gridNear_idem hh)
    | _ => rfl

/-! ## Cases that meet the hypotheses, and what rounding does break -/

/-- A lossless storage unit of 10 MWh that holds 5 MWh. -/
def unitR : Device ℚ :=
  { id := 1, busId := 1, kind := .storage, isSlack := false, pMin := .fin (-10), pMax := .fin 10, qMin := .fin (-1), qMax := .fin 1,
    socMin := .fin 0, socMax := .fin 10, eff := .fin 1, p := .fin 0, q := .fin 0, soc := some (.fin 5) }

theorem unitR_ok : StorageOk unitR := ⟨5, 0, 10, 1, rfl, rfl, rfl, rfl, by norm_num, by norm_num, by norm_num, by norm_num⟩

/-- **C132, what is lost.** The balance of energy is not kept: there is a rounding for which a unit absorbs one half of
a unit of energy, delivers a whole unit and is back at its initial level. -/
theorem C132_energy_counterexample : ∃ fl : X ℚ → X ℚ, IsRounding fl ∧ ∃ d1 d2 : Device ℚ,
    ({ unitR with p := .fin (-1/2) } : Device ℚ).updateSocR fl (.fin 1) = .ok d1 ∧
    ({ d1 with p := .fin 1 } : Device ℚ).updateSocR fl (.fin 1) = .ok d2 ∧ d2.soc = unitR.soc ∧ unitR.eff = .fin 1 := by
  refine ⟨gridFl 1, gridFl_rounding one_pos, ?_⟩
  refine ⟨{ unitR with p := .fin (-1/2), soc := some (.fin 6) }, { unitR with p := .fin 1, soc := some (.fin 5) }, ?_, ?_, rfl, rfl⟩ <;>
    decide +kernel

/-- Hypotheses of `C132_level` and `C132_direction`: charging with 1/2, where the rounding has an effect. -/
example : ∃ d', ({ unitR with p := .fin (-1/2) } : Device ℚ).updateSocR (gridFl 1) (.fin 1) = .ok d' ∧ StorageOk d' ∧
    d'.soc = some (.fin 6) ∧ (5 : ℚ) ≤ 6 := by
  have hf := gridFl_rounding (h := 1) one_pos
  have h : ({ unitR with p := .fin (-1/2) } : Device ℚ).updateSocR (gridFl 1) (.fin 1) = .ok { unitR with p := .fin (-1/2), soc := some (.fin 6) } := by
    decide +kernel
  have hu : StorageOk ({ unitR with p := .fin (-1/2) } : Device ℚ) := unitR_ok
  have hr : gridFl 1 (.fin 1) = .fin 1 := by decide +kernel
  exact ⟨_, h, (C132_level hf hu one_pos hr rfl h).1, rfl,
    (C132_direction hf hu one_pos hr rfl rfl (by decide +kernel) h rfl).1 (by norm_num)⟩

/-- A finite solver. -/
def finQP : QP ℚ := fun _ r => some (match r.1 with | .fin _ => r | _ => (0, 0))

theorem finQP_finite : QPFinite finQP := by
  rintro rows ⟨p, q⟩ x h
  cases p <;> cases h <;> trivial

def roundedRun : Except PyErr (Sim ℚ × Sim ℚ × X ℚ × X ℚ × X ℚ) := do
  let s0 ← mkSim demoNet (.fin (1/4)) (.fin 100)
  let (s1, _) ← s0.reset demoCtx demoInit
  let s2 ← s1.solveStepR (gridFl (1/64)) { demoCtx with qp := finQP } (demoArgs (-40))
  let r ← s2.computeRewardR (gridFl (1/64))
  pure (s1, s2, r)

/-- Hypotheses of `C132_run`, `C132_limits`, `C132_penalty` and `C132_reward` in a step of the demonstration network,
with numbers rounded to multiples of 1/64. -/
example : ∃ s s' : Sim ℚ, RunR (gridFl (1/64)) { demoCtx with qp := finQP } s s' ∧ s.deltaT = .fin (1/4) ∧
    gridFl (1/64) (.fin (1/4)) = .fin (1/4) ∧ (∀ d ∈ s.devices, d.isStorage = true → StorageOk d) ∧
    (∀ d ∈ s'.devices, d.isStorage = true → StorageOk d) ∧ (∀ d ∈ s.devices, d.pMin ≤ d.pMax) ∧ s.baseMVA = .fin 100 ∧
    (∃ r el pen, s'.computeRewardR (gridFl (1/64)) = .ok (r, el, pen)) ∧ 0 ≤ s'.deltaT ∧ 0 ≤ s'.lamb := by
  obtain ⟨⟨t1, t2, r⟩, hx, e1, e2, e3, e4, e5, e6⟩ := exOk (r := roundedRun)
    (P := fun x => x.1.deltaT = .fin (1/4) ∧ (∀ d ∈ x.1.devices, d.isStorage = true → d.soc = some (.fin (1/2)) ∧ d.socMin = .fin 0 ∧ d.socMax = .fin 1 ∧
      d.eff = .fin (9/10)) ∧ (∀ d ∈ x.1.devices, d.pMin ≤ d.pMax) ∧ x.1.baseMVA = .fin 100 ∧ 0 ≤ x.2.1.deltaT ∧ 0 ≤ x.2.1.lamb) (by decide +kernel)
  simp only [roundedRun, bind_ok, pure_ok, Prod.mk.injEq] at hx
  obtain ⟨_, h0, ⟨s1, b⟩, h1, s2, h2, ⟨r1, r2, r3⟩, h3, rfl, rfl, rfl⟩ := hx
  have hr : gridFl (1/64) (.fin (1/4)) = .fin (1/4) := by decide +kernel
  have hs : ∀ d ∈ s1.devices, d.isStorage = true → StorageOk d := fun d hd hl => by
    obtain ⟨k1, k2, k3, k4⟩ := e2 d hd hl
    exact ⟨_, _, _, _, k1, k2, k3, k4, by norm_num, by norm_num, by norm_num, by norm_num⟩
  have run : RunR (gridFl (1/64)) { demoCtx with qp := finQP } s1 s2 := .step _ (.refl _) h2
  exact ⟨s1, s2, run, e1, hr, hs, C132_run (gridFl_rounding (by norm_num)) finQP_finite (by norm_num) hr e1 hs run, e3, e4,
    ⟨r1, r2, r3, h3⟩, e5, e6⟩

def roundedQuiet : Except PyErr (Sim ℚ × X ℚ × X ℚ × X ℚ) := do
  let s0 ← mkSim demoNet (.fin (1/4)) (.fin 100)
  let (s1, _) ← s0.reset demoCtx demoInit
  let s2 ← s1.solveStepR (gridFl (1/64)) { demoCtx with qp := finQP, pf := flowPF 1 (1/10) } (demoArgs (-40))
  let r ← s2.computeRewardR (gridFl (1/64))
  pure (s2, r)

/-- Hypotheses of `C132_no_violation`, and of `C132_reward` with clipping values 1 and 100. -/
example : ∃ (s : Sim ℚ) (r el pen : X ℚ), s.computeRewardR (gridFl (1/64)) = .ok (r, el, pen) ∧ pen = 0 ∧ s.buses.length = 3 ∧
    s.branches.length = 2 ∧ X.NotNan el ∧ (rewardOfR (gridFl (1/64)) (.fin 1) (.fin 100) el pen).1 ≤ .fin 1 := by
  obtain ⟨⟨s, r, el, pen⟩, hx, e1, e2, e3, e4, e5, e6⟩ := exOk (r := roundedQuiet)
    (P := fun x => X.IsFin (gridFl (1/64) (x.1.deltaT * x.1.lamb)) ∧ (∀ b ∈ x.1.buses, b.v.abs = .fin 1 ∧ .fin 1 ≤ b.vMax ∧
      (b.vMin = some (.fin 1) ∨ b.vMin = some (.fin (9/10)))) ∧ (∀ b ∈ x.1.branches, b.flow.sApparentMax = .fin (1/10) ∧ .fin (1/10) ≤ b.line.rate) ∧
      x.1.buses.length = 3 ∧ x.1.branches.length = 2 ∧ X.NotNan x.2.2.1) (by decide +kernel)
  simp only [roundedQuiet, bind_ok, pure_ok, Prod.mk.injEq] at hx
  obtain ⟨_, h0, ⟨s1, b⟩, h1, s2, h2, ⟨r1, r2, r3⟩, h3, rfl, rfl, rfl, rfl⟩ := hx
  have hf := gridFl_rounding (h := 1/64) (by norm_num)
  have hp := C132_no_violation hf e1 (fun b hb => by
    obtain ⟨k1, k2, k3⟩ := e2 b hb
    rw [k1]
    refine ⟨trivial, k2, fun v hv => ?_⟩
    rcases k3 with k3 | k3 <;> rw [k3] at hv <;> cases hv
    · exact ⟨trivial, le_refl (1 : ℚ)⟩
    · exact ⟨trivial, show (9/10 : ℚ) ≤ 1 by norm_num⟩) (fun b hb => by
    obtain ⟨k1, k2⟩ := e3 b hb
    rw [k1]
    refine ⟨trivial, ?_⟩
    have : X.abs (.fin (1/10 : ℚ)) = .fin (1/10) := by decide +kernel
    rw [this]
    exact k2) h3
  exact ⟨_, _, _, _, h3, hp, e4, e5, e6, (C132_reward hf (c1 := 1) (c2 := 100) (by norm_num) (by norm_num) (by decide +kernel) e6
    (by rw [hp]; trivial)).2.2.2⟩

end Anm
