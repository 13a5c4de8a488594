import Mathlib.Tactic.Ring
import Mathlib.Tactic.FieldSimp
import Verif.Props.LoadCase
import Verif.Props.Projection
import Verif.Lemmas.Reset
import Verif.Demo

/-! # C17–C24: what a transition and a reset do to the devices -/

set_option linter.unusedSectionVars false

namespace Anm

open Spec

section
variable {K : Type} [Field K] [LinearOrder K] [IsStrictOrderedRing K]

theorem X.fin_mul_notNan_zero {p : X K} (h : X.NotNan (X.fin 0 * p)) : ∃ a, p = .fin a := by
  cases p with
  | fin a => exact ⟨a, rfl⟩
  | nan => exact absurd h id
  | ninf =>
    have e : (X.fin 0 * X.ninf : X K) = .nan := by
      show X.mul _ _ = _
      simp [X.mul, X.sgn, X.infOf]
    rw [e] at h
    exact absurd h id
  | pinf =>
    have e : (X.fin 0 * X.pinf : X K) = .nan := by
      show X.mul _ _ = _
      simp [X.mul, X.sgn, X.infOf]
    rw [e] at h
    exact absurd h id

theorem X.add_notNan {a b : X K} (h : X.NotNan (a + b)) : X.NotNan a ∧ X.NotNan b := by
  cases a <;> cases b <;> simp_all [HAdd.hAdd, Add.add, X.add]

/-- A row with a zero coefficient forces the other power to be finite. -/
theorem row_finite_q {a : K} {p q h : X K} (hr : .fin a * p + .fin 0 * q ≤ h) : ∃ y, q = .fin y :=
  X.fin_mul_notNan_zero (X.add_notNan (X.le_notNan hr).1).2

theorem row_finite_p {a : K} {p q h : X K} (hr : .fin 0 * p + .fin a * q ≤ h) : ∃ y, p = .fin y :=
  X.fin_mul_notNan_zero (X.add_notNan (X.le_notNan hr).1).1

theorem X.neg_le_add {x ε : K} {m : X K} (h : X.fin (-x) ≤ -m + .fin ε) : m ≤ .fin (x + ε) := by
  cases m with
  | nan => exact absurd h (X.not_le_nan _)
  | ninf => exact trivial
  | pinf => exact absurd h (X.not_fin_le_ninf _)
  | fin m =>
    have : -x ≤ -m + ε := h
    exact (show m ≤ x + ε by linarith)

theorem X.sub_le_of {x ε : K} {m : X K} (h : X.fin x ≤ m + .fin ε) : .fin (x - ε) ≤ m := by
  cases m with
  | nan => exact absurd h (X.not_le_nan _)
  | ninf => exact absurd h (X.not_fin_le_ninf _)
  | pinf => exact trivial
  | fin m =>
    have : x ≤ m + ε := h
    exact (show x - ε ≤ m by linarith)

theorem X.clip_le_self {x lo hi : X K} (h : lo ≤ x) (hh : X.NotNan hi) : X.clip x lo hi ≤ x := by
  have ⟨hl, hx⟩ := X.le_notNan h
  have hl' := X.notNan_iff.1 hl
  have hh' := X.notNan_iff.1 hh
  have hx' := X.notNan_iff.1 hx
  unfold X.clip X.minimum X.maximum
  simp only [hl', hh', hx', if_false, h, if_true]
  split_ifs with h1
  · exact X.le_refl_of hx
  · exact X.le_of_lt' ((X.not_le_iff hx hh).1 h1)

theorem X.clip_le_hi {x lo hi : X K} (hx : X.NotNan x) (hl : X.NotNan lo) (hh : X.NotNan hi) :
    X.clip x lo hi ≤ hi := by
  have hl' := X.notNan_iff.1 hl
  have hh' := X.notNan_iff.1 hh
  have hx' := X.notNan_iff.1 hx
  unfold X.clip X.minimum X.maximum
  simp only [hl', hh', hx', if_false]
  split_ifs
  all_goals first | assumption | exact X.le_refl_of hh

theorem X.clip_clip_le {x lo hi : X K} (h : lo ≤ x) (hh : X.NotNan hi) :
    X.clip (X.clip x lo hi) lo hi ≤ x := by
  have ⟨hl, hx⟩ := X.le_notNan h
  have h1 := X.clip_le_self h hh
  have hn := (X.le_notNan h1).1
  by_cases h2 : lo ≤ X.clip x lo hi
  · exact X.le_trans' (X.clip_le_self h2 hh) h1
  · have e : X.clip x lo hi = hi := by
      have hl' := X.notNan_iff.1 hl
      have hh' := X.notNan_iff.1 hh
      have hx' := X.notNan_iff.1 hx
      unfold X.clip X.minimum X.maximum at h2 ⊢
      simp only [hl', hh', hx', if_false, h, if_true] at h2 ⊢
      split_ifs at h2 ⊢ with h3
      · exact absurd h h2
      · rfl
    exact X.le_trans' (X.clip_le_hi hn hl hh) (e ▸ h1)

theorem X.le_clip {x lo hi : X K} (hx : X.NotNan x) (h : lo ≤ hi) : lo ≤ X.clip x lo hi :=
  (X.clip_mem hx h).1

variable {c : Ctx K} {s s' : Sim K} {a : Sim.Args K} {out : Sim.TransOut K} {d d' : Device K}

theorem nonSlackGen_notSlack (h : d.isNonSlackGen = true) : d.isSlack = false ∧ d.isLoad = false ∧
    d.isStorage = false := by
  unfold Device.isNonSlackGen Device.isGen at h
  unfold Device.isLoad Device.isStorage
  cases hk : d.kind <;> simp_all

theorem Spec.SameMachine.classes (h : SameMachine d d') : d'.isSlack = d.isSlack ∧
    d'.isLoad = d.isLoad ∧ d'.isStorage = d.isStorage ∧ d'.isNonSlackGen = d.isNonSlackGen := by
  rw [h]; exact ⟨rfl, rfl, rfl, rfl⟩

/-- After a transition a non-slack device is what the device loop made of it. -/
theorem transition_device (h : s.transition c a = .ok (s', out)) (hd' : d' ∈ s'.devices)
    (hs : d'.isSlack = false) :
    ∃ d ∈ s.devices, StepRel c.qp s.baseMVA s.deltaT a d d' := by
  obtain ⟨ds, o, I⟩ := transition_ok h
  obtain ⟨d, hd, d1, hr, h1, p, q, he⟩ := forall₂_mem_right I.devices hd'
  have e : d.isSlack = false := by
    rw [← hs, he, hr.same]
  rw [h1 e]
  exact ⟨d, hd, hr⟩

/-- **C17.** After a transition, whatever the action and the exogenous inputs, every non-slack generator
injects finite powers within `[p_min, p_max]` and `[q_min, q_max]`, its active power is at most the
reported `gen_p_max` and at most the available potential (when the latter is not below `p_min`), up to
the tolerance `ε` of the solver. -/
theorem C17_gen_limits {ε : K} (hq : QPSound ε c.qp) (h : s.transition c a = .ok (s', out))
    (hd : d ∈ s'.devices) (hg : d.isNonSlackGen = true) :
    ∃ p q pot, d.p = .fin p ∧ d.q = .fin q ∧ a.pPot.get? d.id = some pot ∧
      d.pMin ≤ .fin (p + ε) ∧ .fin (p - ε) ≤ d.pMax ∧ .fin (p - ε) ≤ d.pPot ∧
      d.qMin ≤ .fin (q + ε) ∧ .fin (q - ε) ≤ d.qMax ∧
      (d.pMin ≤ pot / s.baseMVA → .fin (p - ε) ≤ pot / s.baseMVA) := by
  have hns := nonSlackGen_notSlack hg
  obtain ⟨d0, _, hr⟩ := transition_device h hd hns.1
  obtain ⟨e1, e2, e3, e4⟩ := hr.same.classes
  rw [e1, e2, e3] at hns
  rw [e4] at hg
  cases hr with
  | load _ hl => simp [hl] at hns
  | storage _ _ _ _ _ _ hl => simp [hl] at hns
  | slack _ _ _ hl => simp [hl] at hns
  | none _ hl => simp [hl] at hg
  | gen pot p q x y hl _ hpot _ _ hxy =>
    have F := hq _ _ _ hxy
    unfold FeasibleTol Device.genConstraints at F
    simp only [List.mem_cons, List.not_mem_nil, or_false, forall_eq_or_imp, forall_eq, X.one_def,
      X.zero_def, X.neg_fin] at F
    obtain ⟨f1, f2, f3, f4, f5, _, _⟩ := F
    obtain ⟨y, rfl⟩ := row_finite_q f1
    obtain ⟨x, rfl⟩ := row_finite_p f4
    simp only [X.fin_mul_fin, X.fin_add_fin, zero_mul, add_zero, zero_add, neg_mul, one_mul] at f1 f2 f3 f4 f5
    have hm := X.sub_le_of f2
    have hp := X.sub_le_of f3
    refine ⟨x, y, pot, rfl, rfl, Dict.getE_ok.1 hpot, X.neg_le_add f1, hm, hp,
      X.neg_le_add f4, X.sub_le_of f5, fun hle => X.le_trans' hp ?_⟩
    have hmn : X.NotNan d0.pMax := (X.le_notNan hm).2
    exact X.clip_clip_le hle hmn

/-! ### Facts about the devices of a simulator built from a clean file -/

section
variable [FloorRing K] {n : Network K} {dt lam : X K} {base : K}

theorem basePos_of_simOf (hn : CleanFile n base) (h : SimOf n dt lam s) : 0 < base := by
  obtain ⟨s0, h0, _⟩ := h
  obtain ⟨⟨hc, _⟩, _⟩ := mkSim_ok.1 h0
  simp only [checkNetwork, bind_ok, guardE_ok] at hc
  obtain ⟨_, hc, _⟩ := hc
  rw [hn.base] at hc
  exact not_le.1 hc

theorem simOf_class (hn : CleanFile n base) (h : SimOf n dt lam s) (hd : d ∈ s.devices) :
    ∃ r ∈ n.device, ∃ ids d0, RowOk r ∧ DevClass r ids (.fin base) d0 ∧ SameMachine d0 d := by
  obtain ⟨r, hr, ids, d0, hm, hs⟩ := simOf_device h hd
  rw [hn.base] at hm
  exact ⟨r, hr, ids, d0, hn.device r hr, mkDevice_class hm, hs⟩

theorem simOf_load (hn : CleanFile n base) (h : SimOf n dt lam s) (hd : d ∈ s.devices)
    (hl : d.isLoad = true) :
    ∃ r ∈ n.device, ∃ ids d0, RowOk r ∧ mkLoad r ids (.fin base) = .ok d0 ∧ SameMachine d0 d ∧
      d.isSlack = false := by
  obtain ⟨r, hr, ids, d0, hok, hc, hs⟩ := simOf_class hn h hd
  have e := hs.classes
  rw [e.2.1] at hl
  unfold Device.isLoad at hl
  cases hc with
  | load _ hm hk hsl => exact ⟨r, hr, ids, d0, hok, hm, hs, e.1.trans hsl⟩
  | slack _ _ hk => simp [hk] at hl
  | classical _ _ hk => simp [hk] at hl
  | renewable _ _ hk => simp [hk] at hl
  | storage _ _ hk => simp [hk] at hl

theorem simOf_storage (hn : CleanFile n base) (h : SimOf n dt lam s) (hd : d ∈ s.devices)
    (hl : d.isStorage = true) :
    ∃ r ∈ n.device, ∃ ids d0, RowOk r ∧ mkStorage r ids (.fin base) = .ok d0 ∧ SameMachine d0 d ∧
      d.isSlack = false := by
  obtain ⟨r, hr, ids, d0, hok, hc, hs⟩ := simOf_class hn h hd
  have e := hs.classes
  rw [e.2.2.1] at hl
  unfold Device.isStorage at hl
  cases hc with
  | storage _ hm hk hsl => exact ⟨r, hr, ids, d0, hok, hm, hs, e.1.trans hsl⟩
  | slack _ _ hk => simp [hk] at hl
  | classical _ _ hk => simp [hk] at hl
  | renewable _ _ hk => simp [hk] at hl
  | load _ _ hk => simp [hk] at hl

theorem simOf_gen (hn : CleanFile n base) (h : SimOf n dt lam s) (hd : d ∈ s.devices)
    (hl : d.isNonSlackGen = true) :
    ∃ r ∈ n.device, ∃ ids d0 kind, RowOk r ∧ mkGen kind r ids (.fin base) = .ok d0 ∧
      SameMachine d0 d ∧ d0.isSlack = false := by
  obtain ⟨r, hr, ids, d0, hok, hc, hs⟩ := simOf_class hn h hd
  have e := hs.classes
  rw [e.2.2.2] at hl
  unfold Device.isNonSlackGen Device.isGen at hl
  cases hc with
  | classical _ hm hk hsl => exact ⟨r, hr, ids, d0, _, hok, hm, hs, hsl⟩
  | renewable _ hm hk hsl => exact ⟨r, hr, ids, d0, _, hok, hm, hs, hsl⟩
  | slack _ _ hk hsl => simp [hsl] at hl
  | storage _ _ hk => simp [hk] at hl
  | load _ _ hk => simp [hk] at hl

/-- **C18.** After a transition every load with demand `x` (MW, not NaN) withdraws a power within its
limits, equal to the demand when that is within the limits, with a constant power factor. -/
theorem C18_load_clip (hn : CleanFile n base) (hs : SimOf n dt lam s)
    (h : s.transition c a = .ok (s', out)) (hd : d ∈ s'.devices) (hl : d.isLoad = true) :
    ∃ x ratio, a.pLoad.get? d.id = some x ∧
      (∃ r, IsRowOf n d.id r ∧ r .devType = some (.fin (-1)) ∧ r .qp = some ratio ∧
        IsPu (r .pmin) base .ninf d.pMin) ∧
      d.q = d.p * ratio ∧
      (X.NotNan x → d.pMin ≤ d.p ∧ d.p ≤ d.pMax) ∧
      (d.pMin ≤ x / .fin base → x / .fin base ≤ d.pMax → d.p = x / .fin base) := by
  have hs' := simOf_transition hs h
  have hb := basePos_of_simOf hn hs
  obtain ⟨r, hr, ids, d1, hok, hm, hsm, hsl⟩ := simOf_load hn hs' hd hl
  have L := C03_load hok hb hm
  have LI := mkLoad_ok hm
  obtain ⟨d0, _, hst⟩ := transition_device h hd hsl
  have e := hst.same.classes
  rw [e.2.1] at hl
  cases hst with
  | gen _ _ _ _ _ _ h1 => simp [hl] at h1
  | storage _ _ _ _ _ _ _ _ h1 => simp [hl] at h1
  | slack h1 => simp [hl] at h1
  | none h1 => simp [hl] at h1
  | load x _ hx =>
    have eb : s.baseMVA = .fin base := (simOf_base hs).1.trans hn.base
    rw [eb] at hsm hd
    have f1 : d1.pMin = d0.pMin := by rw [sameMachine_symm hsm]; rfl
    have f2 : d1.pMax = d0.pMax := by rw [sameMachine_symm hsm]; rfl
    have f3 : d1.qpRatio = d0.qpRatio := by rw [sameMachine_symm hsm]; rfl
    rw [eb]
    have ty := LI.ty
    rw [cellEq_iff (hok _)] at ty
    have f4 : d1.id = d0.id := by rw [sameMachine_symm hsm]; rfl
    refine ⟨x, d0.qpRatio, Dict.getE_ok.1 hx, ⟨r, ⟨hr, f4 ▸ LI.common.id_eq⟩, ty, f3 ▸ LI.qp, ?_⟩, rfl, fun hn => ?_,
      fun h1 h2 => X.clip_eq_self h1 h2⟩
    · have := L.pMin; rw [f1] at this; exact this
    · exact X.clip_mem (X.div_notNan hb hn) (f1 ▸ f2 ▸ L.ordered)

/-- Finite storage parameters. -/
theorem soc_params (hn : CleanFile n base) (hs : SimOf n dt lam s) (hd : d ∈ s.devices)
    (hl : d.isStorage = true) (hf : ∃ b, d.socMax = .fin b) :
    ∃ m M e : K, d.socMin = .fin m ∧ d.socMax = .fin M ∧ d.eff = .fin e ∧ 0 ≤ m ∧ m ≤ M ∧ 0 ≤ e ∧
      e ≤ 1 := by
  have hb := basePos_of_simOf hn hs
  obtain ⟨r, hr, ids, d1, hok, hm, hsm, hsl⟩ := simOf_storage hn hs hd hl
  have S := C06_storage hok hb hm
  have f1 : d1.socMin = d.socMin := by rw [sameMachine_symm hsm]
  have f2 : d1.socMax = d.socMax := by rw [sameMachine_symm hsm]
  have f3 : d1.eff = d.eff := by rw [sameMachine_symm hsm]
  have s0 := S.soc0; have s1 := S.soc1; have e0 := S.eff0; have e1 := S.eff1
  rw [f1] at s0 s1
  rw [f2] at s1
  rw [f3] at e0 e1
  obtain ⟨M, hM⟩ := hf
  rw [hM] at s1
  have hm : ∃ m, d.socMin = .fin m := by
    cases hc : d.socMin <;> simp_all
  have he : ∃ m, d.eff = .fin m := by
    cases hc : d.eff <;> simp_all
  obtain ⟨m, hm⟩ := hm
  obtain ⟨e, he⟩ := he
  rw [hm] at s0 s1
  rw [he] at e0 e1
  exact ⟨m, M, e, hm, hM, he, s0, s1, e0, e1⟩

theorem X.infOf_notNan {z : ℤ} (h : z ≠ 0) : X.NotNan (X.infOf z : X K) := by
  unfold X.infOf
  split_ifs <;> simp
  omega

/-- The updated state of charge is a number whenever the power is one. -/
theorem soc_notNan {soc t e : K} {p : X K} (ht : 0 < t) (he : 0 < e) (hp : X.NotNan p) :
    X.NotNan (if p ≤ 0 then (X.fin soc - .fin t * .fin e * p : X K)
      else X.fin soc - .fin t * p / .fin e) := by
  have hte : 0 < t * e := mul_pos ht he
  cases p with
  | nan => exact absurd hp id
  | fin x =>
    rw [X.zero_def]
    simp only [X.fin_mul_fin, X.fin_div_fin he.ne', X.fin_sub_fin]
    split_ifs <;> trivial
  | ninf =>
    have e1 : (X.fin (t * e) * X.ninf : X K) = .ninf := by
      show X.mul _ _ = _
      simp [X.mul, X.sgn, X.infOf, hte]
    rw [if_pos (show (X.ninf : X K) ≤ 0 from trivial), X.fin_mul_fin, e1]
    trivial
  | pinf =>
    have e1 : (X.fin t * X.pinf : X K) = .pinf := by
      show X.mul _ _ = _
      simp [X.mul, X.sgn, X.infOf, ht]
    rw [if_neg (show ¬ (X.pinf : X K) ≤ 0 from id), e1, X.pinf_div he]
    trivial

theorem storage_rows_eff {rows : List (HalfPlane K)} {t e : K} (h : d.storageConstraints (.fin t) = .ok rows)
    (he : d.eff = .fin e) : t * e ≠ 0 := by
  unfold Device.storageConstraints at h
  split at h
  · simp at h
  · simp only [bind_ok, X.pyDiv, guardE_ok, he] at h
    obtain ⟨_, ⟨_, h1, _⟩, _⟩ := h
    simpa using h1

/-- The solver never returns a NaN active power for a storage unit. -/
def StorageNotNan (qp : QP K) (dt : X K) : Prop := ∀ (d : Device K) rows r x,
  d.storageConstraints dt = .ok rows → qp rows r = some x → X.NotNan x.1

theorem storageNotNan_of_sound {ε : K} {qp : QP K} (hq : QPSound ε qp) (dt : X K) :
    StorageNotNan qp dt := by
  intro d rows r x hr hx
  have F := hq _ _ _ hx
  unfold Device.storageConstraints at hr
  split at hr
  · simp at hr
  · simp only [bind_ok, pure_ok] at hr
    obtain ⟨_, _, _, _, rfl⟩ := hr
    have := F ⟨0, -1, -d.qMin⟩ (by simp)
    obtain ⟨y, hy⟩ := row_finite_p (a := -1) this
    rw [hy]; trivial

/-- One transition keeps the state of charge within its limits. -/
theorem socOk_step {t : K} (hn : CleanFile n base) (hs : SimOf n (.fin t) lam s) (ht : 0 < t)
    (hq : StorageNotNan c.qp (.fin t)) (hf : FiniteCapacity s) (h0 : SocOk s)
    (h : s.transition c a = .ok (s', out)) : SocOk s' := by
  intro d hd hl
  have hs' := simOf_transition hs h
  obtain ⟨r, hr, ids, d1, hok, hm, hsm, hsl⟩ := simOf_storage hn hs' hd hl
  obtain ⟨d0, hd0, hst⟩ := transition_device h hd hsl
  have e := hst.same.classes
  rw [e.2.2.1] at hl
  cases hst with
  | gen _ _ _ _ _ h1 => exact absurd (nonSlackGen_notSlack h1).2.2 (by simp [hl])
  | load _ h1 =>
    exfalso
    unfold Device.isLoad at h1; unfold Device.isStorage at hl
    cases hk : d0.kind <;> simp_all
  | slack _ _ h1 => simp [hl] at h1
  | none _ _ h1 => simp [hl] at h1
  | storage p q x y rows soc _ _ _ _ _ hsoc hrows hqp =>
    obtain ⟨m, M, e, hm', hM', he', m0, mM, e0, e1⟩ := soc_params hn hs hd0 hl (hf d0 hd0 hl)
    obtain ⟨z, hz, z1, z2⟩ := h0 d0 hd0 hl
    rw [hsoc] at hz
    injection hz with hz
    subst hz
    have edt : s.deltaT = .fin t := (simOf_base hs).2.1
    rw [edt] at hrows ⊢
    have hte := storage_rows_eff hrows he'
    have he : 0 < e := lt_of_le_of_ne e0 fun h => hte (by rw [← h, mul_zero])
    rw [hm'] at z1
    rw [hM'] at z2
    have hfin : ∃ v, soc = .fin v := by cases soc <;> simp_all
    obtain ⟨v, rfl⟩ := hfin
    refine ⟨_, rfl, ?_⟩
    show d0.socMin ≤ _ ∧ _ ≤ d0.socMax
    rw [hm', hM', he']
    exact X.clip_mem (soc_notNan ht he (hq d0 _ _ _ hrows hqp)) mM

theorem finiteCapacity_same (h : SameConfig s s') (hf : FiniteCapacity s) : FiniteCapacity s' := by
  intro d hd hl
  obtain ⟨d0, hd0, hsm⟩ := forall₂_mem_right h.devices hd
  rw [hsm.classes.2.2.1] at hl
  obtain ⟨b, hb⟩ := hf d0 hd0 hl
  exact ⟨b, by rw [hsm]; exact hb⟩

/-- **C19.** The state of charge stays within its limits during any sequence of transitions, whatever
the actions, the exogenous inputs, the power-flow solver and the (non-NaN) powers returned by the QP
solver. -/
theorem C19_soc_invariant {t : K} (hn : CleanFile n base) (hs : SimOf n (.fin t) lam s) (ht : 0 < t)
    (hq : QPNotNan c.qp) (hf : FiniteCapacity s) (h0 : SocOk s) (h : Reach c s s') : SocOk s' := by
  suffices H : SocOk s' ∧ SimOf n (.fin t) lam s' ∧ FiniteCapacity s' from H.1
  induction h with
  | refl => exact ⟨h0, hs, hf⟩
  | tail _ hst ih =>
    obtain ⟨a, o, hst⟩ := hst
    obtain ⟨i1, i2, i3⟩ := ih
    exact ⟨socOk_step hn i2 ht (fun _ _ _ _ _ => hq _ _ _) i3 i1 hst, simOf_transition i2 hst,
      finiteCapacity_same (sameConfig_transition hst) i3⟩

/-! ### Energy accounting -/

/-- **C21**, with solver tolerance.  If the solutions of the QP solver satisfy the constraints up to `ε`
then a transition changes the state of charge of a storage unit by `-dt*eff*p` (charging) or `-dt*p/eff`
(discharging) up to `dt*ε*eff` (resp. `dt*ε/eff`). -/
theorem C21_soc_accounting_tol {t ε : K} (hn : CleanFile n base) (hs : SimOf n (.fin t) lam s)
    (ht : 0 < t) (hε : 0 ≤ ε) (hq : QPSound ε c.qp) (hf : FiniteCapacity s) (h0 : SocOk s)
    (h : s.transition c a = .ok (s', out)) (hd : d ∈ s'.devices) (hl : d.isStorage = true) :
    ∃ d0 ∈ s.devices, d0.id = d.id ∧ ∃ soc soc' p q e, d0.soc = some (.fin soc) ∧
      d.soc = some (.fin soc') ∧ d.p = .fin p ∧ d.q = .fin q ∧ d.eff = .fin e ∧ 0 < e ∧
      (p ≤ 0 → soc' ≤ soc - t * e * p ∧ soc - t * e * p ≤ soc' + t * e * ε) ∧
      (0 < p → soc - t * p / e ≤ soc' ∧ soc' ≤ soc - t * p / e + t * ε / e) := by
  have hs' := simOf_transition hs h
  obtain ⟨r, hr, ids, d1, hok, hm, hsm, hsl⟩ := simOf_storage hn hs' hd hl
  obtain ⟨d0, hd0, hst⟩ := transition_device h hd hsl
  rw [hst.same.classes.2.2.1] at hl
  cases hst with
  | gen _ _ _ _ _ h1 => exact absurd (nonSlackGen_notSlack h1).2.2 (by simp [hl])
  | load _ h1 =>
    exfalso
    unfold Device.isLoad at h1; unfold Device.isStorage at hl
    cases hk : d0.kind <;> simp_all
  | slack _ _ h1 => simp [hl] at h1
  | none _ _ h1 => simp [hl] at h1
  | storage p q x y rows soc _ _ _ _ _ hsoc hrows hqp =>
    obtain ⟨m, M, e, hm', hM', he', m0, mM, e0, e1⟩ := soc_params hn hs hd0 hl (hf d0 hd0 hl)
    obtain ⟨z, hz, z1, z2⟩ := h0 d0 hd0 hl
    rw [hsoc] at hz
    injection hz with hz
    subst hz
    have edt : s.deltaT = .fin t := (simOf_base hs).2.1
    rw [edt] at hrows ⊢
    have hte := storage_rows_eff hrows he'
    have he : 0 < e := lt_of_le_of_ne e0 fun h => hte (by rw [← h, mul_zero])
    rw [hm'] at z1
    rw [hM'] at z2
    have hfin : ∃ v, soc = .fin v := by cases soc <;> simp_all
    obtain ⟨v, rfl⟩ := hfin
    have z1' : m ≤ v := z1
    have z2' : v ≤ M := z2
    have F := hq _ _ _ hqp
    simp only [Device.storageConstraints, hsoc, bind_ok, pure_ok, hM', hm', he', X.fin_mul_fin,
      X.fin_sub_fin, X.neg_fin, pyDiv_fin hte, pyDiv_fin ht.ne', Except.ok.injEq] at hrows
    obtain ⟨_, rfl, _, rfl, rfl⟩ := hrows
    unfold FeasibleTol at F
    simp only [List.mem_cons, List.not_mem_nil, or_false, forall_eq_or_imp, forall_eq, X.one_def,
      X.zero_def, X.neg_fin] at F
    obtain ⟨f1, f2, f3, f4, _, _, _, _, f9, f10⟩ := F
    obtain ⟨y, rfl⟩ := row_finite_q f1
    obtain ⟨x, rfl⟩ := row_finite_p f3
    simp only [X.fin_mul_fin, X.fin_add_fin, zero_mul, add_zero, zero_add, neg_mul, one_mul,
      X.fin_le_fin] at f9 f10
    have hte' : 0 < t * e := mul_pos ht he
    have g9 : v - t * e * x ≤ M + t * e * ε := by
      have : (-x - ε) * (t * e) ≤ -(v - M) := by
        rw [← le_div_iff₀ hte']; linarith
      nlinarith
    have g10 : m ≤ v - t * x / e + t * ε / e := by
      have h1 : (x - ε) * t ≤ e * (v - m) := by
        rw [← le_div_iff₀ ht]; linarith
      have h2 : (x - ε) * t / e ≤ v - m := by
        rw [div_le_iff₀ he]; linarith
      have h3 : (x - ε) * t / e = t * x / e - t * ε / e := by ring
      linarith
    have hp1 : 0 ≤ t * e * ε := mul_nonneg hte'.le hε
    have hp2 : 0 ≤ t * ε / e := div_nonneg (mul_nonneg ht.le hε) he.le
    by_cases hx : x ≤ 0
    · have hx' : t * e * x ≤ 0 := mul_nonpos_of_nonneg_of_nonpos hte'.le hx
      have hcl : ∃ w, X.clip (X.fin (v - t * e * x)) (.fin m) (.fin M) = .fin w ∧
          w ≤ v - t * e * x ∧ v - t * e * x ≤ w + t * e * ε := by
        by_cases hM : v - t * e * x ≤ M
        · exact ⟨_, X.clip_eq_self (show m ≤ v - t * e * x by linarith) hM, le_refl _, by linarith⟩
        · refine ⟨M, ?_, by linarith, g9⟩
          have : m ≤ v - t * e * x := by linarith
          simp [X.clip, X.maximum, X.minimum, this, hM]
      obtain ⟨w, hw, w1, w2⟩ := hcl
      refine ⟨d0, hd0, rfl, v, w, x, y, e, hsoc, ?_, rfl, rfl, he', he, fun _ => ⟨w1, w2⟩,
        fun h => absurd hx (not_le.2 h)⟩
      show some _ = some _
      rw [if_pos (show (X.fin x : X K) ≤ 0 from hx), he', hm', hM']
      simp only [X.fin_mul_fin, X.fin_sub_fin, hw]
    · have hx0 : 0 < x := not_le.1 hx
      have hx' : 0 ≤ t * x / e := div_nonneg (mul_nonneg ht.le hx0.le) he.le
      have hcl : ∃ w, X.clip (X.fin (v - t * x / e)) (.fin m) (.fin M) = .fin w ∧
          v - t * x / e ≤ w ∧ w ≤ v - t * x / e + t * ε / e := by
        by_cases hM : m ≤ v - t * x / e
        · exact ⟨_, X.clip_eq_self hM (show v - t * x / e ≤ M by linarith), le_refl _, by linarith⟩
        · refine ⟨m, ?_, by linarith, g10⟩
          simp [X.clip, X.maximum, X.minimum, mM, hM]
      obtain ⟨w, hw, w1, w2⟩ := hcl
      refine ⟨d0, hd0, rfl, v, w, x, y, e, hsoc, ?_, rfl, rfl, he', he, fun h => absurd h hx,
        fun _ => ⟨w1, w2⟩⟩
      show some _ = some _
      rw [if_neg (show ¬ (X.fin x : X K) ≤ 0 from hx), he', hm', hM']
      simp only [X.fin_mul_fin, X.fin_sub_fin, X.fin_div_fin he.ne', hw]

/-- **C21.** If the solutions of the QP solver satisfy the constraints, the state of charge changes by
exactly `-dt*eff*p` when charging and `-dt*p/eff` when discharging. -/
theorem C21_soc_accounting {t : K} (hn : CleanFile n base) (hs : SimOf n (.fin t) lam s)
    (ht : 0 < t) (hq : QPSound 0 c.qp) (hf : FiniteCapacity s) (h0 : SocOk s)
    (h : s.transition c a = .ok (s', out)) (hd : d ∈ s'.devices) (hl : d.isStorage = true) :
    ∃ d0 ∈ s.devices, d0.id = d.id ∧ ∃ soc p q e, d0.soc = some (.fin soc) ∧
      d.p = .fin p ∧ d.q = .fin q ∧ d.eff = .fin e ∧ 0 < e ∧
      (p ≤ 0 → d.soc = some (.fin (soc - t * e * p))) ∧
      (0 < p → d.soc = some (.fin (soc - t * p / e))) := by
  obtain ⟨d0, hd0, hid, soc, soc', p, q, e, h1, h2, h3, h4, h5, h6, h7, h8⟩ :=
    C21_soc_accounting_tol hn hs ht le_rfl hq hf h0 h hd hl
  refine ⟨d0, hd0, hid, soc, p, q, e, h1, h3, h4, h5, h6, fun hp => ?_, fun hp => ?_⟩
  · obtain ⟨a1, a2⟩ := h7 hp
    rw [h2, le_antisymm a1 (by linarith)]
  · obtain ⟨a1, a2⟩ := h8 hp
    rw [h2]
    simp only [mul_zero, zero_div, add_zero] at a2
    rw [le_antisymm a2 a1]

/-- The device with a given ID. -/
theorem device_unique (hs : SimOf n dt lam s) (hd : d ∈ s.devices) (hd' : d' ∈ s.devices)
    (e : d.id = d'.id) : d = d' := sorted_id_inj (simOf_sorted hs) hd hd' e

theorem forall₂_ids {R : Device K → Device K → Prop} {l l' : List (Device K)}
    (h : List.Forall₂ R l l') (hR : ∀ a b, R a b → b.id = a.id) : l'.map Device.id = l.map Device.id := by
  induction h with
  | nil => rfl
  | cons hab _ ih => simp [hR _ _ hab, ih]

/-- The data of a storage unit needed for the energy balance. -/
theorem energy_balance {t : K} {i : ℤ} {ps : List K} (hn : CleanFile n base) (ht : 0 < t)
    (hq : QPSound 0 c.qp) (tr : Trajectory c i s ps s') (hs : SimOf n (.fin t) lam s)
    (hf : FiniteCapacity s) (h0 : SocOk s)
    {d : Device K} (hd : d ∈ s.devices) (hid : d.id = i) (hst : d.isStorage = true) {soc e : K}
    (hsoc : d.soc = some (.fin soc)) (heff : d.eff = .fin e) (he : 0 < e) :
    ∃ d' ∈ s'.devices, d'.id = i ∧ d'.isStorage = true ∧ d'.socMin = d.socMin ∧ ∃ soc',
      d'.soc = some (.fin soc') ∧ d'.socMin ≤ .fin soc' ∧
      delivered t ps = e ^ 2 * drawn t ps + e * (soc - soc') := by
  induction tr generalizing d soc with
  | nil s =>
    refine ⟨d, hd, hid, hst, rfl, soc, hsoc, ?_, by simp [delivered, drawn]⟩
    obtain ⟨x, hx, h1, _⟩ := h0 d hd hst
    rw [hsoc] at hx; injection hx with hx; rw [hx]; exact h1
  | cons hstep hd1 hid1 hp htr ih =>
    rename_i s s1 s2 p ps d1
    obtain ⟨a, o, hstep⟩ := hstep
    have hs1 := simOf_transition hs hstep
    have hsame := sameConfig_transition hstep
    -- the unit after the step
    obtain ⟨d0, hd0, hsm⟩ := forall₂_mem_right hsame.devices hd1
    have e0 : d0 = d := device_unique hs hd0 hd (by
      rw [hid, ← hid1, hsm])
    subst e0
    have hst1 : d1.isStorage = true := hsm.classes.2.2.1.trans hst
    obtain ⟨d0', hd0', hid0', soc0, p0, q0, e', k1, k2, k3, k4, k5, k6, k7⟩ :=
      C21_soc_accounting hn hs ht hq hf h0 hstep hd1 hst1
    have e1 : d0' = d0 := device_unique hs hd0' hd0 (by rw [hid0', hid, hid1])
    subst e1
    rw [hp] at k2; injection k2 with k2; subst k2
    rw [hsoc] at k1; injection k1 with k1; injection k1 with k1; subst k1
    have heff1 : d1.eff = .fin e := by rw [hsm]; exact heff
    rw [heff1] at k4; injection k4 with k4; subst k4
    have hm1 : d1.socMin = d0'.socMin := by rw [hsm]
    have hso1 := socOk_step hn hs ht (storageNotNan_of_sound hq _) hf h0 hstep
    have hf1 := finiteCapacity_same hsame hf
    have hdel : delivered t (p :: ps) = t * max p 0 + delivered t ps := by simp [delivered]
    have hdra : drawn t (p :: ps) = t * max (-p) 0 + drawn t ps := by simp [drawn]
    rcases le_or_gt p 0 with hp0 | hp0
    · obtain ⟨d', a1, a2, a3, a4, soc', a5, a6, a7⟩ := ih hs1 hf1 hso1 hd1 hid1 hst1 (k6 hp0) heff1
      refine ⟨d', a1, a2, a3, a4.trans hm1, soc', a5, a6, ?_⟩
      rw [hdel, hdra, a7, max_eq_right hp0, max_eq_left (by linarith)]
      ring
    · obtain ⟨d', a1, a2, a3, a4, soc', a5, a6, a7⟩ := ih hs1 hf1 hso1 hd1 hid1 hst1 (k7 hp0) heff1
      refine ⟨d', a1, a2, a3, a4.trans hm1, soc', a5, a6, ?_⟩
      rw [hdel, hdra, a7, max_eq_left hp0.le, max_eq_right (by linarith)]
      field_simp
      ring

/-- **C22.** Over any sequence of transitions the energy a storage unit delivers is at most `eff^2` times
the energy it draws plus `eff` times the energy initially stored above `soc_min`. -/
theorem C22_no_free_energy {t : K} {i : ℤ} {ps : List K} (hn : CleanFile n base) (ht : 0 < t)
    (hq : QPSound 0 c.qp) (hs : SimOf n (.fin t) lam s) (hf : FiniteCapacity s) (h0 : SocOk s)
    (tr : Trajectory c i s ps s') {d : Device K} (hd : d ∈ s.devices) (hid : d.id = i)
    (hst : d.isStorage = true) {soc e m : K} (hsoc : d.soc = some (.fin soc)) (heff : d.eff = .fin e)
    (hm : d.socMin = .fin m) (he : 0 < e) :
    delivered t ps ≤ e ^ 2 * drawn t ps + e * (soc - m) := by
  obtain ⟨d', _, _, _, h4, soc', _, h6, h7⟩ := energy_balance hn ht hq tr hs hf h0 hd hid hst hsoc heff he
  rw [h4, hm] at h6
  have h6' : m ≤ soc' := h6
  rw [h7]
  nlinarith

/-- **C22.** If the unit is back at its initial state of charge it has returned exactly `eff^2` of the
energy drawn. -/
theorem C22_round_trip {t : K} {i : ℤ} {ps : List K} (hn : CleanFile n base) (ht : 0 < t)
    (hq : QPSound 0 c.qp) (hs : SimOf n (.fin t) lam s) (hf : FiniteCapacity s) (h0 : SocOk s)
    (tr : Trajectory c i s ps s') {d d' : Device K} (hd : d ∈ s.devices) (hid : d.id = i)
    (hst : d.isStorage = true) {soc e : K} (hsoc : d.soc = some (.fin soc)) (heff : d.eff = .fin e)
    (he : 0 < e) (hd' : d' ∈ s'.devices) (hid' : d'.id = i) (hback : d'.soc = d.soc) :
    delivered t ps = e ^ 2 * drawn t ps := by
  obtain ⟨d1, h1, h2, _, h4, soc', h5, h6, h7⟩ := energy_balance hn ht hq tr hs hf h0 hd hid hst hsoc heff he
  have hs' : SimOf n (.fin t) lam s' := by
    clear h7 h6 h5 h4 h2 h1 hback hd' hd hid hst hsoc heff h0 hf hid'
    induction tr with
    | nil => exact hs
    | cons hstep _ _ _ _ ih =>
      obtain ⟨a, o, hstep⟩ := hstep
      exact ih (simOf_transition hs hstep)
  have := device_unique hs' h1 hd' (h2.trans hid'.symm)
  subst this
  rw [h5, hsoc] at hback
  injection hback with hback
  injection hback with hback
  rw [h7, hback]
  ring

/-- **C23, partial.** The cycle returns the fraction EFF of the energy drawn exactly when EFF = 1 (or
nothing is drawn); the claim for `0 < EFF < 1` is false (`C23_counterexample`). -/
theorem C23_round_trip_efficiency_partial {t : K} {i : ℤ} {ps : List K} (hn : CleanFile n base)
    (ht : 0 < t) (hq : QPSound 0 c.qp) (hs : SimOf n (.fin t) lam s) (hf : FiniteCapacity s)
    (h0 : SocOk s) (tr : Trajectory c i s ps s') {d d' : Device K} (hd : d ∈ s.devices) (hid : d.id = i)
    (hst : d.isStorage = true) {soc e : K} (hsoc : d.soc = some (.fin soc)) (heff : d.eff = .fin e)
    (he : 0 < e) (hd' : d' ∈ s'.devices) (hid' : d'.id = i) (hback : d'.soc = d.soc)
    (hdr : drawn t ps ≠ 0) :
    delivered t ps = e * drawn t ps ↔ e = 1 := by
  rw [C22_round_trip hn ht hq hs hf h0 tr hd hid hst hsoc heff he hd' hid' hback]
  constructor
  · intro h
    have := mul_right_cancel₀ hdr h
    have h2 : e * (e - 1) = 0 := by linear_combination this
    rcases mul_eq_zero.1 h2 with h3 | h3
    · exact absurd h3 he.ne'
    · linarith
  · rintro rfl; ring

/-! ### Reset -/

/-- The values of the initial vector that `reset` uses for the device `d` of the simulator `s`. -/
theorem reset_storage {init : List (X K)} {b : Bool} (hn : CleanFile n base) (hs : SimOf n dt lam s)
    (h : s.reset c init = .ok (s', b)) {k : ℕ} (hk : s'.devices[k]? = some d) (hst : d.isStorage = true) :
    ∃ d0, s.devices[k]? = some d0 ∧ SameMachine d0 d ∧
      (∃ x, init[2 * s.nDevice + ((s.devices.take k).filter Device.isStorage).length]? = some x ∧
        d.soc = some (x / .fin base)) ∧
      ∃ p q, init[k]? = some p ∧ init[s.nDevice + k]? = some q ∧ ∃ d1,
        Device.mapStorage c.qp { d0 with soc := some (if p ≤ 0 then d0.socMin else d0.socMax) }
          (p / .fin base) (q / .fin base) dt = .ok d1 ∧ d.p = d1.p ∧ d.q = d1.q := by
  obtain ⟨a, ds, ds', s1, out, I, _⟩ := reset_ok h
  have hs' := simOf_reset hs h
  obtain ⟨st, _, rfl⟩ := I.result
  have hdmem : d ∈ ds' := List.mem_of_getElem? hk
  have hsl : d.isSlack = false := by
    obtain ⟨_, _, _, _, _, _, _, hsl⟩ := simOf_storage hn hs' hdmem hst
    exact hsl
  obtain ⟨d2, hk2, h2a, h2b⟩ := assignSoc_get I.assign hk
  have hst2 : d2.isStorage = true := by
    cases hc : d2.isStorage with
    | true => rfl
    | false => rw [← h2a hc, hst] at hc; simp at hc
  obtain ⟨x, hx, rfl⟩ := h2b hst2
  obtain ⟨ds1, o, T⟩ := transition_ok I.trans
  obtain ⟨d3, hk3, d4, hrel, heq, _⟩ := forall₂_get T.devices hk2
  have hsm3 := hrel.same
  obtain ⟨d0, hk0, h0⟩ := forall₂_get I.soc hk3
  have hsm0 : SameMachine d0 d3 := by
    have := resetSoc_ok h0
    cases hs : d0.isStorage with
    | false => rw [this.1 hs]; rfl
    | true => obtain ⟨p, _, rfl⟩ := this.2 hs; rfl
  have hd2' : ∃ p q, d2 = { d4 with p := p, q := q } := by
    obtain ⟨d3', hk3', d4', hrel', heq', p, q, e⟩ := forall₂_get T.devices hk2
    have hsl3 : d3.isSlack = false := by
      have hs2 : d2.isSlack = false := hsl
      rw [hk3] at hk3'
      injection hk3' with hk3'
      subst hk3'
      rw [← hs2, e, hrel'.same]
    exact ⟨d4.p, d4.q, heq hsl3⟩
  have hst0 : d0.isStorage = true := by
    obtain ⟨p, q, rfl⟩ := hd2'
    rw [← hsm0.classes.2.2.1, ← hsm3.classes.2.2.1]
    exact hst2
  have hsl0 : d0.isSlack = false := by
    obtain ⟨p, q, rfl⟩ := hd2'
    rw [← hsm0.classes.1, ← hsm3.classes.1]
    exact hsl
  have hl0 : d0.isLoad = false := by
    unfold Device.isStorage at hst0; unfold Device.isLoad
    cases hc : d0.kind <;> simp_all
  have E := (resetArgs_ok (simOf_sorted hs) I.args).2 k d0 hk0
  obtain ⟨p, q, ep, eq, ap, aq⟩ := E.set hl0 (by simp [hst0, hsl0])
  obtain ⟨p', hp', rfl⟩ := (resetSoc_ok h0).2 hst0
  have hpp : p' = p := by
    rw [Dict.getE_ok, ap] at hp'
    injection hp' with hp'
    exact hp'.symm
  subst hpp
  have eb : s.baseMVA = .fin base := (simOf_base hs).1.trans hn.base
  have eb1 : s1.baseMVA = .fin base := T.solve.apply.base.trans eb
  have edt : s.deltaT = dt := (simOf_base hs).2.1
  have hfilt : ((s1.devices.take k).filter Device.isStorage).length =
      ((s.devices.take k).filter Device.isStorage).length := by
    have c1 : SameConfig s { s with state := none, devices := ds } := by
      refine ⟨rfl, rfl, rfl, List.forall₂_same.2 fun _ _ => rfl, List.forall₂_same.2 fun _ _ => rfl, ?_⟩
      refine I.soc.imp fun d d' hd => ?_
      have := resetSoc_ok hd
      cases hs : d.isStorage with
      | false => rw [this.1 hs]; rfl
      | true => obtain ⟨p, _, rfl⟩ := this.2 hs; rfl
    exact filter_take_length (sameConfig_trans c1 (sameConfig_transition I.trans)).devices
      (fun a b hab => hab.classes.2.2.1) k
  refine ⟨d0, hk0, ?_, ⟨x, ?_, ?_⟩, p', q, ?_, ?_, ?_⟩
  · obtain ⟨p, q, rfl⟩ := hd2'
    exact sameMachine_trans (sameMachine_trans hsm0 hsm3) rfl
  · have := slice_get hx
    rw [hfilt] at this
    simpa using this.1
  · rw [eb1]
  · have := slice_get ep
    simpa using this.1
  · have := slice_get eq
    simpa using this.1
  · cases hrel with
    | gen _ _ _ _ _ h1 =>
      have h2 : d0.isStorage = false := (nonSlackGen_notSlack h1).2.2
      simp [hst0] at h2
    | load _ h1 => have h2 : d0.isLoad = true := h1; simp [hl0] at h2
    | slack _ _ h1 => have h2 : d0.isStorage = false := h1; simp [hst0] at h2
    | none _ _ h1 => have h2 : d0.isStorage = false := h1; simp [hst0] at h2
    | storage p2 q2 x2 y2 rows soc _ _ _ hp2 hq2 hsoc hrows hqp =>
      have e1 : p2 = p' := by
        have h2 : a.pSet.get? d0.id = some p2 := Dict.getE_ok.1 hp2
        rw [ap] at h2; injection h2 with h2; exact h2.symm
      have e2 : q2 = q := by
        have h2 : a.qSet.get? d0.id = some q2 := Dict.getE_ok.1 hq2
        rw [aq] at h2; injection h2 with h2; exact h2.symm
      subst e1 e2
      have hd24 := heq hsl0
      refine ⟨{ d0 with soc := some (if p2 ≤ 0 then d0.socMin else d0.socMax), p := x2, q := y2 }, ?_,
        by rw [hd24], by rw [hd24]⟩
      rw [show ({ s with state := none, devices := ds } : Sim K).deltaT = dt from edt] at hrows
      rw [show ({ s with state := none, devices := ds } : Sim K).baseMVA = .fin base from eb] at hqp
      simp only [Device.mapStorage, hrows, bind, Except.bind, Device.project, hqp]

/-- **C20, partial.** After `reset` the states of charge are within the limits exactly if the requested
ones are; missing: the claim for every vector is false (`C20_counterexample`). -/
theorem C20_reset_soc_partial {init : List (X K)} {b : Bool} (hn : CleanFile n base)
    (hs : SimOf n dt lam s) (h : s.reset c init = .ok (s', b)) :
    SocOk s' ↔ ∀ k d x, s.devices[k]? = some d → d.isStorage = true →
      init[2 * s.nDevice + ((s.devices.take k).filter Device.isStorage).length]? = some x →
      d.socMin ≤ x / .fin base ∧ x / .fin base ≤ d.socMax := by
  constructor
  · intro ho k d x hk hst hx
    obtain ⟨d', hk', hsm'⟩ := forall₂_get (sameConfig_reset h).devices.flip hk
    have hsm : SameMachine d d' := hsm'
    have hst' : d'.isStorage = true := hsm.classes.2.2.1.trans hst
    obtain ⟨d0, h0, _, ⟨x', hx', hsoc⟩, _⟩ := reset_storage hn hs h hk' hst'
    obtain ⟨y, hy, l1, l2⟩ := ho d' (List.mem_of_getElem? hk') hst'
    rw [hx] at hx'
    injection hx' with hx'
    rw [hsoc] at hy
    injection hy with hy
    rw [hx', hy]
    rw [hsm] at l1 l2
    exact ⟨l1, l2⟩
  · intro H d hd hst
    obtain ⟨k, hk⟩ := List.mem_iff_getElem?.1 hd
    obtain ⟨d0, h0, hsm, ⟨x, hx, hsoc⟩, _⟩ := reset_storage hn hs h hk hst
    have := H k d0 x h0 (hsm.classes.2.2.1.symm.trans hst) hx
    refine ⟨_, hsoc, ?_⟩
    rw [hsm]
    exact this

/-- A transition with a sound solver is impossible when a storage unit is so far above `soc_max` that it
cannot get back below it in one time step. -/
theorem C20_overfull_stuck {t soc : K} {g : DesParams K} (hn : CleanFile n base)
    (hs : SimOf n (.fin t) lam s) (ht : 0 < t) (hq : QPSound 0 c.qp) (hd : d ∈ s.devices)
    (hst : d.isStorage = true) (hg : HasDesParams d g) (he : 0 < g.eff) (hsoc : d.soc = some (.fin soc))
    (hover : g.pmax < (soc - g.socMax) / (t * g.eff)) :
    s.transition c a ≠ .ok (s', out) := by
  intro h
  obtain ⟨d', hd', hsm⟩ := forall₂_mem_left (sameConfig_transition h).devices hd
  obtain ⟨r, _, ids, df, hok, hmk, hsf, hsl⟩ := simOf_storage hn hs hd hst
  obtain ⟨ds, o, I⟩ := transition_ok h
  obtain ⟨d2, _, d1, hr, _⟩ := forall₂_mem_left I.devices hd
  have hgf : HasDesParams df g := by
    rw [hsf] at hg
    exact ⟨hg.1, hg.2, hg.3, hg.4, hg.5, hg.6, hg.7, hg.8, hg.9, hg.10, hg.11⟩
  have edt : s.deltaT = .fin t := (simOf_base hs).2.1
  have hrows := desRows_eq hmk hgf hsf hsoc ht he
  cases hr with
  | gen _ _ _ _ _ h1 => exact absurd (nonSlackGen_notSlack h1).2.2 (by simp [hst])
  | load _ h1 =>
    unfold Device.isLoad at h1; unfold Device.isStorage at hst
    cases hc : d.kind <;> simp_all
  | slack _ _ h1 => simp [hst] at h1
  | none _ _ h1 => simp [hst] at h1
  | storage p2 q2 x2 y2 rows soc' _ _ _ hp2 hq2 hsoc' hrows' hqp =>
    rw [edt, hrows] at hrows'
    injection hrows' with hrows'
    subst hrows'
    have F := hq _ _ _ hqp
    simp only [FeasibleTol, List.mem_cons, List.not_mem_nil, or_false, forall_eq_or_imp, forall_eq] at F
    obtain ⟨f1, f2, f3, _, _, _, _, _, f9, _⟩ := F
    obtain ⟨y, rfl⟩ := row_finite_q f1
    obtain ⟨x, rfl⟩ := row_finite_p f3
    simp only [X.fin_mul_fin, X.fin_add_fin, X.fin_le_fin, zero_mul, add_zero, one_mul, neg_mul,
      neg_div, neg_le_neg_iff] at f2 f9
    linarith

theorem qpExact_keeps {qp : QP K} (h : QPExact qp) : QPKeeps qp := by
  intro rows p q hf hfe
  cases hx : qp rows (.fin p, .fin q) with
  | none => exact absurd hfe (h.complete _ p q hf hx _ _)
  | some x =>
    obtain ⟨p', q', rfl, hc⟩ := h.closest _ p q x hf hx
    have := hc.2 p q hfe
    simp only [sqDist, sub_self] at this
    have h1 : (p' - p) ^ 2 = 0 := by nlinarith [sq_nonneg (p' - p), sq_nonneg (q' - q)]
    have h2 : (q' - q) ^ 2 = 0 := by nlinarith [sq_nonneg (p' - p), sq_nonneg (q' - q)]
    have h1 := pow_eq_zero_iff (two_ne_zero) |>.1 h1
    have h2 := pow_eq_zero_iff (two_ne_zero) |>.1 h2
    rw [sub_eq_zero.1 h1, sub_eq_zero.1 h2]

/-- **C24.** With a solver that keeps feasible requests (`qpExact_keeps`: in particular an exact one), if the requested `(P, Q)` of the storage unit at position `k` is in its
capability region and sustainable from the extreme state of charge selected by the sign of `P`, the unit
injects exactly `(P, Q)` after `reset` and its state of charge is exactly the requested one. -/
theorem C24_reset_injection {init : List (X K)} {b : Bool} {t p q soc : K} {g : DesParams K}
    (hn : CleanFile n base) (hs : SimOf n (.fin t) lam s) (ht : 0 < t) (hq : QPKeeps c.qp)
    (h : s.reset c init = .ok (s', b)) {k : ℕ} (hk : s'.devices[k]? = some d)
    (hst : d.isStorage = true) (hg : HasDesParams d g) (he : 0 < g.eff)
    (hp : init[k]? = some (.fin p)) (hqq : init[s.nDevice + k]? = some (.fin q))
    (hsoc : init[2 * s.nDevice + ((s.devices.take k).filter Device.isStorage).length]? =
      some (.fin soc))
    (hreg : DesRegion g t (if p ≤ 0 then g.socMin else g.socMax) (p / base) (q / base)) :
    d.p = .fin (p / base) ∧ d.q = .fin (q / base) ∧ d.soc = some (.fin (soc / base)) := by
  have hb := basePos_of_simOf hn hs
  obtain ⟨d0, hk0, hsm, ⟨x, hx, hso⟩, p', q', hp', hq', d1, hm, e1, e2⟩ := reset_storage hn hs h hk hst
  rw [hsoc] at hx
  injection hx with hx
  rw [hp] at hp'
  injection hp' with hp'
  rw [hqq] at hq'
  injection hq' with hq'
  subst hx hp' hq'
  have hd0 : d0 ∈ s.devices := List.mem_of_getElem? hk0
  obtain ⟨r, _, ids, df, hok, hmk, hsf, _⟩ := simOf_storage hn hs hd0 (hsm.classes.2.2.1.symm.trans hst)
  have hsd := sameMachine_trans hsf hsm
  have hgf : HasDesParams df g := by
    rw [hsd] at hg
    exact ⟨hg.1, hg.2, hg.3, hg.4, hg.5, hg.6, hg.7, hg.8, hg.9, hg.10, hg.11⟩
  have hg0 : HasDesParams d0 g := by
    rw [hsm] at hg
    exact ⟨hg.1, hg.2, hg.3, hg.4, hg.5, hg.6, hg.7, hg.8, hg.9, hg.10, hg.11⟩
  have hdiv : ∀ y : K, (X.fin y / X.fin base : X K) = .fin (y / base) := fun y =>
    X.fin_div_fin hb.ne'
  have hmin : (if (X.fin p : X K) ≤ 0 then d0.socMin else d0.socMax) =
      .fin (if p ≤ 0 then g.socMin else g.socMax) := by
    by_cases hp0 : p ≤ 0
    · rw [if_pos hp0, if_pos (show (X.fin p : X K) ≤ 0 from hp0), hg0.socMin]
    · rw [if_neg hp0, if_neg (show ¬ (X.fin p : X K) ≤ 0 from hp0), hg0.socMax]
  rw [hmin, hdiv, hdiv] at hm
  have hsd : SameMachine df
      { d0 with soc := some (.fin (if p ≤ 0 then g.socMin else g.socMax)) } := sameMachine_trans hsf rfl
  obtain ⟨rows, hr, hiff⟩ := C13_storage_region hok hb hmk hgf hsd rfl ht he
  have hrows := desRows_eq hmk hgf hsd rfl ht he
  have hf : FinCoeffs rows := by
    rw [hr] at hrows
    injection hrows with hrows
    rw [hrows]
    simp [FinCoeffs, X.IsFin]
  have hk2 := hq rows _ _ hf (hiff.2 hreg)
  simp only [Device.mapStorage, hr, bind, Except.bind, Device.project, hk2] at hm
  injection hm with hm
  rw [e1, e2, ← hm, hso, hdiv]
  exact ⟨rfl, rfl, rfl⟩

end

end

end Anm
