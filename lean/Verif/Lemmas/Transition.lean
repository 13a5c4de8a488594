import Verif.Lemmas.LoadCase
import Verif.Spec.Sim

/-! # Structure of `transition` and `reset` -/

set_option linter.unusedSectionVars false

namespace Anm

open Spec

section
variable {K : Type} [Field K] [LinearOrder K]

theorem sameMachine_refl (d : Device K) : SameMachine d d := rfl

theorem sameMachine_iff {d d' : Device K} :
    SameMachine d d' ↔ ∃ p q pot soc, d' = { d with p := p, q := q, pPot := pot, soc := soc } := by
  constructor
  · intro h; exact ⟨_, _, _, _, h⟩
  · rintro ⟨p, q, pot, soc, rfl⟩; rfl

theorem sameMachine_trans {d d' d'' : Device K} (h : SameMachine d d') (h' : SameMachine d' d'') :
    SameMachine d d'' := by
  rw [sameMachine_iff] at h h' ⊢
  obtain ⟨p, q, pot, soc, rfl⟩ := h
  obtain ⟨p', q', pot', soc', rfl⟩ := h'
  exact ⟨p', q', pot', soc', rfl⟩

theorem sameMachine_symm {d d' : Device K} (h : SameMachine d d') : SameMachine d' d := by
  rw [sameMachine_iff] at h ⊢
  obtain ⟨p, q, pot, soc, rfl⟩ := h
  exact ⟨d.p, d.q, d.pPot, d.soc, rfl⟩

theorem sameBus_iff {b b' : Bus K} :
    SameBus b b' ↔ ∃ p q v i, b' = { b with p := p, q := q, v := v, i := i } := by
  constructor
  · intro h; exact ⟨_, _, _, _, h⟩
  · rintro ⟨p, q, v, i, rfl⟩; rfl

theorem sameBus_trans {b b' b'' : Bus K} (h : SameBus b b') (h' : SameBus b' b'') :
    SameBus b b'' := by
  rw [sameBus_iff] at h h' ⊢
  obtain ⟨p, q, v, i, rfl⟩ := h
  obtain ⟨p', q', v', i', rfl⟩ := h'
  exact ⟨p', q', v', i', rfl⟩

theorem sameBus_symm {b b' : Bus K} (h : SameBus b b') : SameBus b' b := by
  rw [sameBus_iff] at h ⊢
  obtain ⟨p, q, v, i, rfl⟩ := h
  exact ⟨b.p, b.q, b.v, b.i, rfl⟩

theorem forall₂_trans {α : Type} {R S T : α → α → Prop} {l l' l'' : List α}
    (hRS : ∀ a b c, R a b → S b c → T a c) (h : List.Forall₂ R l l') (h' : List.Forall₂ S l' l'') :
    List.Forall₂ T l l'' := by
  induction h generalizing l'' with
  | nil => cases h'; exact .nil
  | cons hab _ ih =>
    cases h' with
    | cons hbc h' => exact .cons (hRS _ _ _ hab hbc) (ih h')

theorem sameConfig_refl (s : Sim K) : SameConfig s s :=
  ⟨rfl, rfl, rfl, List.forall₂_same.2 fun _ _ => rfl, List.forall₂_same.2 fun _ _ => rfl,
    List.forall₂_same.2 fun _ _ => rfl⟩

theorem sameConfig_trans {s s' s'' : Sim K} (h : SameConfig s s') (h' : SameConfig s' s'') :
    SameConfig s s'' :=
  ⟨h'.base.trans h.base, h'.dt.trans h.dt, h'.lamb.trans h.lamb,
    forall₂_trans (R := SameBus) (S := SameBus) (fun _ _ _ => sameBus_trans) h.buses h'.buses,
    forall₂_trans (fun _ _ _ a b => b.trans a) h.branches h'.branches,
    forall₂_trans (R := SameMachine) (S := SameMachine) (fun _ _ _ => sameMachine_trans)
      h.devices h'.devices⟩

theorem sameConfig_symm {s s' : Sim K} (h : SameConfig s s') : SameConfig s' s :=
  ⟨h.base.symm, h.dt.symm, h.lamb.symm, h.buses.flip.imp fun _ _ => sameBus_symm,
    h.branches.flip.imp fun _ _ => Eq.symm, h.devices.flip.imp fun _ _ => sameMachine_symm⟩

/-! ### One device -/

/-- The result of the device loop for one device, by class. -/
inductive StepRel (qp : QP K) (base dt : X K) (a : Sim.Args K) (d : Device K) : Device K → Prop where
  | load (x : X K) : d.isLoad = true → a.pLoad.getE d.id = .ok x →
      StepRel qp base dt a d (d.mapLoad (x / base))
  | gen (pot p q x y : X K) : d.isNonSlackGen = true → d.isLoad = false → a.pPot.getE d.id = .ok pot →
      a.pSet.getE d.id = .ok p → a.qSet.getE d.id = .ok q →
      qp (d.setPPot (X.clip (pot / base) d.pMin d.pMax)).genConstraints (p / base, q / base) = some (x, y) →
      StepRel qp base dt a d
        { d.setPPot (X.clip (pot / base) d.pMin d.pMax) with p := x, q := y }
  | storage (p q x y : X K) (rows : List (HalfPlane K)) (soc : X K) :
      d.isStorage = true → d.isNonSlackGen = false → d.isLoad = false →
      a.pSet.getE d.id = .ok p → a.qSet.getE d.id = .ok q → d.soc = some soc →
      d.storageConstraints dt = .ok rows → qp rows (p / base, q / base) = some (x, y) →
      StepRel qp base dt a d
        { d with p := x, q := y, soc := some (X.clip (if x ≤ 0 then soc - dt * d.eff * x else
            soc - dt * x / d.eff) d.socMin d.socMax) }
  | slack : d.isLoad = false → d.isNonSlackGen = false → d.isStorage = false → d.isSlack = true →
      StepRel qp base dt a d { d with p := 0, q := 0 }
  | none : d.isLoad = false → d.isNonSlackGen = false → d.isStorage = false → d.isSlack = false →
      StepRel qp base dt a d d

theorem project_ok {qp : QP K} {rows : List (HalfPlane K)} {d d' : Device K} {p q : X K} :
    Device.project qp rows d p q = .ok d' ↔
      ∃ x y, qp rows (p, q) = some (x, y) ∧ d' = { d with p := x, q := y } := by
  unfold Device.project
  split
  · simp_all
  · rename_i h
    simp only [Except.ok.injEq]
    constructor
    · rintro rfl; exact ⟨_, _, h, rfl⟩
    · rintro ⟨x, y, h', rfl⟩
      rw [h] at h'
      simp only [Option.some.injEq, Prod.mk.injEq] at h'
      rw [h'.1, h'.2]

theorem stepDevice_ok {qp : QP K} {base dt : X K} {a : Sim.Args K} {d d' : Device K}
    (h : Sim.stepDevice qp base dt a d = .ok d') : StepRel qp base dt a d d' := by
  unfold Sim.stepDevice at h
  split at h
  · rename_i h1
    simp only [bind_ok, pure_ok] at h
    obtain ⟨x, hx, rfl⟩ := h
    exact .load x h1 hx
  · rename_i h1
    split at h
    · rename_i h2
      simp only [bind_ok, Device.mapGen, project_ok] at h
      obtain ⟨pot, hpot, p, hp, q, hq, x, y, hqp, rfl⟩ := h
      exact .gen pot p q x y h2 (by simpa using h1) hpot hp hq hqp
    · rename_i h2
      split at h
      · rename_i h3
        simp only [bind_ok, Device.mapStorage, project_ok] at h
        obtain ⟨p, hp, q, hq, d1, ⟨rows, hr, x, y, hxy, rfl⟩, hu⟩ := h
        cases hs : d.soc with
        | none => simp [Device.storageConstraints, hs] at hr
        | some soc =>
          simp only [Device.updateSoc, hs] at hu
          injection hu with hu
          subst hu
          exact .storage p q x y rows soc h3 (by simpa using h2) (by simpa using h1) hp hq hs hr hxy
      · rename_i h3
        split at h
        · rename_i h4
          simp only [pure_ok] at h
          subst h
          exact .slack (by simpa using h1) (by simpa using h2) (by simpa using h3) h4
        · rename_i h4
          simp only [pure_ok] at h
          subst h
          exact .none (by simpa using h1) (by simpa using h2) (by simpa using h3) (by simpa using h4)

theorem StepRel.same {qp : QP K} {base dt : X K} {a : Sim.Args K} {d d' : Device K}
    (h : StepRel qp base dt a d d') : SameMachine d d' := by
  cases h <;> exact rfl

/-! ### The whole transition -/

/-- What `applyPF` does. -/
structure ApplyInv (s : Sim K) (o : PFOut K) (s' : Sim K) : Prop where
  buses : s'.buses = s.buses.mapIdx fun k b =>
    { b with
      v := o.v k, i := o.i k
      p := if b.isSlack then Sim.nanToInf o.slackP else b.p
      q := if b.isSlack then Sim.nanToInf o.slackQ else b.q }
  devices : List.Forall₂ (fun d d' => (d.isSlack = false → d' = d) ∧
    (d.isSlack = true → ∃ b, s'.buses.find? (fun b => b.id = d.busId) = some b ∧
      d' = { d with p := b.p, q := b.q })) s.devices s'.devices
  branches : s'.branches = s.branches.mapIdx fun k b => { b with flow := o.flow k }
  base : s'.baseMVA = s.baseMVA
  dt : s'.deltaT = s.deltaT
  lamb : s'.lamb = s.lamb

theorem applyPF_ok {s s' : Sim K} {o : PFOut K} (h : s.applyPF o = .ok s') : ApplyInv s o s' := by
  simp only [Sim.applyPF, bind_ok, pure_ok] at h
  obtain ⟨ds, hds, rfl⟩ := h
  refine ⟨rfl, ?_, rfl, rfl, rfl, rfl⟩
  refine (mapE_ok.1 hds).imp fun d d' hd => ?_
  constructor
  · intro hs
    simp only [hs, Bool.false_eq_true, if_false] at hd
    injection hd with hd
    exact hd.symm
  · intro hs
    simp only [hs, if_true] at hd
    split at hd
    · rename_i b hb
      injection hd with hd
      exact ⟨b, hb, by rw [← hd, hs]⟩
    · simp at hd

/-- What `solveStep` does. -/
structure SolveInv (c : Ctx K) (s : Sim K) (a : Sim.Args K) (ds : List (Device K)) (o : PFOut K)
    (s' : Sim K) : Prop where
  step : List.Forall₂ (fun d d' => Sim.stepDevice c.qp s.baseMVA s.deltaT a d = .ok d') s.devices ds
  pf : c.pf (Sim.pfIn { s with devices := ds, buses := s.buses.map (Sim.busInjections ds) }) = .ok o
  apply : ApplyInv { s with devices := ds, buses := s.buses.map (Sim.busInjections ds) } o s'
  conv : s'.pfeConverged = some o.stable

theorem solveStep_ok {c : Ctx K} {s s' : Sim K} {a : Sim.Args K}
    (h : s.solveStep c a = .ok s') : ∃ ds o, SolveInv c s a ds o s' := by
  simp only [Sim.solveStep, bind_ok, pure_ok] at h
  obtain ⟨ds, hds, o, ho, s1, hs1, rfl⟩ := h
  have A := applyPF_ok hs1
  exact ⟨ds, o, mapE_ok.1 hds, ho, ⟨A.buses, A.devices, A.branches, A.base, A.dt, A.lamb⟩, rfl⟩

/-- What `transition` does. -/
structure TransInv (c : Ctx K) (s : Sim K) (a : Sim.Args K) (ds : List (Device K)) (o : PFOut K)
    (s' : Sim K) (out : Sim.TransOut K) : Prop where
  solve : SolveInv c s a ds o s'
  state : ∃ st, s'.gatherState c.pi = .ok st ∧ s'.state = some st
  reward : s'.computeReward = .ok (out.reward, out.eLoss, out.penalty)
  converged : out.converged = o.stable

theorem gatherState_state (pi : K) (s : Sim K) (st : Option (SimState K)) :
    ({ s with state := st } : Sim K).gatherState pi = s.gatherState pi := rfl

theorem computeReward_state (s : Sim K) (st : Option (SimState K)) :
    ({ s with state := st } : Sim K).computeReward = s.computeReward := rfl

theorem transition_ok {c : Ctx K} {s s' : Sim K} {a : Sim.Args K} {out : Sim.TransOut K}
    (h : s.transition c a = .ok (s', out)) : ∃ ds o, TransInv c s a ds o s' out := by
  simp only [Sim.transition, bind_ok, pure_ok, Prod.mk.injEq] at h
  obtain ⟨s1, hs1, st, hst, ⟨r, e, pen⟩, hr, rfl, rfl⟩ := h
  obtain ⟨ds, o, I⟩ := solveStep_ok hs1
  have A := I.apply
  refine ⟨ds, o, ⟨I.step, I.pf, ⟨A.buses, A.devices, A.branches, A.base, A.dt, A.lamb⟩, I.conv⟩,
    ⟨st, hst, rfl⟩, hr, ?_⟩
  simp [I.conv]

theorem forall₂_mapIdx {α β : Type} {R : α → β → Prop} (f : ℕ → α → β) (l : List α)
    (h : ∀ k a, R a (f k a)) : List.Forall₂ R l (l.mapIdx f) := by
  induction l generalizing f with
  | nil => exact .nil
  | cons a l ih =>
    rw [List.mapIdx_cons]
    exact .cons (h 0 a) (ih _ fun k a => h (k + 1) a)

theorem forall₂_map' {α β : Type} {R : α → β → Prop} (f : α → β) (l : List α)
    (h : ∀ a, R a (f a)) : List.Forall₂ R l (l.map f) := by
  induction l with
  | nil => exact .nil
  | cons a l ih => exact .cons (h a) ih

/-- Devices before and after a transition. -/
theorem TransInv.devices {c : Ctx K} {s s' : Sim K} {a : Sim.Args K} {ds : List (Device K)}
    {o : PFOut K} {out : Sim.TransOut K} (I : TransInv c s a ds o s' out) :
    List.Forall₂ (fun d d' => ∃ d1, StepRel c.qp s.baseMVA s.deltaT a d d1 ∧
      (d.isSlack = false → d' = d1) ∧ ∃ p q, d' = { d1 with p := p, q := q }) s.devices s'.devices := by
  refine forall₂_trans ?_ I.solve.step I.solve.apply.devices
  intro d d1 d' h1 h2
  have hr := stepDevice_ok h1
  have e : d1.isSlack = d.isSlack := by rw [hr.same]
  refine ⟨d1, hr, fun hs => h2.1 (e.trans hs), ?_⟩
  by_cases hd : d1.isSlack = true
  · obtain ⟨b, _, hb⟩ := h2.2 hd
    exact ⟨_, _, hb⟩
  · exact ⟨d1.p, d1.q, h2.1 (by simpa using hd)⟩

theorem sameConfig_transition {c : Ctx K} {s s' : Sim K} {a : Sim.Args K} {out : Sim.TransOut K}
    (h : s.transition c a = .ok (s', out)) : SameConfig s s' := by
  obtain ⟨ds, o, I⟩ := transition_ok h
  have A := I.solve.apply
  refine ⟨A.base, A.dt, A.lamb, ?_, ?_, ?_⟩
  · rw [A.buses]
    refine forall₂_trans (R := SameBus) (S := SameBus) (fun _ _ _ => sameBus_trans)
      (forall₂_map' (Sim.busInjections ds) s.buses fun b => ?_) (forall₂_mapIdx _ _ fun k b => ?_)
    · exact rfl
    · exact rfl
  · rw [A.branches]
    exact forall₂_mapIdx _ _ fun _ _ => rfl
  · refine I.devices.imp fun d d' hd => ?_
    obtain ⟨d1, h1, _, p, q, rfl⟩ := hd
    exact sameMachine_trans h1.same rfl

theorem sameConfig_reach {c : Ctx K} {s s' : Sim K} (h : Reach c s s') : SameConfig s s' := by
  induction h with
  | refl => exact sameConfig_refl _
  | tail _ h ih =>
    obtain ⟨a, o, h⟩ := h
    exact sameConfig_trans ih (sameConfig_transition h)

theorem resetSoc_ok {ps : Dict ℤ (X K)} {d d' : Device K} (h : Sim.resetSoc ps d = .ok d') :
    (d.isStorage = false → d' = d) ∧ (d.isStorage = true → ∃ p, ps.getE d.id = .ok p ∧
      d' = { d with soc := some (if p ≤ 0 then d.socMin else d.socMax) }) := by
  unfold Sim.resetSoc at h
  split at h
  · rename_i hs
    simp only [bind_ok, pure_ok] at h
    obtain ⟨p, hp, rfl⟩ := h
    exact ⟨fun h => by simp [hs] at h, fun _ => ⟨p, hp, rfl⟩⟩
  · rename_i hs
    simp only [pure_ok] at h
    exact ⟨fun _ => h.symm, fun h => absurd h hs⟩

theorem assignSoc_ok {base : X K} {soc : List (X K)} {ds ds' : List (Device K)} {k : ℕ}
    (h : Sim.assignSoc base soc ds k = .ok ds') :
    List.Forall₂ (fun d d' => (d.isStorage = false → d' = d) ∧
      (d.isStorage = true → ∃ x, d' = { d with soc := some (x / base) })) ds ds' := by
  induction ds generalizing ds' k with
  | nil => simp [Sim.assignSoc] at h; subst h; exact .nil
  | cons d ds ih =>
    unfold Sim.assignSoc at h
    split at h
    · rename_i hs
      simp only [bind_ok, pure_ok] at h
      obtain ⟨x, hx, ds1, h1, rfl⟩ := h
      exact .cons ⟨fun h => by simp [hs] at h, fun _ => ⟨x, rfl⟩⟩ (ih h1)
    · rename_i hs
      simp only [bind_ok, pure_ok] at h
      obtain ⟨ds1, h1, rfl⟩ := h
      exact .cons ⟨fun _ => rfl, fun h => absurd h hs⟩ (ih h1)

/-- What `reset` does. -/
structure ResetInv (c : Ctx K) (s : Sim K) (init : List (X K)) (a : Sim.Args K)
    (ds ds' : List (Device K)) (s1 s' : Sim K) (out : Sim.TransOut K) : Prop where
  args : Sim.resetArgs (Sim.slice init 0 s.nDevice) (Sim.slice init s.nDevice (2 * s.nDevice))
    (Sim.slice init (2 * s.nDevice + s.nDes) (2 * s.nDevice + s.nDes + s.nNonSlackGen)) s.devices 0 0
    { pLoad := [], pPot := [], pSet := [], qSet := [] } = .ok a
  soc : List.Forall₂ (fun d d' => Sim.resetSoc a.pSet d = .ok d') s.devices ds
  trans : Sim.transition c { s with state := none, devices := ds } a = .ok (s1, out)
  assign : Sim.assignSoc s1.baseMVA (Sim.slice init (2 * s.nDevice) (2 * s.nDevice + s.nDes))
    s1.devices 0 = .ok ds'
  result : ∃ st, s'.gatherState c.pi = .ok st ∧ s' = { s1 with devices := ds', state := some st }

theorem reset_ok {c : Ctx K} {s s' : Sim K} {init : List (X K)} {conv : Bool}
    (h : s.reset c init = .ok (s', conv)) :
    ∃ a ds ds' s1 out, ResetInv c s init a ds ds' s1 s' out ∧ conv = out.converged := by
  simp only [Sim.reset, bind_ok, pure_ok, Prod.mk.injEq] at h
  obtain ⟨a, ha, ds, hds, ⟨s1, out⟩, ht, ds', hd', st, hst, h1, h2⟩ := h
  refine ⟨a, ds, ds', s1, out, ⟨ha, mapE_ok.1 hds, ht, hd', st, ?_, h1.symm⟩, h2.symm⟩
  rw [← h1]
  exact hst

theorem sameConfig_reset {c : Ctx K} {s s' : Sim K} {init : List (X K)} {conv : Bool}
    (h : s.reset c init = .ok (s', conv)) : SameConfig s s' := by
  obtain ⟨a, ds, ds', s1, out, I, _⟩ := reset_ok h
  have h1 : SameConfig s { s with state := none, devices := ds } := by
    refine ⟨rfl, rfl, rfl, List.forall₂_same.2 fun _ _ => rfl, List.forall₂_same.2 fun _ _ => rfl, ?_⟩
    refine I.soc.imp fun d d' hd => ?_
    have := resetSoc_ok hd
    cases hs : d.isStorage with
    | false => rw [this.1 hs]; rfl
    | true => obtain ⟨p, _, rfl⟩ := this.2 hs; rfl
  have h2 := sameConfig_transition I.trans
  obtain ⟨st, _, rfl⟩ := I.result
  refine sameConfig_trans (sameConfig_trans h1 h2) ⟨rfl, rfl, rfl, List.forall₂_same.2 fun _ _ => rfl,
    List.forall₂_same.2 fun _ _ => rfl, ?_⟩
  refine (assignSoc_ok I.assign).imp fun d d' hd => ?_
  cases hs : d.isStorage with
  | false => rw [hd.1 hs]; rfl
  | true => obtain ⟨p, rfl⟩ := hd.2 hs; rfl

section
variable [FloorRing K] {n : Network K} {dt lam : X K} {s s' : Sim K} {c : Ctx K}

theorem simOf_mk (h : mkSim n dt lam = .ok s) : SimOf n dt lam s := ⟨s, h, sameConfig_refl s⟩

theorem simOf_transition (h : SimOf n dt lam s) {a : Sim.Args K} {o : Sim.TransOut K}
    (ht : s.transition c a = .ok (s', o)) : SimOf n dt lam s' := by
  obtain ⟨s0, h0, h1⟩ := h
  exact ⟨s0, h0, sameConfig_trans h1 (sameConfig_transition ht)⟩

theorem simOf_reset (h : SimOf n dt lam s) {init : List (X K)} {b : Bool}
    (ht : s.reset c init = .ok (s', b)) : SimOf n dt lam s' := by
  obtain ⟨s0, h0, h1⟩ := h
  exact ⟨s0, h0, sameConfig_trans h1 (sameConfig_reset ht)⟩

theorem simOf_reach (h : SimOf n dt lam s) (ht : Reach c s s') : SimOf n dt lam s' := by
  obtain ⟨s0, h0, h1⟩ := h
  exact ⟨s0, h0, sameConfig_trans h1 (sameConfig_reach ht)⟩

theorem forall₂_mem_right {α β : Type} {R : α → β → Prop} {l : List α} {l' : List β}
    (h : List.Forall₂ R l l') {b : β} (hb : b ∈ l') : ∃ a ∈ l, R a b := by
  induction h with
  | nil => simp at hb
  | cons hab _ ih =>
    rcases List.mem_cons.1 hb with rfl | hb
    · exact ⟨_, by simp, hab⟩
    · obtain ⟨a, ha, h⟩ := ih hb
      exact ⟨a, by simp [ha], h⟩

theorem forall₂_mem_left {α β : Type} {R : α → β → Prop} {l : List α} {l' : List β}
    (h : List.Forall₂ R l l') {a : α} (ha : a ∈ l) : ∃ b ∈ l', R a b := by
  obtain ⟨b, hb, h⟩ := forall₂_mem_right h.flip ha
  exact ⟨b, hb, h⟩

/-- Every device of a simulator of `n` is a machine described by a row of the file. -/
theorem simOf_device (h : SimOf n dt lam s) {d : Device K} (hd : d ∈ s.devices) :
    ∃ r ∈ n.device, ∃ ids d0, mkDevice r ids n.baseMVA = .ok d0 ∧ SameMachine d0 d := by
  obtain ⟨s0, h0, h1⟩ := h
  obtain ⟨_, buses, branches, devices, bl, brl, dl, I, rfl⟩ := mkSim_ok.1 h0
  obtain ⟨d0, hd0, hs⟩ := forall₂_mem_right h1.devices hd
  obtain ⟨r, hr, hm⟩ := I.device_row hd0
  exact ⟨r, hr, _, d0, hm, hs⟩

theorem simOf_base (h : SimOf n dt lam s) :
    s.baseMVA = n.baseMVA ∧ s.deltaT = dt ∧ s.lamb = lam := by
  obtain ⟨s0, h0, h1⟩ := h
  obtain ⟨_, buses, branches, devices, bl, brl, dl, I, rfl⟩ := mkSim_ok.1 h0
  exact ⟨h1.base, h1.dt, h1.lamb⟩

theorem pairwise_forall₂ {α β : Type} {R : α → β → Prop} {S : α → α → Prop} {T : β → β → Prop}
    {l : List α} {l' : List β} (h : List.Forall₂ R l l') (hS : l.Pairwise S)
    (hST : ∀ a b a' b', R a a' → R b b' → S a b → T a' b') : l'.Pairwise T := by
  induction h with
  | nil => exact .nil
  | cons hab h ih =>
    rw [List.pairwise_cons] at hS ⊢
    refine ⟨fun b' hb' => ?_, ih hS.2⟩
    obtain ⟨b, hb, hr⟩ := forall₂_mem_right h hb'
    exact hST _ _ _ _ hab hr (hS.1 b hb)

/-- Device IDs are strictly increasing. -/
theorem simOf_sorted (h : SimOf n dt lam s) : s.devices.Pairwise (fun a b => a.id < b.id) := by
  obtain ⟨s0, h0, h1⟩ := h
  obtain ⟨_, buses, branches, devices, bl, brl, dl, I, rfl⟩ := mkSim_ok.1 h0
  refine pairwise_forall₂ h1.devices I.devices_sorted fun a b a' b' ha hb hab => ?_
  rw [ha, hb]; exact hab

theorem sorted_id_inj {l : List (Device K)} (h : l.Pairwise (fun a b => a.id < b.id)) {d d' : Device K}
    (hd : d ∈ l) (hd' : d' ∈ l) (e : d.id = d'.id) : d = d' := by
  induction l with
  | nil => simp at hd
  | cons a l ih =>
    rw [List.pairwise_cons] at h
    rcases List.mem_cons.1 hd with h1 | h1 <;> rcases List.mem_cons.1 hd' with h2 | h2
    · rw [h1, h2]
    · have := h.1 _ h2
      rw [← h1, e] at this
      exact absurd this (lt_irrefl _)
    · have := h.1 _ h1
      rw [← h2, e] at this
      exact absurd this (lt_irrefl _)
    · exact ih h.2 h1 h2

end

end

end Anm
