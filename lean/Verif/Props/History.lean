import Verif.Lemmas.Transition
import Verif.Props.DynamicsEx

/-! # C42, C74: results do not depend on the past -/

set_option linter.unusedSectionVars false

namespace Anm

open Spec

namespace Spec
variable {K : Type} [Field K] [LinearOrder K]

/-- One call of the API on a simulator object: a transition or a reset. -/
def Call (c : Ctx K) (s s' : Sim K) : Prop :=
  (∃ a out, s.transition c a = .ok (s', out)) ∨ ∃ init conv, s.reset c init = .ok (s', conv)

/-- Any history of transitions and resets. -/
def History (c : Ctx K) : Sim K → Sim K → Prop := Relation.ReflTransGen (Call c)

end Spec

section
variable {K : Type} [Field K] [LinearOrder K]

/-! ### Forgetting what a transition overwrites -/

/-- A device without the quantities that a transition overwrites before reading them. -/
def Device.wipe (d : Device K) : Device K :=
  { d with p := .nan, q := .nan, pPot := if d.isNonSlackGen then .nan else d.pPot }

def Bus.wipe (b : Bus K) : Bus K := { b with p := .nan, q := .nan, v := .undef, i := .undef }

def Branch.wipe (b : Branch K) : Branch K := { line := b.line }

def Sim.wipe (s : Sim K) : Sim K :=
  { s with buses := s.buses.map Bus.wipe, branches := s.branches.map Branch.wipe,
           devices := s.devices.map Device.wipe, state := none, pfeConverged := none }

theorem kind_cases (d : Device K) (h1 : d.isLoad = false) (h2 : d.isNonSlackGen = false)
    (h3 : d.isStorage = false) : d.isSlack = true := by
  unfold Device.isLoad at h1
  unfold Device.isNonSlackGen Device.isGen at h2
  unfold Device.isStorage at h3
  revert h1 h2 h3
  cases d.kind <;> cases d.isSlack <;> simp

theorem stepDevice_wipe (qp : QP K) (base dt : X K) (a : Sim.Args K) (d : Device K) :
    Sim.stepDevice qp base dt a d.wipe = Sim.stepDevice qp base dt a d := by
  have e1 : d.wipe.isLoad = d.isLoad := rfl
  have e2 : d.wipe.isNonSlackGen = d.isNonSlackGen := rfl
  have e3 : d.wipe.isStorage = d.isStorage := rfl
  have e4 : d.wipe.isSlack = d.isSlack := rfl
  have hlg : d.isLoad = true → d.isNonSlackGen = false := by
    unfold Device.isLoad Device.isNonSlackGen Device.isGen
    cases d.kind <;> simp
  unfold Sim.stepDevice
  rw [e1, e2, e3, e4]
  split
  · rename_i h
    simp only [Device.wipe, Device.mapLoad, hlg h, Bool.false_eq_true, if_false]
  split
  · rename_i h
    simp only [Device.wipe, Device.setPPot, Device.mapGen, Device.project, Device.genConstraints]
  split
  · rename_i _ h2 _
    simp only [Device.wipe, h2, Device.mapStorage, Device.project, Device.storageConstraints,
      Device.updateSoc, Bool.false_eq_true, if_false]
  split
  · rename_i h1 h2 h3 h4
    simp only [Device.wipe, h2, Bool.false_eq_true, if_false]
  · rename_i h1 h2 h3 h4
    exact absurd (kind_cases d (by simpa using h1) (by simpa using h2) (by simpa using h3)) h4

theorem mapE_map {α β γ : Type} (f : β → Except PyErr γ) (g : α → β) (l : List α) :
    mapE f (l.map g) = mapE (fun x => f (g x)) l := by
  induction l with
  | nil => rfl
  | cons a l ih => simp only [List.map_cons, mapE, ih]

theorem mapIdx_of_map {α β γ : Type} (f : ℕ → β → γ) (g : α → β) (l : List α) :
    (l.map g).mapIdx f = l.mapIdx fun k x => f k (g x) := by
  apply List.ext_getElem <;> simp

theorem solveStep_wipe (c : Ctx K) (s : Sim K) (a : Sim.Args K) :
    Sim.solveStep c s.wipe a = (Sim.solveStep c s a).map (fun s' => { s' with state := none }) := by
  unfold Sim.solveStep
  have e : mapE (Sim.stepDevice c.qp s.wipe.baseMVA s.wipe.deltaT a) s.wipe.devices =
      mapE (Sim.stepDevice c.qp s.baseMVA s.deltaT a) s.devices := by
    show mapE _ (s.devices.map Device.wipe) = _
    rw [mapE_map]
    simp only [stepDevice_wipe]
    rfl
  rw [e]
  cases mapE (Sim.stepDevice c.qp s.baseMVA s.deltaT a) s.devices with
  | error x => rfl
  | ok ds =>
    have e2 : Sim.pfIn { s.wipe with devices := ds, buses := s.wipe.buses.map (Sim.busInjections ds) } =
        Sim.pfIn { s with devices := ds, buses := s.buses.map (Sim.busInjections ds) } := by
      simp only [Sim.pfIn, Sim.wipe, List.map_map]
      rfl
    simp only [bind, Except.bind]
    rw [e2]
    cases c.pf (Sim.pfIn { s with devices := ds, buses := s.buses.map (Sim.busInjections ds) }) with
    | error x => rfl
    | ok o =>
      have e3 : ((s.wipe.buses.map (Sim.busInjections ds)).mapIdx fun k b => { b with
            v := o.v k, i := o.i k
            p := if b.isSlack then Sim.nanToInf o.slackP else b.p
            q := if b.isSlack then Sim.nanToInf o.slackQ else b.q }) =
          (s.buses.map (Sim.busInjections ds)).mapIdx fun k b => { b with
            v := o.v k, i := o.i k
            p := if b.isSlack then Sim.nanToInf o.slackP else b.p
            q := if b.isSlack then Sim.nanToInf o.slackQ else b.q } := by
        simp only [Sim.wipe, List.map_map, mapIdx_of_map]
        rfl
      have e4 : (s.wipe.branches.mapIdx fun k b => { b with flow := o.flow k }) =
          s.branches.mapIdx fun k b => { b with flow := o.flow k } := by
        simp only [Sim.wipe, mapIdx_of_map]
        rfl
      simp only [Sim.applyPF, bind, Except.bind, pure, Except.pure, e3, e4]
      generalize mapE _ ds = r
      cases r <;> rfl

/-- A transition gives the same result, and leaves the same object, whatever the overwritten
quantities were. -/
theorem transition_wipe (c : Ctx K) (s : Sim K) (a : Sim.Args K) :
    s.wipe.transition c a = s.transition c a := by
  unfold Sim.transition
  rw [solveStep_wipe]
  cases Sim.solveStep c s a with
  | error x => rfl
  | ok s' => rfl

theorem resetArgs_wipe (pd qd pm : List (X K)) (ds : List (Device K)) (i g : ℕ) (a : Sim.Args K) :
    Sim.resetArgs pd qd pm (ds.map Device.wipe) i g a = Sim.resetArgs pd qd pm ds i g a := by
  induction ds generalizing i g a with
  | nil => rfl
  | cons d ds ih =>
    simp only [List.map_cons, Sim.resetArgs, ih]
    rfl

/-- A device without the quantities that a reset overwrites: also the state of charge. -/
def Device.forget (d : Device K) : Device K :=
  { d.wipe with soc := if d.isStorage then none else d.soc }

def Sim.forget (s : Sim K) : Sim K := { s.wipe with devices := s.devices.map Device.forget }

theorem resetSoc_forget (ps : Dict ℤ (X K)) (d : Device K) :
    Sim.resetSoc ps d.forget = (Sim.resetSoc ps d).map Device.wipe := by
  have e : d.forget.isStorage = d.isStorage := rfl
  have e1 : d.forget.id = d.id := rfl
  unfold Sim.resetSoc
  rw [e, e1]
  split
  · cases Dict.getE ps d.id <;> rfl
  · rename_i h
    simp only [pure, Except.pure, Except.map, Device.forget, h]
    rfl

theorem mapE_comp_map {α β γ δ : Type} {f : β → Except PyErr γ} {g : α → β}
    {f' : α → Except PyErr δ} {g' : δ → γ} (h : ∀ x, f (g x) = (f' x).map g') (l : List α) :
    mapE f (l.map g) = (mapE f' l).map (List.map g') := by
  induction l with
  | nil => rfl
  | cons a l ih =>
    simp only [List.map_cons, mapE, ih, h]
    cases f' a with
    | error x => rfl
    | ok y => cases mapE f' l <;> rfl

theorem filter_forget (ds : List (Device K)) (P : Device K → Bool) (h : ∀ d, P d.forget = P d) :
    ((ds.map Device.forget).filter P).length = (ds.filter P).length := by
  rw [List.filter_map, List.length_map]
  congr 2
  funext d
  exact h d

theorem resetArgs_forget (pd qd pm : List (X K)) (ds : List (Device K)) (i g : ℕ) (a : Sim.Args K) :
    Sim.resetArgs pd qd pm (ds.map Device.forget) i g a = Sim.resetArgs pd qd pm ds i g a := by
  induction ds generalizing i g a with
  | nil => rfl
  | cons d ds ih =>
    simp only [List.map_cons, Sim.resetArgs, ih]
    rfl

/-- A reset gives the same result, and leaves the same object, whatever the overwritten quantities
were. -/
theorem reset_forget (c : Ctx K) (s : Sim K) (init : List (X K)) :
    s.forget.reset c init = s.reset c init := by
  unfold Sim.reset
  have e1 : s.forget.nDevice = s.nDevice := by simp [Sim.nDevice, Sim.forget, Sim.wipe]
  have e2 : s.forget.nDes = s.nDes := filter_forget s.devices _ fun _ => rfl
  have e3 : s.forget.nNonSlackGen = s.nNonSlackGen := filter_forget s.devices _ fun _ => rfl
  have e4 : s.forget.devices = s.devices.map Device.forget := rfl
  show ((Sim.resetArgs (Sim.slice init 0 s.forget.nDevice)
      (Sim.slice init s.forget.nDevice (2 * s.forget.nDevice))
      (Sim.slice init (2 * s.forget.nDevice + s.forget.nDes)
        (2 * s.forget.nDevice + s.forget.nDes + s.forget.nNonSlackGen)) s.forget.devices 0 0 _ >>= _) : Except PyErr _) =
    (Sim.resetArgs (Sim.slice init 0 s.nDevice) (Sim.slice init s.nDevice (2 * s.nDevice))
      (Sim.slice init (2 * s.nDevice + s.nDes) (2 * s.nDevice + s.nDes + s.nNonSlackGen)) s.devices 0 0 _ >>= _)
  rw [e1, e2, e3, e4, resetArgs_forget]
  cases Sim.resetArgs (Sim.slice init 0 s.nDevice) (Sim.slice init s.nDevice (2 * s.nDevice))
      (Sim.slice init (2 * s.nDevice + s.nDes) (2 * s.nDevice + s.nDes + s.nNonSlackGen)) s.devices 0 0
      { pLoad := [], pPot := [], pSet := [], qSet := [] } with
  | error x => rfl
  | ok a =>
    have e5 := mapE_comp_map (resetSoc_forget (K := K) a.pSet) s.devices
    simp only [bind, Except.bind]
    rw [e5]
    cases mapE (Sim.resetSoc a.pSet) s.devices with
    | error x => rfl
    | ok ds =>
      have e6 : Sim.transition c { s.forget with state := none, devices := ds.map Device.wipe } a =
        Sim.transition c { s with state := none, devices := ds } a :=
          transition_wipe c { s with state := none, devices := ds } a
      simp only [Except.map]
      rw [e6]
      have e7 : Sim.nDevice { s.forget with state := none, devices := s.devices.map Device.forget } =
        s.nDevice := e1
      have e8 : Sim.nDes { s.forget with state := none, devices := s.devices.map Device.forget } =
        s.nDes := e2
      rw [e7, e8]
      rfl

theorem bus_wipe_same {b b' : Bus K} (h : SameBus b b') : b'.wipe = b.wipe := by
  rw [h]; rfl

/-- Two simulators that agree on everything a reset keeps. -/
theorem forget_eq {s s' : Sim K} (hc : SameConfig s s')
    (hd : List.Forall₂ (fun d d' => Device.forget d' = Device.forget d) s.devices s'.devices) :
    s'.forget = s.forget := by
  have e1 : s'.buses.map Bus.wipe = s.buses.map Bus.wipe := by
    rw [← List.forall₂_eq_eq_eq, List.forall₂_map_left_iff, List.forall₂_map_right_iff]
    exact hc.buses.flip.imp fun _ _ h => bus_wipe_same h
  have e2 : s'.branches.map Branch.wipe = s.branches.map Branch.wipe := by
    rw [← List.forall₂_eq_eq_eq, List.forall₂_map_left_iff, List.forall₂_map_right_iff]
    refine hc.branches.flip.imp fun _ _ h => ?_
    show Branch.mk _ _ = Branch.mk _ _
    rw [h]
  have e3 : s'.devices.map Device.forget = s.devices.map Device.forget := by
    rw [← List.forall₂_eq_eq_eq, List.forall₂_map_left_iff, List.forall₂_map_right_iff]
    exact hd.flip
  simp only [Sim.forget, Sim.wipe, e1, e2, e3, hc.base, hc.dt, hc.lamb]

theorem StepRel.forget {qp : QP K} {base dt : X K} {a : Sim.Args K} {d d' : Device K}
    (h : StepRel qp base dt a d d') : d'.forget = d.forget := by
  have hk : ∀ d : Device K, d.isNonSlackGen = true → d.isStorage = false := by
    intro d
    unfold Device.isNonSlackGen Device.isGen Device.isStorage
    cases d.kind <;> simp
  cases h with
  | load => rfl
  | gen pot p q x y hg =>
    have e : ∀ p q pot soc, Device.isNonSlackGen { d with p := p, q := q, pPot := pot, soc := soc } =
      d.isNonSlackGen := fun _ _ _ _ => rfl
    simp only [Device.forget, Device.wipe, Device.setPPot]
    erw [e _ _ _ d.soc]
    simp only [hg]
    rfl
  | storage p q x y rows soc hs =>
    simp only [Device.forget, Device.wipe]
    have e : ∀ p q pot soc, Device.isStorage { d with p := p, q := q, pPot := pot, soc := soc } =
      d.isStorage := fun _ _ _ _ => rfl
    erw [e _ _ _ (some _)]
    simp only [hs]
    rfl
  | slack => rfl
  | none => rfl

/-- A call changes nothing but what a reset overwrites. -/
theorem forget_transition {c : Ctx K} {s s' : Sim K} {a : Sim.Args K} {out : Sim.TransOut K}
    (h : s.transition c a = .ok (s', out)) : s'.forget = s.forget := by
  obtain ⟨ds, o, I⟩ := transition_ok h
  refine forget_eq (sameConfig_transition h) (I.devices.imp fun d d' hd => ?_)
  obtain ⟨d1, hr, _, p, q, rfl⟩ := hd
  exact hr.forget

theorem forget_soc {d : Device K} (h : d.isStorage = true) (x : Option (X K)) :
    Device.forget { d with soc := x } = d.forget := by
  have e : Device.isStorage { d with soc := x } = d.isStorage := rfl
  simp only [Device.forget, e, h]
  rfl

theorem forget_reset {c : Ctx K} {s s' : Sim K} {init : List (X K)} {conv : Bool}
    (h : s.reset c init = .ok (s', conv)) : s'.forget = s.forget := by
  obtain ⟨a, ds, ds', s1, out, I, _⟩ := reset_ok h
  have hsc := sameConfig_reset h
  obtain ⟨st, _, rfl⟩ := I.result
  refine forget_eq hsc ?_
  obtain ⟨ds1, o, J⟩ := transition_ok I.trans
  refine forall₂_trans (T := fun d d' => Device.forget d' = Device.forget d)
    (R := fun d d' => Device.forget d' = Device.forget d)
    (S := fun d d' => Device.forget d' = Device.forget d) (fun _ _ _ h h' => h'.trans h)
    (l' := s1.devices) ?_ ((assignSoc_ok I.assign).imp fun d d' hd => ?_)
  · refine forall₂_trans (R := fun d d' => Device.forget d' = Device.forget d)
      (S := fun d d' => Device.forget d' = Device.forget d) (fun _ _ _ h h' => h'.trans h)
      (I.soc.imp fun d d' hd => ?_) (J.devices.imp fun d d' hd => ?_)
    · cases hs : d.isStorage with
      | false => rw [(resetSoc_ok hd).1 hs]
      | true => obtain ⟨p, _, rfl⟩ := (resetSoc_ok hd).2 hs; exact forget_soc hs _
    · obtain ⟨d1, hr, _, p, q, rfl⟩ := hd
      exact hr.forget
  · cases hs : d.isStorage with
    | false => rw [hd.1 hs]
    | true => obtain ⟨p, rfl⟩ := hd.2 hs; exact forget_soc hs _

theorem forget_history {c : Ctx K} {s s' : Sim K} (h : History c s s') : s'.forget = s.forget := by
  induction h with
  | refl => rfl
  | tail _ h ih =>
    rcases h with ⟨a, out, h⟩ | ⟨init, conv, h⟩
    · exact (forget_transition h).trans ih
    · exact (forget_reset h).trans ih

/-- **C42.** Take a simulator `s0` and two arbitrary histories of transitions and resets of it.  If they
end with the same states of charge, then the next transition with the same arguments gives the same
result: the same exception, or the same reward, energy loss, penalty, convergence flag and state (and
the whole simulator objects are equal afterwards). -/
theorem C42_memoryless {c : Ctx K} {s0 s1 s2 : Sim K} (h1 : History c s0 s1) (h2 : History c s0 s2)
    (hsoc : s1.devices.map Device.soc = s2.devices.map Device.soc) (a : Sim.Args K) :
    s1.transition c a = s2.transition c a := by
  have hf : s1.forget = s2.forget := (forget_history h1).trans (forget_history h2).symm
  have hw : s1.wipe = s2.wipe := by
    have hd : s1.devices.map Device.forget = s2.devices.map Device.forget := congrArg Sim.devices hf
    have hd' : s1.devices.map Device.wipe = s2.devices.map Device.wipe := by
      clear h1 h2 hf
      generalize s1.devices = l1 at *
      generalize s2.devices = l2 at *
      induction l1 generalizing l2 with
      | nil => cases l2 <;> simp_all
      | cons x l1 ih =>
        cases l2 with
        | nil => simp at hd
        | cons y l2 =>
          simp only [List.map_cons, List.cons.injEq] at hd hsoc ⊢
          refine ⟨?_, ih l2 hsoc.2 hd.2⟩
          have e : ∀ d : Device K, d.wipe = { d.forget with soc := d.soc } := fun _ => rfl
          rw [e x, e y, hd.1, hsoc.1]
    have e : ∀ s : Sim K, s.wipe = { s.forget with devices := s.devices.map Device.wipe } := fun _ => rfl
    rw [e s1, e s2, hf, hd']
  rw [← transition_wipe, hw, transition_wipe]

/-- **C74.** A reset erases the past: after two arbitrary histories of the same simulator, a reset with
the same vector gives the same result (exception, or convergence flag and whole simulator object,
including the reported state), whatever the states of charge were. -/
theorem C74_reset_erases {c : Ctx K} {s0 s1 s2 : Sim K} (h1 : History c s0 s1) (h2 : History c s0 s2)
    (init : List (X K)) : s1.reset c init = s2.reset c init := by
  rw [← reset_forget, forget_history h1, ← forget_history h2, reset_forget]

/-- After the reset, the same sequence of arguments gives the same rewards and states. -/
theorem C74_replay {c : Ctx K} {s0 s1 s2 s1' : Sim K} (h1 : History c s0 s1) (h2 : History c s0 s2)
    {init : List (X K)} {conv : Bool} (hr : s1.reset c init = .ok (s1', conv)) :
    ∃ s2', s2.reset c init = .ok (s2', conv) ∧ ∀ a, s1'.transition c a = s2'.transition c a :=
  ⟨s1', (C74_reset_erases h1 h2 init) ▸ hr, fun _ => rfl⟩

end

/-! ### Example: charging and then discharging the storage unit brings the state of charge back -/

def historyDemo : Except PyErr (Sim ℚ × Sim ℚ × Sim ℚ × Sim ℚ × (Sim ℚ × Sim.TransOut ℚ)) := do
  let (s0, s1, s2, s3) ← demoRun
  let r ← s3.transition demoCtx (demoArgs (-40))
  pure (s0, s1, s2, s3, r)

theorem historyDemo_ok : ∃ x, historyDemo = .ok x ∧
    (x.2.1.devices.map Device.soc = x.2.2.2.1.devices.map Device.soc ∧
      x.2.1.devices.map Device.p ≠ x.2.2.2.1.devices.map Device.p ∧
      x.2.1.devices.map Device.soc ≠ x.2.2.1.devices.map Device.soc) :=
  exOk (by decide +kernel)

/-- Two different histories of the demo network with equal states of charge but different powers, for
which the next transition succeeds. -/
example : ∃ s0 s1 s3 r, mkSim demoNet (.fin (1/4)) (.fin 100) = .ok s0 ∧ History demoCtx s0 s1 ∧
    History demoCtx s0 s3 ∧ s1.devices.map Device.p ≠ s3.devices.map Device.p ∧
    s3.transition demoCtx (demoArgs (-40)) = .ok r ∧ s1.transition demoCtx (demoArgs (-40)) = .ok r := by
  obtain ⟨⟨s0, s1, s2, s3, r⟩, hx, e1, e2, _⟩ := historyDemo_ok
  simp only [historyDemo, demoRun, bind_ok, pure_ok, Prod.mk.injEq] at hx
  obtain ⟨_, ⟨t0, h0, ⟨t1, b⟩, h1, ⟨t2, o2⟩, h2, ⟨t3, o3⟩, h3, rfl⟩, _, hr, rfl, rfl, rfl, rfl, rfl⟩ := hx
  have H1 : History demoCtx t0 t1 := .single (.inr ⟨_, _, h1⟩)
  have H3 : History demoCtx t0 t3 := (H1.tail (.inl ⟨_, _, h2⟩)).tail (.inl ⟨_, _, h3⟩)
  exact ⟨t0, t1, t3, _, h0, H1, H3, e2, hr, (C42_memoryless H1 H3 e1 _).trans hr⟩

/-- Resetting after either history gives the same simulator. -/
example : ∃ s0 s1 s2 s b, History demoCtx s0 s1 ∧ History demoCtx s0 s2 ∧ s1 ≠ s2 ∧
    s1.reset demoCtx demoInit = .ok (s, b) ∧ s2.reset demoCtx demoInit = .ok (s, b) := by
  obtain ⟨⟨s0, s1, s2, s3, r⟩, hx, e1, e2, e3⟩ := historyDemo_ok
  simp only [historyDemo, demoRun, bind_ok, pure_ok, Prod.mk.injEq] at hx
  obtain ⟨_, ⟨t0, h0, ⟨t1, b⟩, h1, ⟨t2, o2⟩, h2, ⟨t3, o3⟩, h3, rfl⟩, _, hr, rfl, rfl, rfl, rfl, rfl⟩ := hx
  have H1 : History demoCtx t0 t1 := .single (.inr ⟨_, _, h1⟩)
  have H2 : History demoCtx t0 t2 := H1.tail (.inl ⟨_, _, h2⟩)
  refine ⟨t0, t1, t2, t1, b, H1, H2, ?_, (C74_reset_erases H1 .refl _).trans h1,
    (C74_reset_erases H2 .refl _).trans h1⟩
  rintro rfl
  exact e3 rfl

end Anm
