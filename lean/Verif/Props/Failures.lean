import Verif.Model.Failures
import Verif.Props.Env

/-! # What an exception leaves behind (C96, C97) -/

set_option linter.unusedSectionVars false
set_option linter.unusedSimpArgs false

namespace Anm

open Spec

theorem exc_ok {α β : Type} (a : α) (k : α → Except PyErr β) : (Except.ok a >>= k) = k a := rfl
theorem exc_error {α β : Type} (x : PyErr) (k : α → Except PyErr β) : (Except.error x >>= k) = .error x := rfl
theorem exc_pure {α : Type} (a : α) : (pure a : Except PyErr α) = .ok a := rfl

namespace Py
variable {σ α β : Type}

/-- What a call returns together with the object it leaves, or the exception. -/
def outcome (m : Py σ α) (s : σ) : Except PyErr (σ × α) :=
  match m s with
  | (.ok a, s') => .ok (s', a)
  | (.error x, _) => .error x

theorem outcome_bind (m : Py σ α) (k : α → Py σ β) (s : σ) :
    outcome (m >>= k) s = outcome m s >>= fun r => outcome (k r.2) r.1 := by
  have e : (m >>= k) s = match m s with | (.ok a, s') => k a s' | (.error x, s') => (.error x, s') := rfl
  unfold outcome
  rw [e]
  rcases m s with ⟨_ | a, s'⟩ <;> rfl

theorem outcome_pure (a : α) (s : σ) : outcome (pure a : Py σ α) s = .ok (s, a) := rfl
theorem outcome_get (s : σ) : outcome (get : Py σ σ) s = .ok (s, s) := rfl
theorem outcome_modify (f : σ → σ) (s : σ) : outcome (modify f) s = .ok (f s, ()) := rfl
theorem outcome_lift (x : Except PyErr α) (s : σ) : outcome (lift x) s = x.map fun a => (s, a) := by
  cases x <;> rfl

theorem outcome_fst {m : Py σ α} {s : σ} : (m s).1 = (outcome m s).map Prod.snd := by
  unfold outcome
  rcases m s with ⟨_ | a, s'⟩ <;> rfl

theorem outcome_ok {m : Py σ α} {s s' : σ} {a : α} : outcome m s = .ok (s', a) ↔ m s = (.ok a, s') := by
  unfold outcome
  rcases m s with ⟨_ | b, t⟩ <;> simp [Prod.ext_iff, and_comm]

theorem outcome_error {m : Py σ α} {s : σ} {x : PyErr} : outcome m s = .error x ↔ (m s).1 = .error x := by
  unfold outcome
  rcases m s with ⟨_ | b, t⟩ <;> simp

/-- Whatever happens, the object is afterwards related to what it was before. -/
def Keeps (R : σ → σ → Prop) (m : Py σ α) : Prop := ∀ s, R s (m s).2

theorem keeps_bind {R : σ → σ → Prop} (ht : ∀ a b c, R a b → R b c → R a c) {m : Py σ α} {k : α → Py σ β}
    (h1 : Keeps R m) (h2 : ∀ a, Keeps R (k a)) : Keeps R (m >>= k) := by
  intro s
  show R s (match m s with | (.ok a, s') => k a s' | (.error x, s') => (.error x, s')).2
  have := h1 s
  rcases h : m s with ⟨_ | a, s'⟩
  · simpa [h] using this
  · rw [h] at this
    exact ht _ _ _ this (h2 a s')

theorem keeps_lift {R : σ → σ → Prop} (hr : ∀ a, R a a) (x : Except PyErr α) : Keeps R (lift x : Py σ α) := fun s => hr s
theorem keeps_pure {R : σ → σ → Prop} (hr : ∀ a, R a a) (x : α) : Keeps R (pure x : Py σ α) := fun s => hr s
theorem keeps_get {R : σ → σ → Prop} (hr : ∀ a, R a a) : Keeps R (get : Py σ σ) := fun s => hr s

/-- The state read by `get` may be used. -/
theorem keeps_getBind {R : σ → σ → Prop} {k : σ → Py σ β} (h : ∀ s, R s (k s s).2) : Keeps R (get >>= k) := h

end Py

open Py

section
variable {K : Type} [Field K] [LinearOrder K]

/-! ### Calls that return do what the functions of the model say -/

theorem outcome_atEnd {α : Type} (f : α → Except PyErr α) (d : α) : outcome (atEnd f) d = (f d).map fun d' => (d', ()) := by
  unfold outcome atEnd
  cases f d <;> rfl

theorem outcome_device (qp : QP K) (base dt : X K) (a : Sim.Args K) (d : Device K) :
    outcome (Sim.devicePy qp base dt a) d = (Sim.stepDevice qp base dt a d).map fun d' => (d', ()) := by
  unfold Sim.devicePy Sim.stepDevice
  simp only [outcome_bind, outcome_get, exc_ok, exc_error, exc_pure, Except.map]
  split_ifs
  · simp only [outcome_bind, outcome_lift, outcome_modify, exc_ok, exc_error, exc_pure, Except.map]
    cases a.pLoad.getE d.id <;> rfl
  · simp only [outcome_bind, outcome_lift, outcome_modify, outcome_atEnd, exc_ok, exc_error, exc_pure, Except.map]
    cases a.pPot.getE d.id <;> [rfl; skip]
    simp only [Except.map, Device.setPPot]
    cases a.pSet.getE d.id <;> [rfl; skip]
    cases a.qSet.getE d.id <;> rfl
  · simp only [outcome_bind, outcome_lift, outcome_modify, outcome_atEnd, exc_ok, exc_error, exc_pure, Except.map]
    cases a.pSet.getE d.id <;> [rfl; skip]
    cases a.qSet.getE d.id <;> [rfl; skip]
    simp only [Except.map, exc_ok]
    cases Device.mapStorage qp d _ _ dt <;> rfl
  · rfl
  · rfl

theorem eachPy_outcome {α : Type} (f : Py α Unit) (g : α → Except PyErr α)
    (h : ∀ d, outcome f d = (g d).map fun d' => (d', ())) (l : List α) :
    outcome (eachPy f) l = (mapE g l).map fun l' => (l', ()) := by
  induction l with
  | nil => rfl
  | cons d ds ih =>
    have hd := h d
    unfold outcome at hd ih ⊢
    simp only [eachPy, mapE]
    rcases hf : f d with ⟨x | _, d'⟩
    · rw [hf] at hd
      simp only at hd ⊢
      cases hg : g d with
      | error y => rw [hg] at hd; cases hd; rfl
      | ok y => rw [hg] at hd; cases hd
    · rw [hf] at hd
      simp only at hd ⊢
      cases hg : g d with
      | error y => rw [hg] at hd; cases hd
      | ok y =>
        rw [hg] at hd
        cases hd
        rcases he : eachPy f ds with ⟨x | _, ds'⟩ <;> rw [he] at ih <;> cases hm : mapE g ds <;> rw [hm] at ih <;>
          simp_all [Except.map, exc_ok, exc_error, exc_pure]

theorem outcome_eachDevice (f : Py (Device K) Unit) (g : Device K → Except PyErr (Device K))
    (h : ∀ d, outcome f d = (g d).map fun d' => (d', ())) (s : Sim K) :
    outcome (Sim.eachDevice f) s = (mapE g s.devices).map fun ds => ({ s with devices := ds }, ()) := by
  have := eachPy_outcome f g h s.devices
  unfold outcome at this ⊢
  unfold Sim.eachDevice
  rcases he : eachPy f s.devices with ⟨x | _, ds'⟩ <;> rw [he] at this <;> cases hm : mapE g s.devices <;>
    rw [hm] at this <;> simp_all [Except.map]

theorem outcome_apply (o : PFOut K) (s : Sim K) : outcome (Sim.applyPy o) s = (s.applyPF o).map fun s' => (s', ()) := by
  unfold Sim.applyPy Sim.applyPF
  simp only [outcome_bind, outcome_modify, outcome_get, exc_ok, exc_error, exc_pure, Except.map]
  rw [outcome_eachDevice _ _ (outcome_atEnd _)]
  simp only
  generalize mapE _ s.devices = r
  cases r <;> rfl

/-- A transition that returns. -/
theorem outcome_transition (c : Ctx K) (s : Sim K) (a : Sim.Args K) :
    outcome (Sim.transitionPy c a) s = s.transition c a := by
  unfold Sim.transitionPy Sim.transition Sim.solveStep
  simp only [outcome_bind, outcome_modify, outcome_get, outcome_lift, outcome_pure, outcome_apply, exc_ok, exc_error, exc_pure, Except.map]
  rw [outcome_eachDevice _ _ (outcome_device c.qp s.baseMVA s.deltaT a)]
  cases mapE (Sim.stepDevice c.qp s.baseMVA s.deltaT a) s.devices with
  | error x => rfl
  | ok ds =>
    simp only [Except.map, exc_ok]
    cases c.pf _ with
    | error x => rfl
    | ok o =>
      simp only [exc_ok]
      cases Sim.applyPF _ o with
      | error x => rfl
      | ok s1 =>
        simp only [exc_ok, exc_pure]
        cases Sim.gatherState c.pi _ with
        | error x => rfl
        | ok st =>
          simp only [exc_ok]
          cases Sim.computeReward (K := K) _ with
          | error x => rfl
          | ok r => rfl

theorem outcome_assign (base : X K) (soc : List (X K)) (l : List (Device K)) (k : ℕ) :
    (match Sim.assignPy base soc l k with
      | (.ok _, l') => .ok l'
      | (.error x, _) => .error x : Except PyErr (List (Device K))) = Sim.assignSoc base soc l k := by
  induction l generalizing k with
  | nil => rfl
  | cons d ds ih =>
    unfold Sim.assignPy Sim.assignSoc
    split_ifs
    · cases Sim.idx soc k with
      | error x => rfl
      | ok x =>
        have := ih (k + 1)
        simp only [exc_ok, exc_error, exc_pure, Except.map]
        rw [← this]
        rcases Sim.assignPy base soc ds (k + 1) with ⟨_ | _, _⟩ <;> rfl
    · have := ih k
      simp only [exc_ok, exc_error, exc_pure, Except.map]
      rw [← this]
      rcases Sim.assignPy base soc ds k with ⟨_ | _, _⟩ <;> rfl

theorem outcome_assignAll (soc : List (X K)) (s : Sim K) :
    outcome (Sim.assignAll soc) s =
      (Sim.assignSoc s.baseMVA soc s.devices 0).map fun ds => ({ s with devices := ds }, ()) := by
  rw [← outcome_assign]
  unfold outcome Sim.assignAll
  rcases Sim.assignPy s.baseMVA soc s.devices 0 with ⟨_ | _, _⟩ <;> rfl

/-- A reset of the simulator that returns. -/
theorem outcome_simReset (c : Ctx K) (s : Sim K) (init : List (X K)) :
    outcome (Sim.resetPy c init) s = s.reset c init := by
  unfold Sim.resetPy Sim.reset
  simp only [outcome_bind, outcome_modify, outcome_get, outcome_lift, outcome_pure, outcome_transition,
    outcome_assignAll, exc_ok, exc_error, exc_pure, Except.map]
  cases Sim.resetArgs _ _ _ _ 0 0 _ with
  | error x => rfl
  | ok a =>
    simp only [Except.map, exc_ok]
    rw [outcome_eachDevice _ _ (outcome_atEnd _)]
    cases mapE (Sim.resetSoc a.pSet) s.devices with
    | error x => rfl
    | ok ds =>
      simp only [Except.map, exc_ok]
      cases Sim.transition c _ a with
      | error x => rfl
      | ok r =>
        simp only [exc_ok]
        cases Sim.assignSoc r.1.baseMVA _ r.1.devices 0 with
        | error x => rfl
        | ok ds' =>
          simp only [exc_ok]
          cases Sim.gatherState c.pi _ <;> rfl

variable {ρ : Type}

theorem outcome_onSim {α : Type} (m : Py (Sim K) α) (o : Obj K ρ) : outcome (Obj.onSim m) o =
    (outcome m o.env.sim).map fun r => ({ o with env := { o.env with sim := r.1 } }, r.2) := by
  unfold outcome Obj.onSim
  rcases m o.env.sim with ⟨_ | _, _⟩ <;> rfl

theorem outcome_hook {α : Type} (spoil : ρ → ρ) (f : ρ → Except PyErr (α × ρ)) (o : Obj K ρ) :
    outcome (Obj.hook spoil f) o = (f o.env.rng).map fun r => ({ o with env := { o.env with rng := r.2 } }, r.1) := by
  unfold outcome Obj.hook
  cases f o.env.rng <;> rfl

theorem outcome_search (c : EnvCtx K ρ) (spoil : ρ → ρ) (size n : ℕ) (o : Obj K ρ) :
    outcome (Obj.searchPy c spoil size n) o = (Env.search c size n o.env.sim o.env.rng).map fun r =>
      ({ o with env := { o.env with sim := r.1, rng := r.2.2 }, state := some r.2.1 }, r.2.1) := by
  induction n generalizing o with
  | zero => rfl
  | succ n ih =>
    unfold Obj.searchPy Env.search
    simp only [outcome_bind, outcome_modify, outcome_hook, outcome_lift, outcome_onSim, outcome_simReset]
    cases c.initState o.env.rng with
    | error x => rfl
    | ok v =>
      simp only [Except.map, exc_ok]
      cases guardE (v.1.length = size) .envInit with
      | error x => rfl
      | ok _ =>
        simp only [Except.map, exc_ok]
        cases Sim.reset c.sim o.env.sim v.1 with
        | error x => rfl
        | ok r =>
          simp only [exc_ok]
          split_ifs
          · rfl
          · rfl
          · rw [ih]; rfl

/-- A reset that returns. -/
theorem outcome_reset (c : EnvCtx K ρ) (spoil : ρ → ρ) (seed : Option ℤ) {o : Obj K ρ} (hd : o.env.dyn = none) :
    outcome (Obj.resetPy c spoil seed) o = (o.env.reset c seed).map fun r => (Obj.ofEnv r.1, r.2) := by
  obtain ⟨e, fl, st⟩ := o
  simp only at hd
  unfold Obj.resetPy Env.reset
  simp only [outcome_bind, outcome_modify, outcome_get, outcome_lift, outcome_search, exc_ok]
  have hi : Env.initSize { e with rng := (seed.map c.seeded).getD e.rng } = e.initSize := rfl
  rw [hi]
  cases Env.search c e.initSize 100 e.sim _ with
  | error x => rfl
  | ok r =>
    simp only [Except.map, exc_ok]
    obtain ⟨s, v, r⟩ := r
    simp only
    cases Env.extract ({ e with sim := s, rng := r } : Env K ρ) v e.stateValues with
    | error x => rfl
    | ok w =>
      simp only [exc_ok]
      cases Env.observe ({ e with sim := s, rng := r } : Env K ρ) w with
      | error x => rfl
      | ok obs =>
        simp only [exc_ok]
        cases guardE ((Env.fixSpace e.obsSpace obs.1.length).contains obs.1 obs.2) PyErr.assertionError with
        | error x => rfl
        | ok _ =>
          simp only [exc_ok, outcome_pure, exc_pure, Obj.ofEnv, hd]
          rfl

theorem outcome_setAux (aux : List (X K)) (k n : ℕ) (o : Obj K ρ) {st : List (X K)} (ho : o.state = some st) :
    outcome (Obj.setAuxPy aux k n) o = (Env.setAux aux k n st).map fun st' => ({ o with state := some st' }, ()) := by
  induction n generalizing o with
  | zero => simp only [Obj.setAuxPy, outcome_pure, Env.setAux, Except.map, ← ho]
  | succ n ih =>
    unfold Obj.setAuxPy Env.setAux
    simp only [outcome_bind, outcome_modify, outcome_get, outcome_lift, ih o ho]
    cases Env.setAux aux k n st with
    | error x => rfl
    | ok st' =>
      simp only [Except.map, exc_ok]
      cases Sim.idx aux n with
      | error x => rfl
      | ok x =>
        simp only [exc_ok, Option.getD_some]
        cases pyPut st' ((n : ℤ) - k) x <;> rfl

theorem outcome_observe (aux : List (X K)) (o : Obj K ρ) {st : List (X K)} (ho : o.state = some st) :
    outcome (Obj.observePy aux) o = (o.env.observeStep st aux).map fun r => ({ o with state := some r.1 }, r.2) := by
  unfold Obj.observePy Env.observeStep
  simp only [outcome_bind, outcome_modify, outcome_get, outcome_lift, outcome_setAux aux _ _ o ho, exc_ok]
  cases Env.setAux aux o.env.nAux o.env.nAux st with
  | error x => rfl
  | ok st' =>
    simp only [Except.map, exc_ok, Option.getD_some]
    cases o.env.extract st' o.env.stateValues with
    | error x => rfl
    | ok w =>
      simp only [exc_ok]
      cases o.env.observe w with
      | error x => rfl
      | ok obs =>
        simp only [exc_ok]
        cases o.env.obsSpace with
        | none => rfl
        | some b =>
          simp only [outcome_bind, outcome_lift]
          cases guardE (b.contains obs.1 obs.2) .assertionError <;> rfl

theorem outcome_advance (c : EnvCtx K ρ) (spoil : ρ → ρ) (act : List (X K)) (e : Env K ρ) (y : EnvDyn K)
    (hy : e.dyn = some y) :
    outcome (Obj.advancePy c spoil y.state act) (Obj.ofEnv e) = (e.advance c y act).map fun r => (Obj.ofEnv r.1, r.2) := by
  have ho : Obj.ofEnv e = ⟨{ e with dyn := none }, some ⟨y.terminated, y.timestep, y.eLoss, y.penalty⟩, some y.state⟩ := by
    simp [Obj.ofEnv, hy]
  rw [ho]
  unfold Obj.advancePy Env.advance Obj.setFlags
  simp only [outcome_bind, outcome_get, outcome_lift, outcome_hook, outcome_onSim, outcome_modify, exc_ok]
  cases c.nextVars y.state e.rng with
  | error x => rfl
  | ok v =>
    simp only [Except.map, exc_ok]
    cases guardE (v.1.length = e.sim.nLoad + e.sim.nNonSlackGen + e.nAux) PyErr.envNextVars with
    | error x => rfl
    | ok _ =>
      simp only [Except.map, exc_ok]
      cases Env.varDicts (v.1.take e.sim.nLoad) (Sim.slice v.1 e.sim.nLoad (e.sim.nLoad + e.sim.nNonSlackGen))
          e.sim.devices 0 0 ([], []) with
      | error x => rfl
      | ok d =>
        simp only [Except.map, exc_ok, outcome_transition]
        cases Sim.transition c.sim e.sim { pLoad := d.1, pPot := d.2, pSet := (Env.decode e.sim act).1, qSet := (Env.decode e.sim act).2 } with
        | error x => rfl
        | ok t =>
          simp only [Except.map, exc_ok]
          have hr : Env.rewardOf { e with sim := t.1, rng := v.2 } t.2.converged t.2.eLoss t.2.penalty
            = Env.rewardOf { e with dyn := none, rng := v.2 } t.2.converged t.2.eLoss t.2.penalty := rfl
          rw [hr]
          cases Env.rewardOf { e with dyn := none, rng := v.2 } t.2.converged t.2.eLoss t.2.penalty with
          | error x => rfl
          | ok r =>
            simp only [Except.map, exc_ok]
            by_cases hc : t.2.converged = true
            · simp only [hc, if_true, Env.vectors]
              simp only [outcome_bind, outcome_modify, outcome_pure, exc_ok]
              rw [outcome_observe (v.1.drop (e.sim.nLoad + e.sim.nNonSlackGen)) ⟨_, _, some y.state⟩ rfl]
              have hr : Env.observeStep { e with sim := t.1, rng := v.2 } y.state (v.1.drop (e.sim.nLoad + e.sim.nNonSlackGen))
                = Env.observeStep { e with sim := t.1, rng := v.2, dyn := none } y.state (v.1.drop (e.sim.nLoad + e.sim.nNonSlackGen)) := rfl
              rw [hr]
              cases Env.observeStep { e with sim := t.1, rng := v.2, dyn := none } y.state (v.1.drop (e.sim.nLoad + e.sim.nNonSlackGen)) <;> rfl
            · simp only [hc, Env.vectors]
              rfl

/-- A step that returns. -/
theorem outcome_step (c : EnvCtx K ρ) (spoil : ρ → ρ) (act : List (X K)) (e : Env K ρ) :
    outcome (Obj.stepPy c spoil act) (Obj.ofEnv e) = (e.step c act).map fun r => (Obj.ofEnv r.1, r.2) := by
  unfold Obj.stepPy Env.step
  simp only [outcome_bind, outcome_get, outcome_lift, exc_ok]
  show (guardE (e.actionSpace.contains act true) .assertionError).map _ >>= _ = _
  cases guardE (e.actionSpace.contains act true) .assertionError with
  | error x => rfl
  | ok _ =>
    simp only [Except.map, exc_ok]
    cases hy : e.dyn with
    | none => simp only [Obj.ofEnv, hy]; rfl
    | some y =>
      have h1 : (Obj.ofEnv e).flags = some ⟨y.terminated, y.timestep, y.eLoss, y.penalty⟩ := by simp [Obj.ofEnv, hy]
      have h2 : (Obj.ofEnv e).state = some y.state := by simp [Obj.ofEnv, hy]
      simp only [h1, h2]
      split_ifs
      · rfl
      · rw [outcome_advance c spoil act e y hy]; rfl

/-! ### What survives an exception -/

theorem keeps_each {α : Type} {R : α → α → Prop} (hr : ∀ a, R a a) {f : Py α Unit} (hf : Keeps R f) (l : List α) :
    List.Forall₂ R l (eachPy f l).2 := by
  induction l with
  | nil => exact .nil
  | cons d ds ih =>
    have hd := hf d
    rw [eachPy]
    rcases h : f d with ⟨_ | u, d'⟩
    · rw [h] at hd
      exact .cons hd (List.forall₂_same.2 fun _ _ => hr _)
    · rw [h] at hd
      exact .cons hd ih

/-- The device but for what a reset assigns. -/
def SameDev (d d' : Device K) : Prop := d'.forget = d.forget

/-- The simulator but for what a reset assigns. -/
def SameSim (s s' : Sim K) : Prop := s'.forget = s.forget

theorem sameDev_trans (a b c : Device K) (h : SameDev a b) (h' : SameDev b c) : SameDev a c := h'.trans h
theorem sameSim_trans (a b c : Sim K) (h : SameSim a b) (h' : SameSim b c) : SameSim a c := h'.trans h
theorem sameDev_refl (d : Device K) : SameDev d d := rfl
theorem sameSim_refl (d : Sim K) : SameSim d d := rfl

theorem sameDev_pq (d : Device K) (p q : X K) : SameDev d { d with p := p, q := q } := rfl

theorem sameDev_pot {d : Device K} (h : d.isNonSlackGen = true) (x : X K) : SameDev d { d with pPot := x } := by
  have e : Device.isNonSlackGen { d with pPot := x } = d.isNonSlackGen := rfl
  unfold SameDev
  simp only [Device.forget, Device.wipe, e, h]
  rfl

theorem SameDev.kind {d d' : Device K} (h : SameDev d d') :
    d'.isNonSlackGen = d.isNonSlackGen ∧ d'.isStorage = d.isStorage := by
  have e : d'.forget = d.forget := h
  have e1 := congrArg Device.isNonSlackGen e
  have e2 := congrArg Device.isStorage e
  exact ⟨e1, e2⟩

/-- What happens to a device of one type. -/
def SameAs (P : Device K → Bool) (d d' : Device K) : Prop := P d = true → SameDev d d' ∧ P d' = true

theorem sameAs_refl (P : Device K → Bool) (d : Device K) : SameAs P d d := fun h => ⟨rfl, h⟩
theorem sameAs_trans (P : Device K → Bool) (a b c : Device K) (h : SameAs P a b) (h' : SameAs P b c) : SameAs P a c :=
  fun ha => ⟨sameDev_trans _ _ _ (h ha).1 (h' (h ha).2).1, (h' (h ha).2).2⟩

theorem sameDev_project {qp : QP K} {rows : List (HalfPlane K)} {d d' : Device K} {p q : X K}
    (h : Device.project qp rows d p q = .ok d') : SameDev d d' := by
  obtain ⟨x, y, _, rfl⟩ := project_ok.1 h
  exact sameDev_pq d x y

theorem keeps_atEnd {P : Device K → Bool} {f : Device K → Except PyErr (Device K)}
    (hP : ∀ d d', SameDev d d' → P d' = P d) (hf : ∀ d d', P d = true → f d = .ok d' → SameDev d d') :
    Keeps (SameAs P) (atEnd f) := by
  intro d hd
  unfold atEnd
  cases h : f d with
  | error x => exact ⟨rfl, hd⟩
  | ok d' => exact ⟨hf d d' hd h, (hP _ _ (hf d d' hd h)).trans hd⟩

theorem keeps_device (qp : QP K) (base dt : X K) (a : Sim.Args K) : Keeps SameDev (Sim.devicePy qp base dt a) := by
  refine keeps_getBind fun d => ?_
  split_ifs with h1 h2 h3 h4
  · refine keeps_bind sameDev_trans (keeps_lift sameDev_refl _) (fun x => ?_) d
    exact fun d => rfl
  · refine (?_ : Keeps (SameAs Device.isNonSlackGen) _) d h2 |>.1
    refine keeps_bind (sameAs_trans _) (keeps_lift (sameAs_refl _) _) fun pot => ?_
    refine keeps_bind (sameAs_trans _) (fun d hd => ⟨sameDev_pot hd _, hd⟩) fun _ => ?_
    refine keeps_bind (sameAs_trans _) (keeps_lift (sameAs_refl _) _) fun p => ?_
    refine keeps_bind (sameAs_trans _) (keeps_lift (sameAs_refl _) _) fun q => ?_
    exact keeps_atEnd (fun d d' h => h.kind.1) fun d d' _ h => sameDev_project h
  · refine (?_ : Keeps (SameAs Device.isStorage) _) d h3 |>.1
    refine keeps_bind (sameAs_trans _) (keeps_lift (sameAs_refl _) _) fun p => ?_
    refine keeps_bind (sameAs_trans _) (keeps_lift (sameAs_refl _) _) fun q => ?_
    refine keeps_bind (sameAs_trans _) (keeps_atEnd (fun d d' h => h.kind.2) fun d d' _ h => ?_) fun _ => ?_
    · unfold Device.mapStorage at h
      simp only [bind_ok] at h
      obtain ⟨_, _, h⟩ := h
      exact sameDev_project h
    · refine keeps_atEnd (fun d d' h => h.kind.2) fun d d' hd h => ?_
      unfold Device.updateSoc at h
      cases hs : d.soc with
      | none => simp only [hs] at h; cases h
      | some x =>
        simp only [hs, Except.ok.injEq] at h
        rw [← h]
        exact forget_soc hd _
  · rfl
  · rfl

theorem keeps_eachDevice {f : Py (Device K) Unit} (hf : Keeps SameDev f) : Keeps SameSim (Sim.eachDevice f) := by
  intro s
  have h := keeps_each sameDev_refl hf s.devices
  show Sim.forget _ = Sim.forget _
  have e : (eachPy f s.devices).2.map Device.forget = s.devices.map Device.forget := by
    rw [← List.forall₂_eq_eq_eq, List.forall₂_map_left_iff, List.forall₂_map_right_iff]
    exact h.flip
  show Sim.forget { s with devices := _ } = _
  simp only [Sim.forget, Sim.wipe, e]

theorem map_mapIdx {α β γ : Type} (f : ℕ → α → β) (g : β → γ) (l : List α) :
    (l.mapIdx f).map g = l.mapIdx fun k x => g (f k x) := by
  induction l generalizing f with
  | nil => rfl
  | cons a l ih => simp only [List.mapIdx_cons, List.map_cons, ih]

theorem mapIdx_const {α β : Type} (g : α → β) (l : List α) : (l.mapIdx fun _ x => g x) = l.map g := by
  induction l with
  | nil => rfl
  | cons a l ih => simp only [List.mapIdx_cons, List.map_cons, ih]

theorem keeps_apply (o : PFOut K) : Keeps SameSim (Sim.applyPy o : Py (Sim K) Unit) := by
  refine keeps_bind sameSim_trans (fun s => ?_) fun _ => ?_
  · show Sim.forget _ = Sim.forget s
    simp only [Py.modify, Sim.forget, Sim.wipe, map_mapIdx]
    congr 1
    exact mapIdx_const Bus.wipe s.buses
  · refine keeps_bind sameSim_trans (keeps_get sameSim_refl) fun s => ?_
    refine keeps_bind sameSim_trans (keeps_eachDevice ?_) fun _ => ?_
    · intro d
      unfold atEnd
      dsimp only
      cases hs : d.isSlack
      · rfl
      · cases s.buses.find? fun b => decide (b.id = d.busId)
        · rfl
        · simp only [if_true]
          rw [← hs]
          exact sameDev_pq d _ _
    · intro s
      show Sim.forget _ = Sim.forget s
      simp only [Py.modify, Sim.forget, Sim.wipe, map_mapIdx]
      congr 1
      exact mapIdx_const Branch.wipe s.branches

theorem keeps_transition (c : Ctx K) (a : Sim.Args K) : Keeps SameSim (Sim.transitionPy c a) := by
  unfold Sim.transitionPy
  refine keeps_bind sameSim_trans (keeps_get sameSim_refl) fun s => ?_
  refine keeps_bind sameSim_trans (keeps_eachDevice (keeps_device _ _ _ _)) fun _ => ?_
  refine keeps_bind sameSim_trans (fun s => ?_) fun _ => ?_
  · show Sim.forget _ = Sim.forget s
    simp only [Py.modify, Sim.forget, Sim.wipe, List.map_map]
    rfl
  refine keeps_bind sameSim_trans (keeps_get sameSim_refl) fun s => ?_
  refine keeps_bind sameSim_trans (keeps_lift sameSim_refl _) fun o => ?_
  refine keeps_bind sameSim_trans (keeps_apply _) fun _ => ?_
  refine keeps_bind sameSim_trans (fun s => rfl) fun _ => ?_
  refine keeps_bind sameSim_trans (keeps_get sameSim_refl) fun s => ?_
  refine keeps_bind sameSim_trans (keeps_lift sameSim_refl _) fun st => ?_
  refine keeps_bind sameSim_trans (fun s => rfl) fun _ => ?_
  refine keeps_bind sameSim_trans (keeps_get sameSim_refl) fun s => ?_
  refine keeps_bind sameSim_trans (keeps_lift sameSim_refl _) fun r => ?_
  exact keeps_pure sameSim_refl _

theorem assign_forget (base : X K) (soc : List (X K)) (ds : List (Device K)) (k : ℕ) :
    (Sim.assignPy base soc ds k).2.map Device.forget = ds.map Device.forget := by
  induction ds generalizing k with
  | nil => rfl
  | cons d ds ih =>
    unfold Sim.assignPy
    split_ifs with h
    · cases Sim.idx soc k with
      | error x => rfl
      | ok x => simp only [List.map_cons, ih, forget_soc h]
    · simp only [List.map_cons, ih]

theorem keeps_assignAll (soc : List (X K)) : Keeps SameSim (Sim.assignAll soc : Py (Sim K) Unit) := by
  intro s
  show Sim.forget { s with devices := _ } = _
  simp only [Sim.forget, Sim.wipe, assign_forget]

theorem keeps_simReset (c : Ctx K) (init : List (X K)) : Keeps SameSim (Sim.resetPy c init) := by
  unfold Sim.resetPy
  refine keeps_bind sameSim_trans (fun s => rfl) fun _ => ?_
  refine keeps_bind sameSim_trans (keeps_get sameSim_refl) fun s => ?_
  refine keeps_bind sameSim_trans (keeps_lift sameSim_refl _) fun a => ?_
  refine keeps_bind sameSim_trans (keeps_eachDevice fun d => ?_) fun _ => ?_
  · unfold atEnd Sim.resetSoc
    cases hs : d.isStorage
    · rfl
    · simp only [if_true]
      cases a.pSet.getE d.id with
      | error x => rfl
      | ok p => exact forget_soc hs _
  refine keeps_bind sameSim_trans (keeps_transition _ _) fun o => ?_
  refine keeps_bind sameSim_trans (keeps_assignAll _) fun _ => ?_
  refine keeps_bind sameSim_trans (keeps_get sameSim_refl) fun s => ?_
  refine keeps_bind sameSim_trans (keeps_lift sameSim_refl _) fun st => ?_
  refine keeps_bind sameSim_trans (fun s => rfl) fun _ => ?_
  exact keeps_pure sameSim_refl _

/-- The environment but for what a reset assigns. -/
structure SameObj (o o' : Obj K ρ) : Prop where
  sim : o'.env.sim.forget = o.env.sim.forget
  env : SameEnv o.env o'.env
  dyn : o'.env.dyn = o.env.dyn
  space : ∀ f n, o.env.obsFn = some f → (∀ v, (f v).1.length = n) →
    o.env.obsSpace = none ∨ o.env.obsSpace = some (Env.fixSpace none n) →
    o'.env.obsSpace = none ∨ o'.env.obsSpace = some (Env.fixSpace none n)

theorem sameObj_refl (o : Obj K ρ) : SameObj o o := ⟨rfl, .refl _, rfl, fun _ _ _ _ h => h⟩

theorem sameObj_trans (a b c : Obj K ρ) (h : SameObj a b) (h' : SameObj b c) : SameObj a c :=
  ⟨h'.sim.trans h.sim, h.env.trans h'.env, h'.dyn.trans h.dyn,
   fun f n hf hn hi => h'.space f n (h.env.obsFn.trans hf) hn (h.space f n hf hn hi)⟩

/-- An assignment to the generator, the flags or the state. -/
theorem sameObj_dyn (o : Obj K ρ) (r : ρ) (fl : Option (Flags K)) (st : Option (List (X K))) :
    SameObj o ⟨{ o.env with rng := r }, fl, st⟩ := 
  ⟨rfl, ⟨rfl, rfl, rfl, rfl, rfl, rfl, rfl, rfl, rfl, rfl, fun _ h => h⟩, rfl, fun _ _ _ _ h => h⟩

theorem keeps_onSim {α : Type} {m : Py (Sim K) α} (h : Keeps SameSim m) : Keeps SameObj (Obj.onSim m : Py (Obj K ρ) α) := fun o =>
  ⟨h o.env.sim, ⟨rfl, rfl, rfl, rfl, rfl, rfl, rfl, rfl, rfl, rfl, fun _ h => h⟩, rfl, fun _ _ _ _ h => h⟩

theorem keeps_hook {α : Type} (spoil : ρ → ρ) (f : ρ → Except PyErr (α × ρ)) : Keeps SameObj (Obj.hook spoil f : Py (Obj K ρ) α) := by
  intro o
  unfold Obj.hook
  cases f o.env.rng <;> exact sameObj_dyn o _ _ _

theorem keeps_search (c : EnvCtx K ρ) (spoil : ρ → ρ) (size n : ℕ) : Keeps SameObj (Obj.searchPy c spoil size n) := by
  induction n with
  | zero => exact keeps_lift sameObj_refl _
  | succ n ih =>
    unfold Obj.searchPy
    refine keeps_bind sameObj_trans (keeps_hook _ _) fun v => ?_
    refine keeps_bind sameObj_trans (fun o => sameObj_dyn o _ _ _) fun _ => ?_
    refine keeps_bind sameObj_trans (keeps_lift sameObj_refl _) fun _ => ?_
    refine keeps_bind sameObj_trans (keeps_onSim (keeps_simReset _ _)) fun ok => ?_
    split_ifs
    · exact keeps_lift sameObj_refl _
    · exact keeps_pure sameObj_refl _
    · exact ih

theorem keeps_reset (c : EnvCtx K ρ) (spoil : ρ → ρ) (seed : Option ℤ) : Keeps SameObj (Obj.resetPy c spoil seed) := by
  unfold Obj.resetPy
  refine keeps_bind sameObj_trans (fun o => sameObj_dyn o _ _ _) fun _ => ?_
  refine keeps_bind sameObj_trans (fun o => sameObj_dyn o _ _ _) fun _ => ?_
  refine keeps_bind sameObj_trans (keeps_get sameObj_refl) fun o => ?_
  refine keeps_bind sameObj_trans (keeps_search _ _ _ _) fun v => ?_
  refine keeps_getBind fun o => ?_
  have hb : ∀ st obs, o.env.observe st = .ok obs →
      SameObj o ⟨{ o.env with obsSpace := some (Env.fixSpace o.env.obsSpace obs.1.length) }, o.flags, some st⟩ := by
    intro st obs h
    refine ⟨rfl, ⟨rfl, rfl, rfl, rfl, rfl, rfl, rfl, rfl, rfl, rfl, fun b h => ?_⟩, rfl, fun f n hf hn hi => ?_⟩
    · simp [h, Env.fixSpace]
    · simp only [Env.observe, hf, Except.ok.injEq] at h
      have hl : obs.1.length = n := by rw [← h, hn]
      rcases hi with hi | hi <;> simp [hi, hl, Env.fixSpace]
  have hl : ∀ {α : Type} (x : Except PyErr α) (k : α → Py (Obj K ρ) (List (X K))) (o' : Obj K ρ), SameObj o o' →
      (∀ a, x = .ok a → SameObj o (k a o').2) → SameObj o ((lift x >>= k) o').2 := by
    intro α x k o' h h'
    cases x with
    | error x => exact h
    | ok a => exact h' a rfl
  have hm : ∀ (f : Obj K ρ → Obj K ρ) (k : Unit → Py (Obj K ρ) (List (X K))) (o' : Obj K ρ),
      SameObj o (k () (f o')).2 → SameObj o ((Py.modify f >>= k) o').2 := fun _ _ _ h => h
  refine hl _ _ _ (sameObj_refl o) fun st _ => ?_
  refine hm _ _ _ ?_
  refine hl _ _ _ (sameObj_dyn o o.env.rng o.flags (some st)) fun obs ho => ?_
  refine hm _ _ _ ?_
  exact hl _ _ _ (hb st obs ho) fun _ _ => hb st obs ho

theorem keeps_setAux (aux : List (X K)) (k n : ℕ) : Keeps SameObj (Obj.setAuxPy aux k n : Py (Obj K ρ) Unit) := by
  induction n with
  | zero => exact keeps_pure sameObj_refl _
  | succ n ih =>
    unfold Obj.setAuxPy
    refine keeps_bind sameObj_trans ih fun _ => ?_
    refine keeps_bind sameObj_trans (keeps_lift sameObj_refl _) fun _ => ?_
    refine keeps_bind sameObj_trans (keeps_get sameObj_refl) fun _ => ?_
    refine keeps_bind sameObj_trans (keeps_lift sameObj_refl _) fun _ => ?_
    exact fun o => sameObj_dyn o _ _ _

theorem keeps_flags (f : Flags K → Flags K) : Keeps SameObj (Obj.setFlags f : Py (Obj K ρ) Unit) := fun o => sameObj_dyn o _ _ _

theorem keeps_observe (aux : List (X K)) : Keeps SameObj (Obj.observePy aux : Py (Obj K ρ) (List (X K))) := by
  unfold Obj.observePy
  refine keeps_bind sameObj_trans (keeps_get sameObj_refl) fun _ => ?_
  refine keeps_bind sameObj_trans (keeps_setAux _ _ _) fun _ => ?_
  refine keeps_bind sameObj_trans (keeps_get sameObj_refl) fun o => ?_
  refine keeps_bind sameObj_trans (keeps_lift sameObj_refl _) fun _ => ?_
  refine keeps_bind sameObj_trans (fun o => sameObj_dyn o _ _ _) fun _ => ?_
  refine keeps_bind sameObj_trans (keeps_lift sameObj_refl _) fun _ => ?_
  cases o.env.obsSpace with
  | none => exact keeps_lift sameObj_refl _
  | some b => exact keeps_bind sameObj_trans (keeps_lift sameObj_refl _) fun _ => keeps_pure sameObj_refl _

theorem keeps_advance (c : EnvCtx K ρ) (spoil : ρ → ρ) (st act : List (X K)) : Keeps SameObj (Obj.advancePy c spoil st act) := by
  unfold Obj.advancePy
  refine keeps_bind sameObj_trans (keeps_hook _ _) fun v => ?_
  refine keeps_bind sameObj_trans (keeps_get sameObj_refl) fun o => ?_
  refine keeps_bind sameObj_trans (keeps_lift sameObj_refl _) fun _ => ?_
  refine keeps_bind sameObj_trans (keeps_lift sameObj_refl _) fun d => ?_
  refine keeps_bind sameObj_trans (keeps_onSim (keeps_transition _ _)) fun t => ?_
  refine keeps_bind sameObj_trans (keeps_flags _) fun _ => ?_
  refine keeps_bind sameObj_trans (keeps_lift sameObj_refl _) fun r => ?_
  refine keeps_bind sameObj_trans (keeps_flags _) fun _ => ?_
  split_ifs
  · refine keeps_bind sameObj_trans (keeps_observe _) fun _ => ?_
    exact keeps_bind sameObj_trans (keeps_flags _) fun _ => keeps_pure sameObj_refl _
  · refine keeps_bind sameObj_trans (fun o => sameObj_dyn o _ _ _) fun _ => ?_
    refine keeps_bind sameObj_trans (keeps_pure sameObj_refl _) fun _ => ?_
    exact keeps_bind sameObj_trans (keeps_flags _) fun _ => keeps_pure sameObj_refl _

theorem keeps_step (c : EnvCtx K ρ) (spoil : ρ → ρ) (act : List (X K)) : Keeps SameObj (Obj.stepPy c spoil act) := by
  unfold Obj.stepPy
  refine keeps_bind sameObj_trans (keeps_get sameObj_refl) fun o => ?_
  refine keeps_bind sameObj_trans (keeps_lift sameObj_refl _) fun _ => ?_
  cases o.flags with
  | none => exact keeps_lift sameObj_refl _
  | some f =>
    dsimp only
    split_ifs
    · exact keeps_pure sameObj_refl _
    · cases o.state with
      | none => exact keeps_lift sameObj_refl _
      | some st => exact keeps_advance _ _ _ _

/-! ### C96: a reset recovers from any exception -/

namespace Spec

/-- One call of a method of the environment, returning or raising: what it leaves of the object.  The user may also
replace the random number generator. -/
def ObjCall (c : EnvCtx K ρ) (o o' : Obj K ρ) : Prop :=
  (∃ spoil act, o' = (Obj.stepPy c spoil act o).2) ∨ (∃ spoil seed, o' = (Obj.resetPy c spoil seed o).2) ∨
    ∃ r, o' = { o with env := { o.env with rng := r } }

/-- A sequence of such calls, each of which may raise an exception that the user catches. -/
def ObjHistory (c : EnvCtx K ρ) : Obj K ρ → Obj K ρ → Prop := Relation.ReflTransGen (ObjCall c)

end Spec

theorem sameObj_history {c : EnvCtx K ρ} {o o' : Obj K ρ} (h : ObjHistory c o o') : SameObj o o' := by
  induction h with
  | refl => exact sameObj_refl o
  | tail _ hc ih =>
    refine sameObj_trans _ _ _ ih ?_
    rcases hc with ⟨spoil, act, rfl⟩ | ⟨spoil, seed, rfl⟩ | ⟨r, rfl⟩
    · exact keeps_step _ _ _ _
    · exact keeps_reset _ _ _ _
    · exact sameObj_dyn _ _ _ _

theorem forget_counts {s s' : Sim K} (h : s'.forget = s.forget) :
    s'.nDevice = s.nDevice ∧ s'.nDes = s.nDes ∧ s'.nNonSlackGen = s.nNonSlackGen := by
  have key : ∀ s : Sim K, s.forget.nDevice = s.nDevice ∧ s.forget.nDes = s.nDes ∧ s.forget.nNonSlackGen = s.nNonSlackGen :=
    fun s => ⟨by simp [Sim.nDevice, Sim.forget, Sim.wipe], filter_forget s.devices _ fun _ => rfl,
      filter_forget s.devices _ fun _ => rfl⟩
  obtain ⟨a, b, d⟩ := key s
  obtain ⟨a', b', d'⟩ := key s'
  rw [h] at a' b' d'
  exact ⟨a'.symm.trans a, b'.symm.trans b, d'.symm.trans d⟩

/-- A reset looks at nothing but what an exception keeps, and the generator. -/
theorem reset_sameObj [FloorRing K] {c : EnvCtx K ρ} {a : EnvArgs K} {e0 : Env K ρ} (h0 : mkEnv c a = .ok e0)
    {o : Obj K ρ} (h : SameObj (Obj.ofEnv e0) o) (hobs : FixedLength a.observation.fn) (seed : Option ℤ) :
    o.env.reset c seed = Env.reset c { e0 with rng := o.env.rng } seed := by
  have I := mkEnv_ok h0
  have s1 : SameEnv e0 o.env := ⟨h.env.nAux, h.env.gamma, h.env.c1, h.env.c2, h.env.auxBounds, h.env.stateValues,
    h.env.stateN, h.env.actionSpace, h.env.obsValues, h.env.obsFn, h.env.obsSpace⟩
  obtain ⟨n1, n2, n3⟩ := forget_counts h.sim
  have hs : ∀ n r, Env.search c o.env.initSize (n + 1) o.env.sim r = Env.search c e0.initSize (n + 1) e0.sim r := by
    intro n r
    have hsz : o.env.initSize = e0.initSize := by
      have e4 : o.env.nAux = e0.nAux := s1.nAux
      have n1' : o.env.sim.nDevice = e0.sim.nDevice := n1
      have n2' : o.env.sim.nDes = e0.sim.nDes := n2
      have n3' : o.env.sim.nNonSlackGen = e0.sim.nNonSlackGen := n3
      simp only [Env.initSize, n1', n2', n3', e4]
    have hf : o.env.sim.forget = e0.sim.forget := h.sim
    have hr : ∀ v, o.env.sim.reset c.sim v = e0.sim.reset c.sim v := fun v => by
      rw [← reset_forget, hf, reset_forget]
    simp only [Env.search, hsz, hr]
  have hi : Env.initSize { e0 with rng := o.env.rng } = e0.initSize := rfl
  unfold Env.reset
  dsimp only
  rw [hs 99, hi]
  cases hse : Env.search c e0.initSize (99 + 1) e0.sim ((seed.map c.seeded).getD o.env.rng) with
  | error x => rfl
  | ok z =>
    obtain ⟨s, v, r⟩ := z
    simp only [exc_ok]
    have hx : ({ o.env with sim := s, rng := r } : Env K ρ).extract v o.env.stateValues =
        ({ e0 with sim := s, rng := r } : Env K ρ).extract v e0.stateValues := by
      simp only [Env.extract, s1.nAux, s1.stateValues]
    rw [hx]
    cases ({ e0 with sim := s, rng := r } : Env K ρ).extract v e0.stateValues with
    | error x => rfl
    | ok st =>
      simp only [exc_ok]
      cases hfn : a.observation.fn with
      | none =>
        have hos : ∃ b, e0.obsSpace = some b := by
          have hv := I.obsValues
          have ho := I.obsSpace
          cases hao : a.observation with
          | callable f => rw [hao] at hfn; cases hfn
          | state => rw [hao, obsValues, Except.ok.injEq] at hv
                     rw [← hv] at ho
                     simp only [observationBounds, bind_ok, pure_ok] at ho
                     obtain ⟨_, _, b, _, hb⟩ := ho
                     exact ⟨b, hb.symm⟩
          | list l => rw [hao] at hv
                      simp only [obsValues, bind_ok, pure_ok] at hv
                      obtain ⟨w, _, hv⟩ := hv
                      rw [← hv] at ho
                      simp only [observationBounds, bind_ok, pure_ok] at ho
                      obtain ⟨_, _, b, _, hb⟩ := ho
                      exact ⟨b, hb.symm⟩
          | other => rw [hao] at hv; cases hv
        obtain ⟨b, hb⟩ := hos
        simp only [Env.observe, s1.obsFn, I.obsFn, hfn, s1.obsValues, s1.obsSpace b hb, hb,
          Env.extract, s1.nAux, s1.gamma, s1.c1, s1.c2, s1.auxBounds, s1.stateValues, s1.stateN, s1.actionSpace]
      | some f =>
        obtain ⟨n, hn⟩ := hobs f hfn
        have hov : e0.obsSpace = none := by
          have hv := I.obsValues
          have ho := I.obsSpace
          cases hao : a.observation with
          | callable f => rw [hao, obsValues, Except.ok.injEq] at hv
                          rw [← hv] at ho
                          simpa [observationBounds] using ho.symm
          | state => rw [hao] at hfn; cases hfn
          | list l => rw [hao] at hfn; cases hfn
          | other => rw [hao] at hfn; cases hfn
        have hf0 : e0.obsFn = some f := I.obsFn.trans hfn
        have g : Env.fixSpace o.env.obsSpace n = Env.fixSpace none n := by
          rcases h.space f n hf0 hn (.inl hov) with h | h <;> rw [h]
          rfl
        simp only [Env.observe, s1.obsFn, hf0, exc_ok, hn, g, hov, s1.obsValues,
          s1.nAux, s1.gamma, s1.c1, s1.c2, s1.auxBounds, s1.stateValues, s1.stateN, s1.actionSpace]

/-- **C96.** Whatever happened before -- actions that were rejected, user-defined functions that raised or returned
nonsense, a power flow or a cost that could not be computed -- a reset does what it would have done on a new
environment with the same random number generator. -/
theorem C96_reset_recovers [FloorRing K] {c : EnvCtx K ρ} {a : EnvArgs K} {e0 : Env K ρ} (h0 : mkEnv c a = .ok e0)
    {o : Obj K ρ} (h : ObjHistory c (Obj.ofEnv e0) o) (hobs : FixedLength a.observation.fn) (spoil : ρ → ρ)
    (seed : Option ℤ) : outcome (Obj.resetPy c spoil seed) o =
      (Env.reset c { e0 with rng := o.env.rng } seed).map fun r => (Obj.ofEnv r.1, r.2) := by
  have hs := sameObj_history h
  rw [outcome_reset c spoil seed (hs.dyn.trans rfl), reset_sameObj h0 hs hobs]

/-- With a seed nothing of the past is left at all. -/
theorem C96_reset_seeded [FloorRing K] {c : EnvCtx K ρ} {a : EnvArgs K} {e0 : Env K ρ} (h0 : mkEnv c a = .ok e0)
    {o : Obj K ρ} (h : ObjHistory c (Obj.ofEnv e0) o) (hobs : FixedLength a.observation.fn) (spoil : ρ → ρ)
    (seed : ℤ) : outcome (Obj.resetPy c spoil (some seed)) o =
      (e0.reset c (some seed)).map fun r => (Obj.ofEnv r.1, r.2) :=
  C96_reset_recovers h0 h hobs spoil (some seed)

/-- A sequence of steps on an object; it stops at the first exception. -/
def Obj.runPy (c : EnvCtx K ρ) (spoil : ρ → ρ) : List (List (X K)) → Py (Obj K ρ) (List (Env.StepOut K))
  | [] => pure []
  | a :: as => do
    let out ← Obj.stepPy c spoil a
    let outs ← Obj.runPy c spoil as
    pure (out :: outs)

theorem outcome_run {c : EnvCtx K ρ} (spoil : ρ → ρ) {e e' : Env K ρ} {as : List (List (X K))}
    {outs : List (Env.StepOut K)} (h : Episode c e as outs e') :
    outcome (Obj.runPy c spoil as) (Obj.ofEnv e) = .ok (Obj.ofEnv e', outs) := by
  induction h with
  | nil => rfl
  | cons hs _ ih =>
    unfold Obj.runPy
    simp only [outcome_bind, outcome_step, hs, Except.map, exc_ok, ih, outcome_pure]

/-- **C96.** After the reset the episodes are those of a new environment. -/
theorem C96_episodes [FloorRing K] {c : EnvCtx K ρ} {a : EnvArgs K} {e0 e1 e2 : Env K ρ} (h0 : mkEnv c a = .ok e0)
    {o : Obj K ρ} (h : ObjHistory c (Obj.ofEnv e0) o) (hobs : FixedLength a.observation.fn) (spoil spoil' : ρ → ρ)
    {seed : ℤ} {obs : List (X K)} (hr : e0.reset c (some seed) = .ok (e1, obs)) {as : List (List (X K))}
    {outs : List (Env.StepOut K)} (he : Episode c e1 as outs e2) :
    ∃ o' o'', Obj.resetPy c spoil (some seed) o = (.ok obs, o') ∧ Obj.runPy c spoil' as o' = (.ok outs, o'') := by
  have e := C96_reset_seeded h0 h hobs spoil seed
  rw [hr] at e
  exact ⟨_, _, outcome_ok.1 e, outcome_ok.1 (outcome_run spoil' he)⟩

/-! ### C97: what a call that raises changes -/

theorem ran_bind {σ α β : Type} {m : Py σ α} {k : α → Py σ β} {s s' : σ} {r : Except PyErr β} (h : (m >>= k) s = (r, s')) :
    (∃ x, r = .error x ∧ m s = (.error x, s')) ∨ ∃ a s1, m s = (.ok a, s1) ∧ k a s1 = (r, s') := by
  have e : (m >>= k) s = match m s with | (.ok a, s') => k a s' | (.error x, s') => (.error x, s') := rfl
  rw [e] at h
  rcases hm : m s with ⟨x | a, s1⟩
  · rw [hm] at h
    simp only [Prod.mk.injEq] at h
    exact .inl ⟨x, h.1.symm, by rw [h.2]⟩
  · rw [hm] at h
    exact .inr ⟨a, s1, rfl, h⟩

theorem run_bind {σ α β : Type} {m : Py σ α} {k : α → Py σ β} {s s' : σ} {a : α} (h : m s = (.ok a, s')) :
    (m >>= k) s = k a s' := by
  have e : (m >>= k) s = match m s with | (.ok a, s') => k a s' | (.error x, s') => (.error x, s') := rfl
  rw [e, h]

theorem run_raise {σ α β : Type} {m : Py σ α} {k : α → Py σ β} {s s' : σ} {x : PyErr} (h : m s = (.error x, s')) :
    (m >>= k) s = (.error x, s') := by
  have e : (m >>= k) s = match m s with | (.ok a, s') => k a s' | (.error x, s') => (.error x, s') := rfl
  rw [e, h]

theorem run_lift_raise {σ α β : Type} {r : Except PyErr α} {k : α → Py σ β} {s : σ} {x : PyErr} (h : r = .error x) :
    (lift r >>= k) s = (.error x, s) := by
  subst h; rfl

/-- The flags are as before. -/
def SameFlags (o o' : Obj K ρ) : Prop := o'.flags = o.flags ∧ o'.env.gamma = o.env.gamma

theorem sameFlags_refl (o : Obj K ρ) : SameFlags o o := ⟨rfl, rfl⟩
theorem sameFlags_trans (a b c : Obj K ρ) (h : SameFlags a b) (h' : SameFlags b c) : SameFlags a c :=
  ⟨h'.1.trans h.1, h'.2.trans h.2⟩

theorem flags_hook {α : Type} (spoil : ρ → ρ) (f : ρ → Except PyErr (α × ρ)) : Keeps SameFlags (Obj.hook spoil f : Py (Obj K ρ) α) := by
  intro o
  unfold Obj.hook
  cases f o.env.rng <;> exact ⟨rfl, rfl⟩

theorem flags_setAux (aux : List (X K)) (k n : ℕ) : Keeps SameFlags (Obj.setAuxPy aux k n : Py (Obj K ρ) Unit) := by
  induction n with
  | zero => exact keeps_pure sameFlags_refl _
  | succ n ih =>
    unfold Obj.setAuxPy
    refine keeps_bind sameFlags_trans ih fun _ => ?_
    refine keeps_bind sameFlags_trans (keeps_lift sameFlags_refl _) fun _ => ?_
    refine keeps_bind sameFlags_trans (keeps_get sameFlags_refl) fun _ => ?_
    refine keeps_bind sameFlags_trans (keeps_lift sameFlags_refl _) fun _ => ?_
    exact fun o => ⟨rfl, rfl⟩

theorem flags_observe (aux : List (X K)) : Keeps SameFlags (Obj.observePy aux : Py (Obj K ρ) (List (X K))) := by
  unfold Obj.observePy
  refine keeps_bind sameFlags_trans (keeps_get sameFlags_refl) fun _ => ?_
  refine keeps_bind sameFlags_trans (flags_setAux _ _ _) fun _ => ?_
  refine keeps_bind sameFlags_trans (keeps_get sameFlags_refl) fun o => ?_
  refine keeps_bind sameFlags_trans (keeps_lift sameFlags_refl _) fun _ => ?_
  refine keeps_bind sameFlags_trans (fun o => ⟨rfl, rfl⟩) fun _ => ?_
  refine keeps_bind sameFlags_trans (keeps_lift sameFlags_refl _) fun _ => ?_
  cases o.env.obsSpace with
  | none => exact keeps_lift sameFlags_refl _
  | some b => exact keeps_bind sameFlags_trans (keeps_lift sameFlags_refl _) fun _ => keeps_pure sameFlags_refl _

/-- **C97 (partial).** An action outside the action space, and a step before the first reset, raise and change nothing. -/
theorem C97_rejected_partial (c : EnvCtx K ρ) (spoil : ρ → ρ) (act : List (X K)) (o : Obj K ρ)
    (h : ¬ o.env.actionSpace.contains act true ∨ o.flags = none) :
    ∃ x, Obj.stepPy c spoil act o = (.error x, o) := by
  by_cases ha : o.env.actionSpace.contains act true
  · have hf : o.flags = none := h.resolve_left (not_not.2 ha)
    refine ⟨.attributeError, ?_⟩
    show ((lift (guardE (o.env.actionSpace.contains act true) .assertionError) >>= _) : Py (Obj K ρ) _) o = _
    have : guardE (o.env.actionSpace.contains act true) .assertionError = .ok () := guardE_ok.2 ha
    rw [this, hf]
    rfl
  · refine ⟨.assertionError, ?_⟩
    show ((lift (guardE (o.env.actionSpace.contains act true) .assertionError) >>= _) : Py (Obj K ρ) _) o = _
    have : guardE (o.env.actionSpace.contains act true) .assertionError = .error .assertionError := guardE_error.2 ⟨ha, rfl⟩
    rw [this]
    rfl

/-- **C97 (partial).** If `next_vars` returns a vector of a wrong size, nothing has changed but the random number
generator. -/
theorem C97_next_vars_partial (c : EnvCtx K ρ) (spoil : ρ → ρ) (act : List (X K)) (o : Obj K ρ)
    {f : Flags K} {st v : List (X K)} {r : ρ} (ha : o.env.actionSpace.contains act true) (hf : o.flags = some f)
    (ht : f.terminated = false) (hs : o.state = some st) (hv : c.nextVars st o.env.rng = .ok (v, r))
    (hl : v.length ≠ o.env.sim.nLoad + o.env.sim.nNonSlackGen + o.env.nAux) :
    Obj.stepPy c spoil act o = (.error .envNextVars, { o with env := { o.env with rng := r } }) := by
  obtain ⟨e, fl, s0⟩ := o
  dsimp only at ha hf hs hv hl
  subst hf hs
  show ((lift (guardE (e.actionSpace.contains act true) .assertionError) >>= _) : Py (Obj K ρ) _) ⟨e, some f, some st⟩ = _
  have e1 : guardE (e.actionSpace.contains act true) .assertionError = .ok () := guardE_ok.2 ha
  have e2 : guardE (v.length = e.sim.nLoad + e.sim.nNonSlackGen + e.nAux) .envNextVars = .error .envNextVars :=
    guardE_error.2 ⟨hl, rfl⟩
  have e3 : (Obj.hook spoil (c.nextVars st) : Py (Obj K ρ) _) ⟨e, some f, some st⟩ = (.ok v, ⟨{ e with rng := r }, some f, some st⟩) := by
    unfold Obj.hook; rw [hv]
  rw [e1]
  show (if f.terminated = true then _ else Obj.advancePy c spoil st act : Py (Obj K ρ) _) ⟨e, some f, some st⟩ = _
  rw [ht]
  show Obj.advancePy c spoil st act ⟨e, some f, some st⟩ = _
  unfold Obj.advancePy
  rw [run_bind e3, run_bind (m := Py.get) rfl]
  exact run_lift_raise e2

/-- **C97 (partial).** If `next_vars` raises, the exception reaches the caller and nothing has changed but the random number generator, of which
remains what `next_vars` left of it. -/
theorem C97_hook_raises_partial (c : EnvCtx K ρ) (spoil : ρ → ρ) (act : List (X K)) (o : Obj K ρ)
    {f : Flags K} {st : List (X K)} {x : PyErr} (ha : o.env.actionSpace.contains act true) (hf : o.flags = some f)
    (ht : f.terminated = false) (hs : o.state = some st) (hv : c.nextVars st o.env.rng = .error x) :
    Obj.stepPy c spoil act o = (.error x, { o with env := { o.env with rng := spoil o.env.rng } }) := by
  obtain ⟨e, fl, s0⟩ := o
  dsimp only at ha hf hs hv
  subst hf hs
  show ((lift (guardE (e.actionSpace.contains act true) .assertionError) >>= _) : Py (Obj K ρ) _) ⟨e, some f, some st⟩ = _
  have e1 : guardE (e.actionSpace.contains act true) .assertionError = .ok () := guardE_ok.2 ha
  have e3 : (Obj.hook spoil (c.nextVars st) : Py (Obj K ρ) _) ⟨e, some f, some st⟩ = (.error x, ⟨{ e with rng := spoil e.rng }, some f, some st⟩) := by
    unfold Obj.hook; rw [hv]
  rw [e1]
  show (if f.terminated = true then _ else Obj.advancePy c spoil st act : Py (Obj K ρ) _) ⟨e, some f, some st⟩ = _
  rw [ht]
  show Obj.advancePy c spoil st act ⟨e, some f, some st⟩ = _
  unfold Obj.advancePy
  exact run_raise e3

/-- **C97 (partial).** A step that raises does not advance the time, and it does not end the episode unless the
network collapsed and the reward of the collapse could not be computed because gamma is one. -/
theorem C97_time_partial {c : EnvCtx K ρ} {spoil : ρ → ρ} {act : List (X K)} {o o' : Obj K ρ} {x : PyErr}
    {f : Flags K} (hf : o.flags = some f) (h : Obj.stepPy c spoil act o = (.error x, o')) :
    ∃ f', o'.flags = some f' ∧ f'.timestep = f.timestep ∧
      (f'.terminated = f.terminated ∨ x = .zeroDivision ∧ o.env.gamma = .fin 1) := by
  have same : ∀ {o1 : Obj K ρ}, SameFlags o o1 → ∃ f', o1.flags = some f' ∧ f'.timestep = f.timestep ∧
      (f'.terminated = f.terminated ∨ x = .zeroDivision ∧ o.env.gamma = .fin 1) :=
    fun h => ⟨f, h.1.trans hf, rfl, .inl rfl⟩
  have kept : ∀ {α : Type} {m : Py (Obj K ρ) α} {a b : Obj K ρ} {r : Except PyErr α}, Keeps SameFlags m → m a = (r, b) →
      SameFlags a b := @fun α m a b r hk h => by have := hk a; rw [h] at this; exact this
  have hl : ∀ {α : Type} (x : Except PyErr α), Keeps SameFlags (lift x : Py (Obj K ρ) α) := fun x => keeps_lift sameFlags_refl x
  unfold Obj.stepPy at h
  rcases ran_bind h with ⟨_, _, h⟩ | ⟨o0, _, h0, h⟩
  · cases h
  cases h0
  rcases ran_bind h with ⟨_, _, h⟩ | ⟨_, _, h0, h⟩
  · exact same (kept (hl _) h)
  have e0 := kept (hl _) h0
  simp only [hf] at h
  split_ifs at h with ht
  · cases h
  cases hs : o.state with
  | none => rw [hs] at h; exact same (sameFlags_trans _ _ _ e0 (kept (hl _) h))
  | some st =>
    rw [hs] at h
    unfold Obj.advancePy at h
    rcases ran_bind h with ⟨_, _, h⟩ | ⟨v, o1, h1, h⟩
    · exact same (sameFlags_trans _ _ _ e0 (kept (flags_hook _ _) h))
    have e1 := sameFlags_trans _ _ _ e0 (kept (flags_hook _ _) h1)
    have eg : o1.env.gamma = o.env.gamma := e1.2
    rcases ran_bind h with ⟨_, _, h⟩ | ⟨o1', _, h1, h⟩
    · cases h
    cases h1
    rcases ran_bind h with ⟨_, _, h⟩ | ⟨_, o2, h1, h⟩
    · exact same (sameFlags_trans _ _ _ e1 (kept (hl _) h))
    replace e1 := sameFlags_trans _ _ _ e1 (kept (hl _) h1)
    rcases ran_bind h with ⟨_, _, h⟩ | ⟨d, o3, h1, h⟩
    · exact same (sameFlags_trans _ _ _ e1 (kept (hl _) h))
    replace e1 := sameFlags_trans _ _ _ e1 (kept (hl _) h1)
    have hsim : ∀ {α : Type} (m : Py (Sim K) α), Keeps SameFlags (Obj.onSim m : Py (Obj K ρ) α) := fun m o => ⟨rfl, rfl⟩
    rcases ran_bind h with ⟨_, _, h⟩ | ⟨t, o4, h1, h⟩
    · exact same (sameFlags_trans _ _ _ e1 (kept (hsim _) h))
    replace e1 := sameFlags_trans _ _ _ e1 (kept (hsim _) h1)
    rcases ran_bind h with ⟨_, _, h⟩ | ⟨_, o5, h1, h⟩
    · cases h
    cases h1
    have hf4 : o4.flags = some f := e1.1.trans hf
    have hft : f.terminated = false := by simpa using ht
    rcases ran_bind h with ⟨y, hy, h⟩ | ⟨r, o6, h1, h⟩
    · cases hy
      have h2 : o1.env.rewardOf t.converged t.eLoss t.penalty = .error x := congrArg Prod.fst h
      have h3 : _ = o' := congrArg Prod.snd h
      rw [← h3]
      refine ⟨{ f with terminated := !t.converged }, by show Option.map _ o4.flags = _; rw [hf4]; rfl, rfl, ?_⟩
      unfold Env.rewardOf at h2
      split_ifs at h2 with hc
      · rw [hft]
        right
        simp only [bind_error, X.pyDiv, guardE_error] at h2
        have hz : X.fin 1 - o1.env.gamma = X.fin 0 ∧ x = .zeroDivision := by
          rcases h2 with (⟨h, h'⟩ | ⟨_, _, h⟩) | ⟨_, _, h⟩
          · exact ⟨not_not.1 h, h'.symm⟩
          · cases h
          · cases h
        refine ⟨hz.2, ?_⟩
        have hz := hz.1
        rw [eg] at hz
        cases hg : o.env.gamma with
        | fin y =>
          rw [hg] at hz
          simp only [X.fin_sub_fin, X.fin.injEq] at hz
          rw [sub_eq_zero.1 hz]
        | nan => rw [hg] at hz; cases hz
        | pinf => rw [hg] at hz; cases hz
        | ninf => rw [hg] at hz; cases hz
    have h3 : _ = o6 := congrArg Prod.snd h1
    rw [← h3] at h
    rcases ran_bind h with ⟨y, hy, h⟩ | ⟨_, o7, h1, h⟩
    · cases h
    have h4 : _ = o7 := congrArg Prod.snd h1
    have hf7 : o7.flags = some { terminated := !t.converged, timestep := f.timestep, eLoss := r.2.1, penalty := r.2.2 } := by
      rw [← h4]; show Option.map _ (Option.map _ o4.flags) = _; rw [hf4]; rfl
    by_cases hc : t.converged = true
    · rw [if_pos hc] at h
      rcases ran_bind h with ⟨y, hy, h⟩ | ⟨_, o8, h1, h⟩
      · exact ⟨_, (kept (flags_observe _) h).1.trans hf7, rfl, .inl (by rw [hft, hc]; rfl)⟩
      · cases h
    · rw [if_neg hc] at h
      cases h

end

end Anm
