import Verif.Lemmas.Env

/-! # Which exceptions the simulator and the environments raise -/

set_option linter.unusedSectionVars false

namespace Anm

/-- The exceptions of gym-anm itself (`errors.py`). -/
def Spec.Own : PyErr → Prop
  | .keyError | .indexError | .typeError | .valueError | .overflowError | .zeroDivision | .attributeError
  | .assertionError | .notImplemented => False
  | _ => True

/-- A call that raises no exception of gym-anm itself. -/
def Spec.NoOwn {α : Type} (r : Except PyErr α) : Prop := ∀ x, r = .error x → ¬ Spec.Own x

open Spec

section
variable {α β : Type}

theorem noOwn_ok (a : α) : NoOwn (.ok a : Except PyErr α) := by intro x h; cases h

theorem noOwn_pure (a : α) : NoOwn (pure a : Except PyErr α) := noOwn_ok a

theorem noOwn_error {e : PyErr} (h : ¬ Own e) : NoOwn (.error e : Except PyErr α) := by
  intro x hx; cases hx; exact h

theorem noOwn_bind {r : Except PyErr α} {f : α → Except PyErr β} (h1 : NoOwn r) (h2 : ∀ a, NoOwn (f a)) :
    NoOwn (r >>= f) := by
  intro x hx
  rw [bind_error] at hx
  rcases hx with hx | ⟨a, _, hx⟩
  · exact h1 x hx
  · exact h2 a x hx

theorem noOwn_mapE {f : α → Except PyErr β} {l : List α} (h : ∀ a ∈ l, NoOwn (f a)) : NoOwn (mapE f l) := by
  intro x hx
  obtain ⟨a, ha, hx⟩ := mapE_error hx
  exact h a ha x hx

theorem noOwn_guardE {P : Prop} [Decidable P] {e : PyErr} (h : ¬ Own e) : NoOwn (guardE P e) := by
  intro x hx
  rw [guardE_error] at hx
  exact hx.2 ▸ h

theorem noOwn_getE [DecidableEq α] (d : Dict α β) (k : α) : NoOwn (d.getE k) := by
  unfold Dict.getE
  split
  · exact noOwn_ok _
  · exact noOwn_error (fun h => h)

theorem noOwn_pyGet (v : List α) (i : ℤ) : NoOwn (pyGet v i) := by
  unfold pyGet
  repeat' split
  all_goals first | exact noOwn_ok _ | exact noOwn_error (fun h => h)

theorem noOwn_pyPut (v : List α) (i : ℤ) (x : α) : NoOwn (pyPut v i x) := by
  unfold pyPut
  dsimp only
  generalize (if 0 ≤ i then i else i + v.length) = j
  split
  · exact noOwn_ok _
  · exact noOwn_error (fun h => h)

end

section
variable {K ρ : Type} [Field K] [LinearOrder K]

theorem noOwn_pyDiv (a b : X K) : NoOwn (X.pyDiv a b) :=
  noOwn_bind (noOwn_guardE (fun h => h)) fun _ => noOwn_pure _

theorem noOwn_idx (v : List (X K)) (k : ℕ) : NoOwn (Sim.idx v k) := by
  unfold Sim.idx
  split
  · exact noOwn_ok _
  · exact noOwn_error (fun h => h)

theorem noOwn_project (qp : QP K) (rows : List (HalfPlane K)) (d : Device K) (p q : X K) :
    NoOwn (Device.project qp rows d p q) := by
  unfold Device.project
  split
  · exact noOwn_error (fun h => h)
  · exact noOwn_ok _

theorem noOwn_stepDevice (qp : QP K) (m dt : X K) (a : Sim.Args K) (d : Device K) :
    NoOwn (Sim.stepDevice qp m dt a d) := by
  unfold Sim.stepDevice
  split
  · exact noOwn_bind (noOwn_getE _ _) fun _ => noOwn_pure _
  split
  · exact noOwn_bind (noOwn_getE _ _) fun _ => noOwn_bind (noOwn_getE _ _) fun _ =>
      noOwn_bind (noOwn_getE _ _) fun _ => noOwn_project _ _ _ _ _
  split
  · refine noOwn_bind (noOwn_getE _ _) fun _ => noOwn_bind (noOwn_getE _ _) fun _ => noOwn_bind ?_ fun d => ?_
    · refine noOwn_bind ?_ fun _ => noOwn_project _ _ _ _ _
      unfold Device.storageConstraints
      split
      · exact noOwn_error (fun h => h)
      · exact noOwn_bind (noOwn_pyDiv _ _) fun _ => noOwn_bind (noOwn_pyDiv _ _) fun _ => noOwn_pure _
    · unfold Device.updateSoc
      split
      · exact noOwn_error (fun h => h)
      · exact noOwn_ok _
  split
  · exact noOwn_pure _
  · exact noOwn_pure _

theorem noOwn_gather (pi : K) (s : Sim K) : NoOwn (s.gatherState pi) := by
  unfold Sim.gatherState
  refine noOwn_bind (noOwn_mapE fun d _ => ?_) fun _ => noOwn_pure _
  split
  · exact noOwn_error (fun h => h)
  · exact noOwn_ok _

/-- The simulator raises no exception of gym-anm during a transition, unless the power flow does. -/
theorem noOwn_transition {c : Ctx K} (hpf : ∀ i, NoOwn (c.pf i)) (s : Sim K) (a : Sim.Args K) :
    NoOwn (s.transition c a) := by
  unfold Sim.transition
  refine noOwn_bind ?_ fun s => noOwn_bind (noOwn_gather _ _) fun _ => noOwn_bind ?_ fun _ => noOwn_pure _
  · unfold Sim.solveStep
    refine noOwn_bind (noOwn_mapE fun d _ => noOwn_stepDevice _ _ _ _ _) fun _ => noOwn_bind (hpf _) fun _ =>
      noOwn_bind ?_ fun _ => noOwn_pure _
    unfold Sim.applyPF
    refine noOwn_bind (noOwn_mapE fun d _ => ?_) fun _ => noOwn_pure _
    split
    · split
      · exact noOwn_ok _
      · exact noOwn_error (fun h => h)
    · exact noOwn_ok _
  · unfold Sim.computeReward
    refine noOwn_bind (noOwn_mapE fun b _ => ?_) fun _ => noOwn_pure _
    unfold Sim.busPenalty
    split
    · exact noOwn_error (fun h => h)
    · exact noOwn_ok _

theorem noOwn_resetArgs (p q m : List (X K)) (ds : List (Device K)) (i g : ℕ) (a : Sim.Args K) :
    NoOwn (Sim.resetArgs p q m ds i g a) := by
  induction ds generalizing i g a with
  | nil => exact noOwn_ok _
  | cons d ds ih =>
    unfold Sim.resetArgs
    split
    · exact noOwn_bind (noOwn_idx _ _) fun _ => ih _ _ _
    split
    · refine noOwn_bind (noOwn_idx _ _) fun _ => noOwn_bind (noOwn_idx _ _) fun _ => ?_
      dsimp only
      split
      · exact noOwn_bind (noOwn_idx _ _) fun _ => ih _ _ _
      · exact ih _ _ _
    · exact ih _ _ _

theorem noOwn_assignSoc (m : X K) (soc : List (X K)) (ds : List (Device K)) (k : ℕ) :
    NoOwn (Sim.assignSoc m soc ds k) := by
  induction ds generalizing k with
  | nil => exact noOwn_ok _
  | cons d ds ih =>
    unfold Sim.assignSoc
    split
    · exact noOwn_bind (noOwn_idx _ _) fun _ => noOwn_bind (ih _) fun _ => noOwn_pure _
    · exact noOwn_bind (ih _) fun _ => noOwn_pure _

/-- Nor during a reset. -/
theorem noOwn_reset {c : Ctx K} (hpf : ∀ i, NoOwn (c.pf i)) (s : Sim K) (v : List (X K)) :
    NoOwn (s.reset c v) := by
  unfold Sim.reset
  dsimp only
  refine noOwn_bind (noOwn_resetArgs _ _ _ _ _ _ _) fun _ => noOwn_bind (noOwn_mapE fun d _ => ?_) fun _ =>
    noOwn_bind (noOwn_transition hpf _ _) fun _ => noOwn_bind (noOwn_assignSoc _ _ _ _) fun _ =>
    noOwn_bind (noOwn_gather _ _) fun _ => noOwn_pure _
  unfold Sim.resetSoc
  split
  · exact noOwn_bind (noOwn_getE _ _) fun _ => noOwn_pure _
  · exact noOwn_pure _

/-- Reading variables raises at most `ObsNotSupportedError`. -/
theorem extract_error {e : Env K ρ} {st : List (X K)} {vs : List Reading} {x : PyErr} (h : e.extract st vs = .error x) :
    ¬ Own x ∨ x = .obsNotSupported := by
  obtain ⟨v, _, hv⟩ := mapE_error h
  unfold Env.readVar at hv
  split at hv
  · cases hv; exact .inl (fun h => h)
  split at hv
  · exact .inl ((noOwn_bind (noOwn_getE _ _) fun _ => noOwn_getE _ _) x hv)
  split at hv
  · split at hv
    · exact .inl (noOwn_pyGet _ _ x hv)
    · cases hv; exact .inl (fun h => h)
  · cases hv; exact .inr rfl

theorem observe_error {e : Env K ρ} {st : List (X K)} {x : PyErr} (h : e.observe st = .error x) :
    ¬ Own x ∨ x = .obsNotSupported := by
  unfold Env.observe at h
  split at h
  · cases h
  split at h
  · simp only [bind_error, pure_error, and_false, exists_false, or_false] at h
    exact extract_error h
  · cases h; exact .inl (fun h => h)

theorem noOwn_varDicts (p q : List (X K)) (ds : List (Device K)) (l g : ℕ) (a : Dict ℤ (X K) × Dict ℤ (X K)) :
    NoOwn (Env.varDicts p q ds l g a) := by
  induction ds generalizing l g a with
  | nil => exact noOwn_ok _
  | cons d ds ih =>
    unfold Env.varDicts
    split
    · exact noOwn_bind (noOwn_idx _ _) fun _ => ih _ _ _
    split
    · exact noOwn_bind (noOwn_idx _ _) fun _ => ih _ _ _
    · exact ih _ _ _

theorem noOwn_setAux (aux : List (X K)) (k n : ℕ) (st : List (X K)) : NoOwn (Env.setAux aux k n st) := by
  induction n with
  | zero => exact noOwn_ok _
  | succ n ih =>
    unfold Env.setAux
    exact noOwn_bind ih fun _ => noOwn_bind (noOwn_idx _ _) fun _ => noOwn_pyPut _ _ _

theorem vectors_error {e : Env K ρ} {b : Bool} {st aux : List (X K)} {x : PyErr} (h : e.vectors b st aux = .error x) :
    ¬ Own x ∨ x = .obsNotSupported := by
  unfold Env.vectors at h
  split at h
  · simp only [Env.observeStep, bind_error] at h
    rcases h with h | ⟨_, _, h | ⟨_, _, h | ⟨_, _, h⟩⟩⟩
    · exact .inl (noOwn_setAux _ _ _ _ x h)
    · exact extract_error h
    · exact observe_error h
    · split at h
      · cases h; exact .inl (fun h => h)
      · exact .inl ((noOwn_bind (noOwn_guardE (e := .assertionError) (fun h => h)) fun _ => noOwn_pure _) x h)
  · cases h

end

end Anm
