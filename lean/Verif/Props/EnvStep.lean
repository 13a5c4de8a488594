import Verif.Props.EnvObs
import Verif.Lemmas.Errors

/-! # C45, C47, C48, C52, C53: actions, rewards and the search for an initial state -/

set_option linter.unusedSectionVars false

namespace Anm

open Spec

namespace Spec
variable {K ρ : Type} [Field K] [LinearOrder K]

/-- The layout of action vectors: the active then the reactive powers of the non-slack generators, then
the active and the reactive powers of the storage units, by increasing ID.  The flag says whether the
component is an active power. -/
def slots (s : Sim K) : List (Device K × Bool) :=
  let g := s.devices.filter Device.isNonSlackGen
  let d := s.devices.filter Device.isStorage
  g.map (·, true) ++ g.map (·, false) ++ d.map (·, true) ++ d.map (·, false)

/-- The limits of a component of the action vector (MW, MVAr). -/
def slotBounds (s : Sim K) (x : Device K × Bool) : X K × X K :=
  if x.2 then (x.1.pMin * s.baseMVA, x.1.pMax * s.baseMVA) else (x.1.qMin * s.baseMVA, x.1.qMax * s.baseMVA)

/-- The set-points `ps`, `qs` are those of the action vector `a`: every component goes to the device and
the power of its slot, and nobody else has a set-point. -/
def Applied (s : Sim K) (a : List (X K)) (ps qs : Dict ℤ (X K)) : Prop :=
  (∀ (j : ℕ) d isP, (slots s)[j]? = some (d, isP) → ∃ x, a[j]? = some x ∧
    (if isP then ps else qs).get? d.id = some x) ∧
  ∀ i, ((∃ x, ps.get? i = some x) ↔ ∃ d ∈ s.devices, (d.isNonSlackGen = true ∨ d.isStorage = true) ∧ d.id = i) ∧
    ((∃ x, qs.get? i = some x) ↔ ∃ d ∈ s.devices, (d.isNonSlackGen = true ∨ d.isStorage = true) ∧ d.id = i)

end Spec

section
variable {K ρ : Type} [Field K] [LinearOrder K]

/-! ### C45: actions -/

theorem assign_spec {ids : List ℤ} (hn : ids.Nodup) (vs : List (X K)) (d : Dict ℤ (X K)) :
    (∀ (j : ℕ) i x, ids[j]? = some i → vs[j]? = some x → (Env.assign d vs ids).get? i = some x) ∧
    (∀ i, i ∉ ids → (Env.assign d vs ids).get? i = d.get? i) := by
  induction ids generalizing vs d with
  | nil => simp [Env.assign]
  | cons i0 ids ih =>
    cases vs with
    | nil => simp [Env.assign]
    | cons v vs =>
      obtain ⟨h1, h2⟩ := ih (List.nodup_cons.1 hn).2 vs (d.set i0 v)
      have e : Env.assign d (v :: vs) (i0 :: ids) = Env.assign (d.set i0 v) vs ids := rfl
      rw [e]
      constructor
      · intro j i x hi hx
        cases j with
        | zero =>
          simp only [List.getElem?_cons_zero, Option.some.injEq] at hi hx
          subst hi hx
          rw [h2 _ (List.nodup_cons.1 hn).1, Dict.get?_set, if_pos rfl]
        | succ j => exact h1 j i x (by simpa using hi) (by simpa using hx)
      · intro i hi
        simp only [List.mem_cons, not_or] at hi
        rw [h2 i hi.2, Dict.get?_set, if_neg (fun h => hi.1 h.symm)]

theorem sortDict_self {β : Type} {d : Dict ℤ β} (h : d.Pairwise (fun a b => a.1 < b.1)) : sortDict d = d :=
  List.Pairwise.insertionSort_eq (h.imp fun h => le_of_lt h)

theorem storage_not_gen (d : Device K) (h : d.isStorage = true) : d.isNonSlackGen = false := by
  unfold Device.isNonSlackGen Device.isGen
  unfold Device.isStorage at h
  cases hk : d.kind <;> simp_all

/-- The bounds of the action space, component by component. -/
theorem actionBounds_slots {s : Sim K} (hs : s.devices.Pairwise (fun a b => a.id < b.id)) :
    actionBounds s = (slots s).map (slotBounds s) := by
  have hf : s.devices.filter (fun d => !d.isNonSlackGen && d.isStorage) = s.devices.filter Device.isStorage := by
    refine List.filter_congr fun d _ => ?_
    cases h : d.isStorage
    · simp
    · simp [storage_not_gen d h]
  have hp : ∀ (P : Device K → Bool) (f : Device K → X K × X K),
      ((s.devices.filter P).map fun x => (x.id, f x)).Pairwise (fun a b => a.1 < b.1) := by
    intro P f
    rw [List.pairwise_map]
    exact hs.filter P
  simp only [actionBounds, Sim.actionSpace, hf, sortDict_self (hp _ _), slots, List.map_append, List.map_map,
    Function.comp_def, slotBounds, if_true, Bool.false_eq_true, if_false]

theorem slots_length (s : Sim K) : (slots s).length =
    2 * (s.devices.filter Device.isNonSlackGen).length + 2 * (s.devices.filter Device.isStorage).length := by
  simp [slots]; omega

theorem slots_get {s : Sim K} {j : ℕ} {x : Device K × Bool} (h : (slots s)[j]? = some x) :
    let g := s.devices.filter Device.isNonSlackGen
    let d := s.devices.filter Device.isStorage
    ∃ i, (g[i]? = some x.1 ∧ x.2 = true ∧ j = i) ∨ (g[i]? = some x.1 ∧ x.2 = false ∧ j = g.length + i) ∨
      (d[i]? = some x.1 ∧ x.2 = true ∧ j = 2 * g.length + i) ∨
      (d[i]? = some x.1 ∧ x.2 = false ∧ j = 2 * g.length + d.length + i) := by
  intro g d
  have key : ∀ (l : List (Device K)) (b : Bool) (i : ℕ), (l.map (·, b))[i]? = some x → l[i]? = some x.1 ∧ x.2 = b := by
    intro l b i h
    rw [List.getElem?_map] at h
    cases hl : l[i]? with
    | none => rw [hl] at h; cases h
    | some y => rw [hl] at h; cases h; exact ⟨rfl, rfl⟩
  have hs : slots s = g.map (·, true) ++ g.map (·, false) ++ d.map (·, true) ++ d.map (·, false) := rfl
  rw [hs] at h
  by_cases h1 : j < g.length
  · rw [List.getElem?_append_left (by simp; omega), List.getElem?_append_left (by simp; omega),
      List.getElem?_append_left (by simp; omega)] at h
    exact ⟨j, .inl ⟨(key _ _ _ h).1, (key _ _ _ h).2, rfl⟩⟩
  by_cases h2 : j < 2 * g.length
  · rw [List.getElem?_append_left (by simp; omega), List.getElem?_append_left (by simp; omega),
      List.getElem?_append_right (by simp; omega)] at h
    simp only [List.length_map] at h
    exact ⟨j - g.length, .inr (.inl ⟨(key _ _ _ h).1, (key _ _ _ h).2, by omega⟩)⟩
  by_cases h3 : j < 2 * g.length + d.length
  · rw [List.getElem?_append_left (by simp; omega), List.getElem?_append_right (by simp; omega)] at h
    simp only [List.length_map, List.length_append] at h
    exact ⟨j - 2 * g.length, .inr (.inr (.inl ⟨by
      have := (key _ _ _ h).1; rwa [← two_mul] at this, (key _ _ _ h).2, by omega⟩))⟩
  · rw [List.getElem?_append_right (by simp; omega)] at h
    simp only [List.length_map, List.length_append] at h
    exact ⟨j - (2 * g.length + d.length), .inr (.inr (.inr ⟨by
      have := (key _ _ _ h).1; rwa [← two_mul] at this, (key _ _ _ h).2, by omega⟩))⟩

/-- The decoded set-points of an action vector of the right length. -/
theorem decode_applied [FloorRing K] {s : Sim K} (hs : s.devices.Pairwise (fun a b => a.id < b.id)) {a : List (X K)}
    (ha : a.length = (slots s).length) : Applied s a (Env.decode s a).1 (Env.decode s a).2 := by
  rw [slots_length] at ha
  set g := s.devices.filter Device.isNonSlackGen with hg
  set d := s.devices.filter Device.isStorage with hd
  have nd : ∀ P : Device K → Bool, ((s.devices.filter P).map Device.id).Nodup := by
    intro P
    refine List.Pairwise.imp (fun h => ne_of_lt h) ?_
    rw [List.pairwise_map]
    exact hs.filter P
  have disj : ∀ x ∈ g, ∀ y ∈ d, x.id ≠ y.id := by
    intro x hx y hy he
    obtain ⟨hx1, hx2⟩ := List.mem_filter.1 hx
    obtain ⟨hy1, hy2⟩ := List.mem_filter.1 hy
    have := sorted_id_inj hs hx1 hy1 he
    subst this
    rw [storage_not_gen x hy2] at hx2; cases hx2
  have hgd : ∀ {x}, x ∈ g → x.id ∉ d.map Device.id := by
    intro x hx h
    obtain ⟨y, hy, he⟩ := List.mem_map.1 h
    exact disj x hx y hy he.symm
  -- one of the two dictionaries
  have main : ∀ u w : List (X K), u.length = g.length → w.length = d.length →
      let D := Env.assign (Env.assign [] u (g.map Device.id)) w (d.map Device.id)
      (∀ (i : ℕ) x, g[i]? = some x → ∃ v, u[i]? = some v ∧ D.get? x.id = some v) ∧
      (∀ (i : ℕ) x, d[i]? = some x → ∃ v, w[i]? = some v ∧ D.get? x.id = some v) ∧
      ∀ i, (∃ x, D.get? i = some x) ↔ ∃ x ∈ s.devices, (x.isNonSlackGen = true ∨ x.isStorage = true) ∧ x.id = i := by
    intro u w hu hw D
    obtain ⟨p1, p2⟩ := assign_spec (nd Device.isNonSlackGen) u []
    obtain ⟨q1, q2⟩ := assign_spec (nd Device.isStorage) w (Env.assign [] u (g.map Device.id))
    have A : ∀ (i : ℕ) x, g[i]? = some x → ∃ v, u[i]? = some v ∧ D.get? x.id = some v := by
      intro i x hx
      have hlt : i < g.length := (List.getElem?_eq_some_iff.1 hx).1
      refine ⟨u[i], List.getElem?_eq_getElem (by omega), ?_⟩
      rw [q2 _ (hgd (List.mem_of_getElem? hx))]
      exact p1 i x.id _ (by rw [List.getElem?_map, hx]; rfl) (List.getElem?_eq_getElem (by omega))
    have B : ∀ (i : ℕ) x, d[i]? = some x → ∃ v, w[i]? = some v ∧ D.get? x.id = some v := by
      intro i x hx
      have hlt : i < d.length := (List.getElem?_eq_some_iff.1 hx).1
      exact ⟨w[i], List.getElem?_eq_getElem (by omega),
        q1 i x.id _ (by rw [List.getElem?_map, hx]; rfl) (List.getElem?_eq_getElem (by omega))⟩
    refine ⟨A, B, fun i => ⟨?_, ?_⟩⟩
    · rintro ⟨x, hx⟩
      by_contra hno
      have h1 : i ∉ d.map Device.id := by
        intro h
        obtain ⟨y, hy, he⟩ := List.mem_map.1 h
        obtain ⟨hy1, hy2⟩ := List.mem_filter.1 hy
        exact hno ⟨y, hy1, .inr hy2, he⟩
      have h2 : i ∉ g.map Device.id := by
        intro h
        obtain ⟨y, hy, he⟩ := List.mem_map.1 h
        obtain ⟨hy1, hy2⟩ := List.mem_filter.1 hy
        exact hno ⟨y, hy1, .inl hy2, he⟩
      rw [q2 i h1, p2 i h2] at hx
      cases hx
    · rintro ⟨x, hx, hk | hk, rfl⟩
      · obtain ⟨j, hj⟩ := List.getElem?_of_mem (List.mem_filter.2 ⟨hx, hk⟩)
        obtain ⟨v, _, hv⟩ := A j x hj
        exact ⟨v, hv⟩
      · obtain ⟨j, hj⟩ := List.getElem?_of_mem (List.mem_filter.2 ⟨hx, hk⟩)
        obtain ⟨v, _, hv⟩ := B j x hj
        exact ⟨v, hv⟩
  have P := main (Sim.slice a 0 g.length) (Sim.slice a (2 * g.length) (2 * g.length + d.length))
    (by simp [Sim.slice]; omega) (by simp [Sim.slice]; omega)
  have Q := main (Sim.slice a g.length (2 * g.length)) (a.drop (2 * g.length + d.length))
    (by simp [Sim.slice]; omega) (by simp; omega)
  have eP : (Env.decode s a).1 = Env.assign (Env.assign [] (Sim.slice a 0 g.length) (g.map Device.id))
      (Sim.slice a (2 * g.length) (2 * g.length + d.length)) (d.map Device.id) := by
    simp only [Env.decode, List.length_map, ← hg, ← hd]
  have eQ : (Env.decode s a).2 = Env.assign (Env.assign [] (Sim.slice a g.length (2 * g.length)) (g.map Device.id))
      (a.drop (2 * g.length + d.length)) (d.map Device.id) := by
    simp only [Env.decode, List.length_map, ← hg, ← hd]
  rw [eP, eQ]
  refine ⟨?_, fun i => ⟨P.2.2 i, Q.2.2 i⟩⟩
  intro j x isP hj
  obtain ⟨i, h⟩ := slots_get hj
  dsimp only at h
  rcases h with ⟨h1, h2, h3⟩ | ⟨h1, h2, h3⟩ | ⟨h1, h2, h3⟩ | ⟨h1, h2, h3⟩ <;> subst h2 <;> subst j
  · obtain ⟨v, hv, hg⟩ := P.1 i x h1
    exact ⟨v, by simpa using (slice_get hv).1, hg⟩
  · obtain ⟨v, hv, hg⟩ := Q.1 i x h1
    exact ⟨v, (slice_get hv).1, hg⟩
  · obtain ⟨v, hv, hg⟩ := P.2.1 i x h1
    exact ⟨v, (slice_get hv).1, hg⟩
  · obtain ⟨v, hv, hg⟩ := Q.2.1 i x h1
    refine ⟨v, ?_, hg⟩
    rw [List.getElem?_drop] at hv
    exact hv

theorem slots_same {s s' : Sim K} (h : SameConfig s s') :
    List.Forall₂ (fun x y => SameMachine x.1 y.1 ∧ y.2 = x.2) (slots s) (slots s') := by
  have hf : ∀ P : Device K → Bool, (∀ d d', SameMachine d d' → P d' = P d) →
      List.Forall₂ SameMachine (s.devices.filter P) (s'.devices.filter P) := by
    intro P hP
    have := h.devices
    clear h
    generalize s.devices = l at *
    generalize s'.devices = l' at *
    induction this with
    | nil => exact .nil
    | @cons a b _ _ hh _ ih =>
      simp only [List.filter_cons, hP a b hh]
      split
      · exact .cons hh ih
      · exact ih
  have hm : ∀ (l l' : List (Device K)) (b : Bool), List.Forall₂ SameMachine l l' →
      List.Forall₂ (fun x y : Device K × Bool => SameMachine x.1 y.1 ∧ y.2 = x.2) (l.map (·, b)) (l'.map (·, b)) := by
    intro l l' b hl
    rw [List.forall₂_map_left_iff, List.forall₂_map_right_iff]
    exact hl.imp fun _ _ h => ⟨h, rfl⟩
  have g := hf Device.isNonSlackGen (fun d d' hh => by rw [hh]; rfl)
  have d := hf Device.isStorage (fun d d' hh => by rw [hh]; rfl)
  exact List.rel_append (List.rel_append (List.rel_append (hm _ _ _ g) (hm _ _ _ g)) (hm _ _ _ d)) (hm _ _ _ d)

theorem slotBounds_same {s s' : Sim K} (h : SameConfig s s') :
    (slots s').map (slotBounds s') = (slots s).map (slotBounds s) := by
  have := slots_same h
  generalize slots s = l at *
  generalize slots s' = l' at *
  induction this with
  | nil => rfl
  | cons hh _ ih =>
    rw [List.map_cons, List.map_cons, ih]
    congr 1
    obtain ⟨h1, h2⟩ := hh
    unfold slotBounds
    rw [h2, h1, h.base]

/-- **C45.** The action space has one component per slot, with the limits of the device and power of the
slot, and a step applies every component of the action to the device and the power of its slot and to
nobody else: these are the set-points of the transition of the simulator. -/
theorem C45_actions [FloorRing K] {c : EnvCtx K ρ} {a : EnvArgs K} {e : Env K ρ} (he : EnvOf c a e) :
    (e.actionSpace.low = (slots e.sim).map (fun x => (slotBounds e.sim x).1) ∧
      e.actionSpace.high = (slots e.sim).map (fun x => (slotBounds e.sim x).2)) ∧
    (∀ act e' out y, e.step c act = .ok (e', out) → e.dyn = some y → y.terminated = false →
      ∃ args o, e.sim.transition c.sim args = .ok (e'.sim, o) ∧ Applied e.sim act args.pSet args.qSet) := by
  obtain ⟨e0, I, hs, -, hc⟩ := envOf_inv he
  have hb : e.actionSpace = { low := ((slots e.sim).map (slotBounds e.sim)).map (·.1),
                              high := ((slots e.sim).map (slotBounds e.sim)).map (·.2) } := by
    have h := I.action
    simp only [mkBox, bind_ok, pure_ok] at h
    obtain ⟨_, _, h⟩ := h
    rw [actionBounds_slots (simOf_sorted ⟨e0.sim, I.sim, sameConfig_refl _⟩), ← slotBounds_same hc] at h
    rw [hs.actionSpace, ← h]
  refine ⟨⟨by rw [hb]; simp, by rw [hb]; simp⟩, ?_⟩
  intro act e' out y h hy ht
  obtain ⟨hcon, y1, hy1, ⟨ht1, _⟩ | ⟨_, h⟩⟩ := step_ok h
  · rw [hy] at hy1; cases hy1; rw [ht] at ht1; cases ht1
  · obtain ⟨vars, args, o, y', A⟩ := advance_ok h
    refine ⟨args, o, A.trans, ?_⟩
    have hl : act.length = (slots e.sim).length := by
      have := hcon.2.1
      rw [hb] at this
      simpa using this
    have := decode_applied (simOf_sorted (envOf_simOf he)) hl
    rw [A.decode] at this
    exact this

/-! ### C47, C48: rewards -/

theorem X.clip_energy [IsStrictOrderedRing K] {x : X K} {c : K} (hx : X.NotNan x) (hc : 0 ≤ c) :
    .fin (-c) ≤ X.sign x * X.clip (X.abs x) 0 (.fin c) ∧ X.sign x * X.clip (X.abs x) 0 (.fin c) ≤ .fin c ∧
    (.fin (-c) ≤ x → x ≤ .fin c → X.sign x * X.clip (X.abs x) 0 (.fin c) = x) := by
  have ha : X.NotNan (X.abs x) := by cases x <;> simp_all [X.abs]
  obtain ⟨m1, m2⟩ := X.clip_mem ha (show (0 : X K) ≤ .fin c from hc)
  have hself : X.abs x ≤ .fin c → X.clip (X.abs x) 0 (.fin c) = X.abs x := by
    intro h
    refine X.clip_eq_self ?_ h
    cases x with
    | nan => simp at hx
    | pinf => exact trivial
    | ninf => exact trivial
    | fin a => simp [X.abs, X.zero_def]
  revert m1 m2 hself
  generalize X.clip (X.abs x) 0 (.fin c) = z
  intro m1 m2 hself
  cases z with
  | nan => simp at m2
  | pinf => simp at m2
  | ninf => simp [X.zero_def] at m1
  | fin z =>
    simp only [X.zero_def, X.fin_le_fin] at m1 m2
    cases x with
    | nan => simp at hx
    | pinf => simp [X.sign]; constructor <;> linarith
    | ninf => simp [X.sign]; exact ⟨m2, by linarith⟩
    | fin a =>
      simp only [X.abs, X.fin_le_fin, X.fin.injEq] at hself
      rcases lt_trichotomy 0 a with h | h | h
      · simp only [X.sign, h, if_true, X.fin_mul_fin, one_mul, X.fin_le_fin, X.fin.injEq]
        refine ⟨by linarith, m2, fun _ h2 => ?_⟩
        rw [hself (abs_le.2 ⟨by linarith, h2⟩), abs_of_pos h]
      · subst h
        simp [X.sign, hc]
      · simp only [X.sign, h, not_lt.2 h.le, if_true, if_false, X.fin_mul_fin, neg_mul, one_mul, X.fin_le_fin,
          X.fin.injEq]
        refine ⟨by linarith, by linarith, fun h1 _ => ?_⟩
        rw [hself (abs_le.2 ⟨h1, by linarith⟩), abs_of_neg h, neg_neg]

/-- **C47, non-terminal steps.** The reward of a step that does not terminate is minus the sum of the
stored energy loss and penalty, which are those of the simulator clipped to `[-c1, c1]` and `[0, c2]`. -/
theorem C47_reward [IsStrictOrderedRing K] {c : EnvCtx K ρ} {e e' : Env K ρ} {act : List (X K)} {out : Env.StepOut K}
    {c1 c2 : K} (h1 : e.c1 = .fin c1) (h2 : e.c2 = .fin c2) (h10 : 0 ≤ c1) (h20 : 0 ≤ c2)
    (h : e.step c act = .ok (e', out)) (ht : out.terminated = false) :
    ∃ args o y', e.sim.transition c.sim args = .ok (e'.sim, o) ∧ e'.dyn = some y' ∧
      out.reward = -(y'.eLoss + y'.penalty) ∧
      (X.NotNan o.eLoss → (.fin (-c1) ≤ y'.eLoss ∧ y'.eLoss ≤ .fin c1) ∧
        (.fin (-c1) ≤ o.eLoss → o.eLoss ≤ .fin c1 → y'.eLoss = o.eLoss)) ∧
      (X.NotNan o.penalty → (0 ≤ y'.penalty ∧ y'.penalty ≤ .fin c2) ∧
        (0 ≤ o.penalty → o.penalty ≤ .fin c2 → y'.penalty = o.penalty)) ∧
      (X.NotNan o.eLoss → X.NotNan o.penalty → .fin (-(c1 + c2)) ≤ out.reward ∧ out.reward ≤ .fin c1) := by
  obtain ⟨_, y, hy, ⟨_, rfl, rfl⟩ | ⟨hf, h⟩⟩ := step_ok h
  · cases ht
  obtain ⟨vars, args, o, y', I⟩ := advance_ok h
  have ho : o.converged = true := by have := I.flag; rw [ht] at this; simpa using this.symm
  have hr := I.reward
  rw [ho] at hr
  simp only [Env.rewardOf, if_true, Except.ok.injEq, Prod.mk.injEq, h1, h2] at hr
  obtain ⟨r1, r2, r3⟩ := hr
  rw [r2, r3] at r1
  have E : X.NotNan o.eLoss → (.fin (-c1) ≤ y'.eLoss ∧ y'.eLoss ≤ .fin c1) ∧
      (.fin (-c1) ≤ o.eLoss → o.eLoss ≤ .fin c1 → y'.eLoss = o.eLoss) := by
    intro hn
    obtain ⟨a1, a2, a3⟩ := X.clip_energy hn h10
    rw [← r2]
    exact ⟨⟨a1, a2⟩, a3⟩
  have P : X.NotNan o.penalty → (0 ≤ y'.penalty ∧ y'.penalty ≤ .fin c2) ∧
      (0 ≤ o.penalty → o.penalty ≤ .fin c2 → y'.penalty = o.penalty) := by
    intro hn
    rw [← r3]
    exact ⟨X.clip_mem hn (show (0 : X K) ≤ .fin c2 from h20), fun b1 b2 => X.clip_eq_self b1 b2⟩
  refine ⟨args, o, y', I.trans, by rw [I.result], r1.symm, E, P, fun n1 n2 => ?_⟩
  obtain ⟨⟨a1, a2⟩, _⟩ := E n1
  obtain ⟨⟨b1, b2⟩, _⟩ := P n2
  rw [← r1]
  revert a1 a2 b1 b2
  generalize y'.eLoss = x
  generalize y'.penalty = z
  cases x <;> cases z <;> simp [X.zero_def]
  intro a1 a2 b1 b2
  constructor <;> linarith

/-- **C47, the terminating step.** A step that collapses the network returns `-c2 / (1 - gamma)`, for every
discount factor other than 1. -/
theorem C47_terminating {c : EnvCtx K ρ} {e e' : Env K ρ} {act : List (X K)} {out : Env.StepOut K} {y : EnvDyn K}
    {c2 g : K} (h2 : e.c2 = .fin c2) (hg : e.gamma = .fin g) (hg1 : g ≠ 1) (hy : e.dyn = some y)
    (hlive : y.terminated = false) (h : e.step c act = .ok (e', out)) (ht : out.terminated = true) :
    out.reward = .fin (-c2 / (1 - g)) := by
  obtain ⟨_, y1, hy1, ⟨ht1, _⟩ | ⟨hf, h⟩⟩ := step_ok h
  · rw [hy] at hy1; cases hy1; rw [hlive] at ht1; cases ht1
  obtain ⟨vars, args, o, y', I⟩ := advance_ok h
  have ho : o.converged = false := by have := I.flag; rw [ht] at this; simpa using this.symm
  have hr := I.reward
  rw [ho] at hr
  simp only [Env.rewardOf, Bool.false_eq_true, if_false, bind_ok, pure_ok, X.pyDiv, guardE_ok, h2, hg,
    Prod.mk.injEq, X.neg_fin, X.fin_sub_fin] at hr
  obtain ⟨r, ⟨_, _, rfl⟩, r1, _⟩ := hr
  rw [← r1, X.fin_div_fin (sub_ne_zero.2 hg1.symm)]

/-! ### The vector of loads and potentials -/

/-- The vector `vars` returned by `next_vars` is distributed to the loads and then to the non-slack
generators, by increasing ID; nobody else gets a value. -/
def Spec.Distributed (s : Sim K) (vars : List (X K)) (pl pp : Dict ℤ (X K)) : Prop :=
  let loads := s.devices.filter Device.isLoad
  let gens := s.devices.filter Device.isNonSlackGen
  (∀ (j : ℕ) d, loads[j]? = some d → ∃ x, vars[j]? = some x ∧ pl.get? d.id = some x) ∧
  (∀ (j : ℕ) d, gens[j]? = some d → ∃ x, vars[loads.length + j]? = some x ∧ pp.get? d.id = some x) ∧
  ∀ i, ((∃ x, pl.get? i = some x) ↔ ∃ d ∈ loads, d.id = i) ∧ ((∃ x, pp.get? i = some x) ↔ ∃ d ∈ gens, d.id = i)

theorem varDicts_spec {pl pp : List (X K)} {ds : List (Device K)} (hn : (ds.map Device.id).Nodup) {l g : ℕ}
    {acc : Dict ℤ (X K) × Dict ℤ (X K)} (hl : l + (ds.filter Device.isLoad).length ≤ pl.length)
    (hg : g + (ds.filter Device.isNonSlackGen).length ≤ pp.length) :
    ∃ r, Env.varDicts pl pp ds l g acc = .ok r ∧
      (∀ (j : ℕ) d, (ds.filter Device.isLoad)[j]? = some d → ∃ x, pl[l + j]? = some x ∧ r.1.get? d.id = some x) ∧
      (∀ (j : ℕ) d, (ds.filter Device.isNonSlackGen)[j]? = some d → ∃ x, pp[g + j]? = some x ∧ r.2.get? d.id = some x) ∧
      (∀ i, i ∉ (ds.filter Device.isLoad).map Device.id → r.1.get? i = acc.1.get? i) ∧
      (∀ i, i ∉ (ds.filter Device.isNonSlackGen).map Device.id → r.2.get? i = acc.2.get? i) := by
  induction ds generalizing l g acc with
  | nil => exact ⟨acc, rfl, by simp, by simp, by simp, by simp⟩
  | cons d ds ih =>
    rw [List.map_cons, List.nodup_cons] at hn
    have hni : ∀ P : Device K → Bool, d.id ∉ (ds.filter P).map Device.id := by
      intro P h
      obtain ⟨x, hx, he⟩ := List.mem_map.1 h
      exact hn.1 (List.mem_map.2 ⟨x, (List.mem_filter.1 hx).1, he⟩)
    by_cases h1 : d.isLoad = true
    · have h2 : d.isNonSlackGen = false := by
        revert h1; unfold Device.isLoad Device.isNonSlackGen Device.isGen; cases d.kind <;> simp
      simp only [List.filter_cons, h1, h2, if_true, Bool.false_eq_true, if_false, List.length_cons] at hl hg ⊢
      obtain ⟨r, g1, g2, g3, g4, g5⟩ := ih hn.2 (l := l + 1) (g := g) (acc := (acc.1.set d.id (pl[l]'(by omega)), acc.2))
        (by omega) hg
      refine ⟨r, ?_, ?_, g3, ?_, g5⟩
      · rw [Env.varDicts, if_pos h1]
        simp only [bind_ok]
        exact ⟨_, idx_ok.2 (List.getElem?_eq_getElem (by omega)), g1⟩
      · intro j x hx
        cases j with
        | zero =>
          simp only [List.getElem?_cons_zero, Option.some.injEq] at hx
          subst hx
          refine ⟨_, List.getElem?_eq_getElem (by omega), ?_⟩
          rw [g4 _ (hni _), Dict.get?_set, if_pos rfl]
          rfl
        | succ j =>
          obtain ⟨v, hv, hv'⟩ := g2 j x (by simpa using hx)
          exact ⟨v, by rw [← hv]; congr 1; omega, hv'⟩
      · intro i hi
        simp only [List.map_cons, List.mem_cons, not_or] at hi
        rw [g4 i hi.2, Dict.get?_set, if_neg (fun h => hi.1 h.symm)]
    · by_cases h2 : d.isNonSlackGen = true
      · simp only [List.filter_cons, h1, h2, if_true, List.length_cons] at hl hg ⊢
        obtain ⟨r, g1, g2, g3, g4, g5⟩ := ih hn.2 (l := l) (g := g + 1)
          (acc := (acc.1, acc.2.set d.id (pp[g]'(by omega)))) hl (by omega)
        refine ⟨r, ?_, g2, ?_, g4, ?_⟩
        · rw [Env.varDicts, if_neg h1, if_pos h2]
          simp only [bind_ok]
          exact ⟨_, idx_ok.2 (List.getElem?_eq_getElem (by omega)), g1⟩
        · intro j x hx
          cases j with
          | zero =>
            simp only [List.getElem?_cons_zero, Option.some.injEq] at hx
            subst hx
            refine ⟨_, List.getElem?_eq_getElem (by omega), ?_⟩
            rw [g5 _ (hni _), Dict.get?_set, if_pos rfl]
            rfl
          | succ j =>
            obtain ⟨v, hv, hv'⟩ := g3 j x (by simpa using hx)
            exact ⟨v, by rw [← hv]; congr 1; omega, hv'⟩
        · intro i hi
          simp only [List.map_cons, List.mem_cons, not_or] at hi
          rw [g5 i hi.2, Dict.get?_set, if_neg (fun h => hi.1 h.symm)]
      · simp only [List.filter_cons, h1, h2] at hl hg ⊢
        obtain ⟨r, g1, g⟩ := ih hn.2 (l := l) (g := g) (acc := acc) hl hg
        exact ⟨r, by rw [Env.varDicts, if_neg h1, if_neg h2]; exact g1, g⟩

/-- A vector of the right size is always distributed, and as specified. -/
theorem distributed_of {s : Sim K} (hs : s.devices.Pairwise (fun a b => a.id < b.id)) {vars : List (X K)} {k : ℕ}
    (hv : vars.length = s.nLoad + s.nNonSlackGen + k) :
    ∃ r, Env.varDicts (vars.take s.nLoad) (Sim.slice vars s.nLoad (s.nLoad + s.nNonSlackGen)) s.devices 0 0 ([], []) =
      .ok r ∧ Distributed s vars r.1 r.2 := by
  have hn : (s.devices.map Device.id).Nodup := by
    refine List.Pairwise.imp (fun h => ne_of_lt h) ?_
    rw [List.pairwise_map]
    exact hs
  have e1 : s.nLoad = (s.devices.filter Device.isLoad).length := rfl
  have e2 : s.nNonSlackGen = (s.devices.filter Device.isNonSlackGen).length := rfl
  obtain ⟨r, h1, h2, h3, h4, h5⟩ := varDicts_spec (pl := vars.take s.nLoad)
    (pp := Sim.slice vars s.nLoad (s.nLoad + s.nNonSlackGen)) hn (l := 0) (g := 0) (acc := ([], []))
    (by rw [List.length_take]; omega) (by simp only [Sim.slice, List.length_take, List.length_drop]; omega)
  have A : ∀ (j : ℕ) d, (s.devices.filter Device.isLoad)[j]? = some d →
      ∃ x, vars[j]? = some x ∧ r.1.get? d.id = some x := by
    intro j d hd
    obtain ⟨x, hx, hg⟩ := h2 j d hd
    rw [Nat.zero_add, List.getElem?_take] at hx
    split at hx
    · exact ⟨x, hx, hg⟩
    · cases hx
  have B : ∀ (j : ℕ) d, (s.devices.filter Device.isNonSlackGen)[j]? = some d →
      ∃ x, vars[(s.devices.filter Device.isLoad).length + j]? = some x ∧ r.2.get? d.id = some x := by
    intro j d hd
    obtain ⟨x, hx, hg⟩ := h3 j d hd
    rw [Nat.zero_add] at hx
    exact ⟨x, (slice_get hx).1, hg⟩
  refine ⟨r, h1, A, B, fun i => ⟨⟨?_, ?_⟩, ?_, ?_⟩⟩
  · rintro ⟨x, hx⟩
    by_contra hno
    rw [h4 i (fun h => hno (by obtain ⟨d, hd, he⟩ := List.mem_map.1 h; exact ⟨d, hd, he⟩))] at hx
    cases hx
  · rintro ⟨d, hd, rfl⟩
    obtain ⟨j, hj⟩ := List.getElem?_of_mem hd
    obtain ⟨x, _, hx⟩ := A j d hj
    exact ⟨x, hx⟩
  · rintro ⟨x, hx⟩
    by_contra hno
    rw [h5 i (fun h => hno (by obtain ⟨d, hd, he⟩ := List.mem_map.1 h; exact ⟨d, hd, he⟩))] at hx
    cases hx
  · rintro ⟨d, hd, rfl⟩
    obtain ⟨j, hj⟩ := List.getElem?_of_mem hd
    obtain ⟨x, _, hx⟩ := B j d hj
    exact ⟨x, hx⟩

/-- **C76.** A step from a non-terminal state applies the vector returned by `next_vars` as documented: its
first components are the demands of the loads by increasing ID, the next ones the potentials of the
non-slack generators by increasing ID, and nobody else gets a value. -/
theorem C76_next_vars [FloorRing K] {c : EnvCtx K ρ} {a : EnvArgs K} {e e' : Env K ρ} (he : EnvOf c a e)
    {act : List (X K)} {out : Env.StepOut K} {y : EnvDyn K} (h : e.step c act = .ok (e', out))
    (hy : e.dyn = some y) (hlive : y.terminated = false) :
    ∃ vars args o, c.nextVars y.state e.rng = .ok (vars, e'.rng) ∧
      vars.length = e.sim.nLoad + e.sim.nNonSlackGen + e.nAux ∧
      e.sim.transition c.sim args = .ok (e'.sim, o) ∧ Distributed e.sim vars args.pLoad args.pPot := by
  obtain ⟨_, y1, hy1, ⟨ht1, _⟩ | ⟨hf, h⟩⟩ := step_ok h
  · rw [hy] at hy1; cases hy1; rw [hlive] at ht1; cases ht1
  rw [hy] at hy1; cases hy1
  obtain ⟨vars, args, o, y', I⟩ := advance_ok h
  obtain ⟨r, h1, h2⟩ := distributed_of (simOf_sorted (envOf_simOf he)) I.size
  rw [I.dicts] at h1
  cases h1
  exact ⟨vars, args, o, I.next, I.size, I.trans, h2⟩

/-! ### C48: collapse -/

/-- The step with the action `act` collapses the network: the action is in the action space, the
environment is not in a terminal state, `next_vars` returns a vector of the right size, and the
transition of the simulator with these arguments does not converge. -/
def Spec.Collapses (c : EnvCtx K ρ) (e : Env K ρ) (act : List (X K)) : Prop :=
  e.actionSpace.contains act true ∧ ∃ y, e.dyn = some y ∧ y.terminated = false ∧
    ∃ vars r, c.nextVars y.state e.rng = .ok (vars, r) ∧
      vars.length = e.sim.nLoad + e.sim.nNonSlackGen + e.nAux ∧
      ∃ args s o, Env.varDicts (vars.take e.sim.nLoad)
          (Sim.slice vars e.sim.nLoad (e.sim.nLoad + e.sim.nNonSlackGen)) e.sim.devices 0 0 ([], []) =
            .ok (args.pLoad, args.pPot) ∧ Env.decode e.sim act = (args.pSet, args.qSet) ∧
        e.sim.transition c.sim args = .ok (s, o) ∧ o.converged = false

theorem collapse_step {c : EnvCtx K ρ} {e : Env K ρ} {act : List (X K)} (h : Collapses c e act) :
    ∃ (s : Sim K) (r : ρ) (y : EnvDyn K), e.dyn = some y ∧ e.step c act = (X.pyDiv (-e.c2) (.fin 1 - e.gamma)).bind fun rw =>
      .ok ({ e with sim := s, rng := r, dyn := some { terminated := true, timestep := y.timestep + 1, eLoss := e.c1,
                                                      penalty := e.c2, state := List.replicate e.stateN 0 } },
           { obs := List.replicate e.obsN 0, reward := rw, terminated := true }) := by
  obtain ⟨h1, y, hy, hl, vars, r, hv, hlen, args, s, o, hd, hdec, ht, ho⟩ := h
  refine ⟨s, r, y, hy, ?_⟩
  have hdec1 : (Env.decode e.sim act).1 = args.pSet := by rw [hdec]
  have hdec2 : (Env.decode e.sim act).2 = args.qSet := by rw [hdec]
  have ht' : e.sim.transition c.sim ⟨args.pLoad, args.pPot, args.pSet, args.qSet⟩ = .ok (s, o) := ht
  simp only [Env.step, guardE, h1, if_true, hy, hl, Bool.false_eq_true, if_false, Env.advance, hv, hlen, bind,
    Except.bind, hd, hdec1, hdec2, ht', ho, Env.rewardOf, Env.vectors, Env.zeros, pure, Except.pure, Bool.not_false]
  cases X.pyDiv (-e.c2) (.fin 1 - e.gamma) <;> rfl

/-- **C48 (for discount factors other than 1).** A step that collapses the network returns a reward and
terminates. -/
theorem C48_collapse_partial {c : EnvCtx K ρ} {e : Env K ρ} {act : List (X K)} (hg : e.gamma ≠ .fin 1)
    (h : Collapses c e act) : ∃ e' out, e.step c act = .ok (e', out) ∧ out.terminated = true ∧
      out.obs = List.replicate e.obsN 0 := by
  obtain ⟨s, r, y, _, hs⟩ := collapse_step h
  have hne : (.fin 1 - e.gamma : X K) ≠ .fin 0 := by
    intro h0
    cases hgam : e.gamma with
    | fin g =>
      rw [hgam] at h0 hg
      simp only [X.fin_sub_fin, X.fin.injEq] at h0
      exact hg (by rw [sub_eq_zero.1 h0])
    | nan => rw [hgam] at h0; exact absurd (show (.nan : X K) = .fin 0 from h0) (by simp)
    | pinf => rw [hgam] at h0; exact absurd (show (.ninf : X K) = .fin 0 from h0) (by simp)
    | ninf => rw [hgam] at h0; exact absurd (show (.pinf : X K) = .fin 0 from h0) (by simp)
  rw [X.pyDiv, guardE, if_pos hne] at hs
  exact ⟨_, _, hs, rfl, rfl⟩

/-- **C48 is false for `gamma = 1`**, which the constructor accepts: whenever a step collapses the network,
it raises `ZeroDivisionError` instead of returning a reward. -/
theorem C48_gamma_one {c : EnvCtx K ρ} {e : Env K ρ} {act : List (X K)} (hg : e.gamma = .fin 1)
    (h : Collapses c e act) : e.step c act = .error .zeroDivision := by
  obtain ⟨s, r, y, _, hs⟩ := collapse_step h
  rw [hs, hg]
  simp [X.pyDiv, guardE, Except.bind, bind]

/-! ### C52, C53: the search for an initial state -/

/-- `n` successive attempts fail: `init_state` returns vectors of the right size and the power flow does
not converge. -/
inductive Spec.Fails (c : EnvCtx K ρ) (size : ℕ) : ℕ → Sim K → ρ → Sim K → ρ → Prop where
  | zero (s : Sim K) (r : ρ) : Fails c size 0 s r s r
  | succ {n : ℕ} {s s1 s' : Sim K} {r r1 r' : ρ} {v : List (X K)} : c.initState r = .ok (v, r1) →
      v.length = size → s.reset c.sim v = .ok (s1, false) → Fails c size n s1 r1 s' r' →
      Fails c size (n + 1) s r s' r'

theorem search_fails {c : EnvCtx K ρ} {size n m : ℕ} {s s' : Sim K} {r r' : ρ} (h : Fails c size n s r s' r')
    (hm : 0 < m) : Env.search c size (n + m) s r = Env.search c size m s' r' := by
  induction h generalizing m with
  | zero => rw [Nat.zero_add]
  | @succ n s s1 s' r r1 r' v h1 h2 h3 _ ih =>
    have e : n + 1 + m = (n + m) + 1 := by omega
    rw [e, Env.search, h1]
    simp only [bind, Except.bind, guardE, h2, if_true, h3]
    rw [if_neg (by omega)]
    exact ih hm

/-- **C53 (success within 99 attempts).** If the first `n < 99` attempts fail and the next one converges,
the search stops there with that state; and this is the only way it can succeed. -/
theorem C53_search_partial {c : EnvCtx K ρ} {size : ℕ} {s s' : Sim K} {r r' : ρ} {v : List (X K)} :
    Env.search c size 100 s r = .ok (s', v, r') ↔ ∃ n s1 r1, n < 99 ∧ Fails c size n s r s1 r1 ∧
      c.initState r1 = .ok (v, r') ∧ v.length = size ∧ s1.reset c.sim v = .ok (s', true) := by
  constructor
  · have gen : ∀ left s r, Env.search c size left s r = .ok (s', v, r') → ∃ n s1 r1, n + 1 < left ∧
        Fails c size n s r s1 r1 ∧ c.initState r1 = .ok (v, r') ∧ v.length = size ∧
        s1.reset c.sim v = .ok (s', true) := by
      intro left
      induction left with
      | zero => intro s r h; simp [Env.search] at h
      | succ left ih =>
        intro s r h
        simp only [Env.search, bind_ok, guardE_ok] at h
        obtain ⟨⟨v1, r1⟩, h1, _, h2, ⟨s1, ok⟩, h3, h4⟩ := h
        dsimp only at h1 h2 h3 h4
        split at h4
        · cases h4
        rename_i hleft
        split at h4
        · rename_i hok
          simp only [pure_ok, Prod.mk.injEq] at h4
          obtain ⟨rfl, rfl, rfl⟩ := h4
          subst hok
          exact ⟨0, s, r, by omega, .zero _ _, h1, h2, h3⟩
        · rename_i hok
          obtain ⟨n, s2, r2, g1, g2, g3⟩ := ih _ _ h4
          have : ok = false := by simpa using hok
          subst this
          exact ⟨n + 1, s2, r2, by omega, .succ h1 h2 h3 g2, g3⟩
    intro h
    obtain ⟨n, s1, r1, h1, h2⟩ := gen _ _ _ h
    exact ⟨n, s1, r1, by omega, h2⟩
  · rintro ⟨n, s1, r1, hn, hf, h1, h2, h3⟩
    have e : 100 = n + (100 - n) := by omega
    rw [e, search_fails hf (by omega)]
    obtain ⟨m, hm⟩ : ∃ m, 100 - n = m + 2 := ⟨98 - n, by omega⟩
    rw [hm, Env.search, h1]
    simp [bind, Except.bind, guardE, h2, h3, pure, Except.pure]

/-- **C53 is false in general**: after 99 failed attempts the hundredth one raises `AttributeError`
(not `EnvInitializationError`), whether it converges or not. -/
theorem C53_hundredth {c : EnvCtx K ρ} {size : ℕ} {s s1 s' : Sim K} {r r1 r' : ρ} {v : List (X K)} {ok : Bool}
    (hf : Fails c size 99 s r s1 r1) (h1 : c.initState r1 = .ok (v, r')) (h2 : v.length = size)
    (h3 : s1.reset c.sim v = .ok (s', ok)) : Env.search c size 100 s r = .error .attributeError := by
  rw [show 100 = 99 + 1 from rfl, search_fails hf (by omega), Env.search, h1]
  simp [bind, Except.bind, guardE, h2, h3]

/-- **C53**, for `reset`: what it does with the result of the search, and the exception of the search. -/
theorem C53_reset {c : EnvCtx K ρ} {e : Env K ρ} {seed : Option ℤ} {x : PyErr}
    (h : Env.search c e.initSize 100 e.sim ((seed.map c.seeded).getD e.rng) = .error x) :
    e.reset c seed = .error x := by
  simp [Env.reset, h, bind, Except.bind]

/-- **C52, `init_state`.** As long as earlier attempts fail, a vector of a wrong size raises
`EnvInitializationError`, whatever the power flow would do; and if neither the hook nor the power flow
solver raise that exception themselves, it is raised in no other case. -/
theorem C52_init_size {c : EnvCtx K ρ} {e : Env K ρ} {seed : Option ℤ}
    (h1 : ∀ r, c.initState r ≠ .error .envInit) (hpf : ∀ i, NoOwn (c.sim.pf i)) :
    e.reset c seed = .error .envInit ↔ ∃ n s1 r1 v r', n < 100 ∧
      Fails c e.initSize n e.sim ((seed.map c.seeded).getD e.rng) s1 r1 ∧ c.initState r1 = .ok (v, r') ∧
      v.length ≠ 2 * e.sim.nDevice + e.sim.nDes + e.sim.nNonSlackGen + e.nAux := by
  have h2 : ∀ s v, Sim.reset c.sim s v ≠ .error .envInit := fun s v h => noOwn_reset hpf s v _ h trivial
  have gen : ∀ left s r, Env.search c e.initSize left s r = .error .envInit ↔ ∃ n s1 r1 v r', n < left ∧
      Fails c e.initSize n s r s1 r1 ∧ c.initState r1 = .ok (v, r') ∧ v.length ≠ e.initSize := by
    intro left
    induction left with
    | zero => intro s r; simp [Env.search]
    | succ left ih =>
      intro s r
      constructor
      · intro h
        simp only [Env.search, bind_error, guardE_error] at h
        rcases h with h | ⟨⟨v, r1⟩, g1, h | ⟨_, g2, h | ⟨⟨s1, ok⟩, g3, h⟩⟩⟩
        · exact absurd h (h1 r)
        · exact ⟨0, s, r, v, r1, by omega, .zero _ _, g1, h.1⟩
        · exact absurd h (h2 _ _)
        · dsimp only at h g2 g3
          split at h
          · cases h
          split at h
          · simp [pure, Except.pure] at h
          · rename_i hok
            have : ok = false := by simpa using hok
            subst this
            obtain ⟨n, s2, r2, v2, r3, k1, k2, k3⟩ := (ih _ _).1 h
            exact ⟨n + 1, s2, r2, v2, r3, by omega, .succ g1 (guardE_ok.1 g2) g3 k2, k3⟩
      · rintro ⟨n, s1, r1, v, r', k1, k2, k3, k4⟩
        have e1 : left + 1 = n + (left + 1 - n) := by omega
        rw [e1, search_fails k2 (by omega)]
        obtain ⟨m, hm⟩ : ∃ m, left + 1 - n = m + 1 := ⟨left - n, by omega⟩
        rw [hm, Env.search, k3]
        simp [bind, Except.bind, guardE, k4]
  rw [show 2 * e.sim.nDevice + e.sim.nDes + e.sim.nNonSlackGen + e.nAux = e.initSize from rfl, ← gen]
  refine ⟨fun h => ?_, fun h => C53_reset h⟩
  simp only [Env.reset, bind_error, guardE_error] at h
  rcases h with h | ⟨⟨s, v, r⟩, _, h | ⟨st, _, h | ⟨⟨obs, nr⟩, _, h | ⟨_, _, h⟩⟩⟩⟩
  · exact h
  · rcases extract_error h with h | h
    · exact absurd trivial h
    · cases h
  · rcases observe_error h with h | h
    · exact absurd trivial h
    · cases h
  · exact absurd h.2 (by simp)
  · simp [pure, Except.pure] at h

/-- **C52, `next_vars`.** A vector of a wrong size raises `EnvNextVarsError`, whatever the simulator would
do; and if neither the hook nor the power flow solver raise that exception themselves, it is raised in no
other case. -/
theorem C52_next_size {c : EnvCtx K ρ} {e : Env K ρ} {act : List (X K)}
    (h1 : ∀ st r, c.nextVars st r ≠ .error .envNextVars) (hpf : ∀ i, NoOwn (c.sim.pf i)) :
    e.step c act = .error .envNextVars ↔ e.actionSpace.contains act true ∧ ∃ y, e.dyn = some y ∧
      y.terminated = false ∧ ∃ vars r, c.nextVars y.state e.rng = .ok (vars, r) ∧
      vars.length ≠ e.sim.nLoad + e.sim.nNonSlackGen + e.nAux := by
  constructor
  · intro h
    simp only [Env.step, bind_error, guardE_error] at h
    rcases h with h | ⟨_, ha, h⟩
    · exact absurd h.2 (by simp)
    refine ⟨guardE_ok.1 ha, ?_⟩
    cases hy : e.dyn with
    | none => rw [hy] at h; cases h
    | some y =>
      rw [hy] at h
      dsimp only at h
      split at h
      · cases h
      rename_i hl
      refine ⟨y, rfl, by simpa using hl, ?_⟩
      simp only [Env.advance, bind_error, guardE_error] at h
      rcases h with h | ⟨⟨vars, r⟩, g1, h | ⟨_, _, h | ⟨⟨pl, pp⟩, _, h | ⟨⟨s, o⟩, _, h | ⟨_, _, h | ⟨_, _, h⟩⟩⟩⟩⟩⟩
      · exact absurd h (h1 _ _)
      · exact ⟨vars, r, g1, h.1⟩
      · exact absurd trivial (noOwn_varDicts _ _ _ _ _ _ _ h)
      · exact absurd trivial (noOwn_transition hpf _ _ _ h)
      · exfalso
        unfold Env.rewardOf at h
        split at h
        · cases h
        · exact absurd trivial ((noOwn_bind (noOwn_pyDiv _ _) fun _ => noOwn_pure _) _ h)
      · rcases vectors_error h with h | h
        · exact absurd trivial h
        · cases h
      · simp [pure, Except.pure] at h
  · rintro ⟨ha, y, hy, hl, vars, r, hv, hs⟩
    simp [Env.step, guardE, ha, hy, hl, Env.advance, hv, hs, bind, Except.bind]

end

end Anm
