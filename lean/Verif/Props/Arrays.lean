import Verif.Model.Arrays
import Verif.Props.Failures

/-! # The arrays of an environment (C123, C124) -/

set_option linter.unusedSectionVars false

namespace Anm

open Spec Py

section
variable {K : Type} [Field K] [LinearOrder K] {ρ : Type}

namespace ArrWorld

/-- The values of an environment: arrays are replaced by their contents. -/
def view (w : ArrWorld K ρ) : Obj K ρ := { env := w.env, flags := w.flags, state := w.loc.map w.heap.read }

/-- `self.state` is an array that has been made. -/
def WF (w : ArrWorld K ρ) : Prop := ∀ a, w.loc = some a → a < w.heap.length

end ArrWorld

theorem heap_read_append {h : Heap K} {a : ℕ} (v : List (X K)) (ha : a < h.length) : Heap.read (h ++ [v]) a = Heap.read h a := by
  simp only [Heap.read, List.getD_eq_getElem?_getD]
  rw [List.getElem?_append_left ha]

theorem heap_read_new (h : Heap K) (v : List (X K)) : Heap.read (h ++ [v]) h.length = v := by
  simp [Heap.read, List.getD_eq_getElem?_getD]

theorem heap_read_set {h : Heap K} {a : ℕ} (v : List (X K)) (ha : a < h.length) : Heap.read (h.set a v) a = v := by
  simp [Heap.read, List.getD_eq_getElem?_getD, ha]

theorem heap_read_set_ne {h : Heap K} {a b : ℕ} (v : List (X K)) (hab : a ≠ b) : Heap.read (h.set a v) b = Heap.read h b := by
  simp [Heap.read, List.getD_eq_getElem?_getD, List.getElem?_set_ne hab]

/-! ### The values are those of `Model/Failures.lean` -/

/-- From `w`, the program `m` on arrays does what `n` does on values; `P` relates what they return. -/
def Ref {α β : Type} (w : ArrWorld K ρ) (m : Py (ArrWorld K ρ) α) (n : Py (Obj K ρ) β) (P : α → ArrWorld K ρ → β → Prop) : Prop :=
  (∃ a w' b, m w = (.ok a, w') ∧ n w.view = (.ok b, w'.view) ∧ w'.WF ∧ P a w' b) ∨
  (∃ x w', m w = (.error x, w') ∧ n w.view = (.error x, w'.view) ∧ w'.WF)

theorem py_bind_ok {σ α β : Type} {m : Py σ α} {k : α → Py σ β} {s s' : σ} {a : α} (h : m s = (.ok a, s')) :
    (m >>= k) s = k a s' := by
  show (match m s with | (.ok a, s') => k a s' | (.error x, s') => (.error x, s')) = _
  rw [h]

theorem py_bind_error {σ α β : Type} {m : Py σ α} {k : α → Py σ β} {s s' : σ} {x : PyErr} (h : m s = (.error x, s')) :
    (m >>= k) s = (.error x, s') := by
  show (match m s with | (.ok a, s') => k a s' | (.error x, s') => (.error x, s')) = _
  rw [h]

theorem ref_bind {α β α' β' : Type} {w : ArrWorld K ρ} {m : Py (ArrWorld K ρ) α} {n : Py (Obj K ρ) β}
    {k : α → Py (ArrWorld K ρ) α'} {l : β → Py (Obj K ρ) β'} {P : α → ArrWorld K ρ → β → Prop} {Q : α' → ArrWorld K ρ → β' → Prop}
    (h : Ref w m n P) (hk : ∀ a w' b, w'.WF → P a w' b → Ref w' (k a) (l b) Q) : Ref w (m >>= k) (n >>= l) Q := by
  rcases h with ⟨a, w', b, h1, h2, h3, h4⟩ | ⟨x, w', h1, h2, h3⟩
  · rcases hk a w' b h3 h4 with ⟨a', w'', b', g1, g2, g3, g4⟩ | ⟨x, w'', g1, g2, g3⟩
    · exact .inl ⟨a', w'', b', by rw [py_bind_ok h1, g1], by rw [py_bind_ok h2, g2], g3, g4⟩
    · exact .inr ⟨x, w'', by rw [py_bind_ok h1, g1], by rw [py_bind_ok h2, g2], g3⟩
  · exact .inr ⟨x, w', py_bind_error h1, py_bind_error h2, h3⟩

/-- A step that the values do not show. -/
theorem ref_left {α α' β' : Type} {w w1 : ArrWorld K ρ} {m : Py (ArrWorld K ρ) α} {n : Py (Obj K ρ) β'}
    {k : α → Py (ArrWorld K ρ) α'} {Q : α' → ArrWorld K ρ → β' → Prop} {a : α}
    (h : m w = (.ok a, w1)) (hv : w1.view = w.view) (hk : Ref w1 (k a) n Q) : Ref w (m >>= k) n Q := by
  rcases hk with ⟨a', w'', b', g1, g2, g3, g4⟩ | ⟨x, w'', g1, g2, g3⟩
  · exact .inl ⟨a', w'', b', by rw [py_bind_ok h, g1], by rw [← hv, g2], g3, g4⟩
  · exact .inr ⟨x, w'', by rw [py_bind_ok h, g1], by rw [← hv, g2], g3⟩

/-- A step of the values that changes nothing. -/
theorem ref_right {α' β β' : Type} {w : ArrWorld K ρ} {m : Py (ArrWorld K ρ) α'} {n : Py (Obj K ρ) β}
    {l : β → Py (Obj K ρ) β'} {Q : α' → ArrWorld K ρ → β' → Prop} {b : β}
    (h : n w.view = (.ok b, w.view)) (hk : Ref w m (l b) Q) : Ref w m (n >>= l) Q := by
  rcases hk with ⟨a', w'', b', g1, g2, g3, g4⟩ | ⟨x, w'', g1, g2, g3⟩
  · exact .inl ⟨a', w'', b', g1, by rw [py_bind_ok h, g2], g3, g4⟩
  · exact .inr ⟨x, w'', g1, by rw [py_bind_ok h, g2], g3⟩

/-- The same step on both sides. -/
theorem ref_step {α α' β β' : Type} {w w1 : ArrWorld K ρ} {m : Py (ArrWorld K ρ) α} {n : Py (Obj K ρ) β}
    {k : α → Py (ArrWorld K ρ) α'} {l : β → Py (Obj K ρ) β'} {Q : α' → ArrWorld K ρ → β' → Prop} {a : α} {b : β}
    (h : m w = (.ok a, w1)) (h' : n w.view = (.ok b, w1.view)) (hk : Ref w1 (k a) (l b) Q) : Ref w (m >>= k) (n >>= l) Q := by
  rcases hk with ⟨a', w'', b', g1, g2, g3, g4⟩ | ⟨x, w'', g1, g2, g3⟩
  · exact .inl ⟨a', w'', b', by rw [py_bind_ok h, g1], by rw [py_bind_ok h', g2], g3, g4⟩
  · exact .inr ⟨x, w'', by rw [py_bind_ok h, g1], by rw [py_bind_ok h', g2], g3⟩

theorem ref_lift {α : Type} {w : ArrWorld K ρ} (hw : w.WF) (x : Except PyErr α) :
    Ref w (lift x) (lift x) fun a w' b => a = b ∧ w' = w := by
  cases x with
  | ok a => exact .inl ⟨a, w, a, rfl, rfl, hw, rfl, rfl⟩
  | error e => exact .inr ⟨e, w, rfl, rfl, hw⟩

theorem ref_error {α β : Type} {w : ArrWorld K ρ} (hw : w.WF) (x : PyErr) {P : α → ArrWorld K ρ → β → Prop} :
    Ref w (lift (.error x)) (lift (.error x)) P := .inr ⟨x, w, rfl, rfl, hw⟩

theorem ref_pure {α β : Type} {w : ArrWorld K ρ} (hw : w.WF) {P : α → ArrWorld K ρ → β → Prop} {a : α} {b : β} (h : P a w b) :
    Ref w (pure a) (pure b) P := .inl ⟨a, w, b, rfl, rfl, hw, h⟩

theorem ref_onSim {α : Type} {w : ArrWorld K ρ} (hw : w.WF) (m : Py (Sim K) α) :
    Ref w (ArrWorld.onSim m) (Obj.onSim m) fun a w' b => a = b ∧ w'.heap = w.heap ∧ w'.loc = w.loc ∧
      ∃ s, w'.env = { w.env with sim := s } := by
  have e1 : ArrWorld.onSim m w = ((m w.env.sim).1, { w with env := { w.env with sim := (m w.env.sim).2 } }) := rfl
  have e2 : Obj.onSim m w.view = ((m w.env.sim).1, ArrWorld.view { w with env := { w.env with sim := (m w.env.sim).2 } }) := rfl
  rcases h : (m w.env.sim).1 with x | a
  · exact .inr ⟨x, { w with env := { w.env with sim := (m w.env.sim).2 } }, by rw [e1, h], by rw [e2, h], hw⟩
  · exact .inl ⟨a, { w with env := { w.env with sim := (m w.env.sim).2 } }, a, by rw [e1, h], by rw [e2, h], hw, rfl, rfl, rfl, _, rfl⟩

/-- The array `a` holds `v`. -/
def Holds (a : ℕ) (w : ArrWorld K ρ) (v : List (X K)) : Prop := a < w.heap.length ∧ w.heap.read a = v

theorem alloc_view {w : ArrWorld K ρ} (hw : w.WF) (v : List (X K)) : (ArrWorld.view { w with heap := w.heap ++ [v] }) = w.view := by
  unfold ArrWorld.view
  rcases h : w.loc with _ | a
  · simp
  · simp [heap_read_append v (hw a h)]

theorem alloc_WF {w : ArrWorld K ρ} (hw : w.WF) (v : List (X K)) : ArrWorld.WF { w with heap := w.heap ++ [v] } := by
  intro a ha
  simpa using Nat.lt_succ_of_lt (hw a ha)

theorem alloc_holds (w : ArrWorld K ρ) (v : List (X K)) : Holds w.heap.length { w with heap := w.heap ++ [v] } v :=
  ⟨by simp, heap_read_new _ _⟩

/-- The array of a result of a function of the user. -/
theorem place_spec (x : Ret K) (w : ArrWorld K ρ) (hw : w.WF) : ∃ a w', ArrWorld.place x w = (.ok a, w') ∧ w'.view = w.view ∧ w'.WF ∧
    Holds a w' (x.val w.heap) ∧ w'.env = w.env ∧ w'.loc = w.loc ∧ (∃ l, w'.heap = w.heap ++ l) := by
  rcases x with v | a
  · exact ⟨_, _, rfl, alloc_view hw v, alloc_WF hw v, alloc_holds w v, rfl, rfl, _, rfl⟩
  · by_cases h : a < w.heap.length
    · exact ⟨a, w, by simp [ArrWorld.place, h], rfl, hw, ⟨h, rfl⟩, rfl, rfl, [], by simp⟩
    · refine ⟨w.heap.length, { w with heap := w.heap ++ [[]] }, by simp only [ArrWorld.place, if_neg h]; rfl, alloc_view hw _, alloc_WF hw _, ?_, rfl, rfl, _, rfl⟩
      have e : Ret.val w.heap (.old a) = [] := by simp [Ret.val, Heap.read, List.getD_eq_getElem?_getD, not_lt.1 h]
      rw [e]
      exact alloc_holds w []

/-- The hooks compute the values of `c`, whatever other arrays there are. -/
structure Follows (c : EnvCtx K ρ) (fn : Option (List (X K) → List (X K) × Bool)) (k : Hooks K ρ) : Prop where
  init : ∀ h r, ((k.init h r).map fun x => (x.1.val h, x.2)) = c.initState r
  next : ∀ h a r, ((k.next h a r).map fun x => (x.1.val h, x.2)) = c.nextVars (Heap.read h a) r
  obs : match k.obs, fn with
    | none, none => True
    | some f, some g => ∀ h a, ((f h a).1.val h, (f h a).2) = g (Heap.read h a)
    | _, _ => False

theorem ref_hook (spoil : ρ → ρ) {f : Heap K → ρ → Except PyErr (Ret K × ρ)} {g : ρ → Except PyErr (List (X K) × ρ)} {w : ArrWorld K ρ}
    (hw : w.WF) (h : ((f w.heap w.env.rng).map fun x => (x.1.val w.heap, x.2)) = g w.env.rng) :
    Ref w (ArrWorld.hook spoil f) (Obj.hook spoil g) fun a w' b => Holds a w' b ∧ w'.loc = w.loc ∧
      w'.env.obsFn = w.env.obsFn := by
  rcases hf : f w.heap w.env.rng with x | ⟨x, r⟩
  · rw [hf] at h
    refine .inr ⟨x, { w with env := { w.env with rng := spoil w.env.rng } }, by simp only [ArrWorld.hook, hf], ?_, hw⟩
    have : g w.view.env.rng = .error x := h.symm
    simp only [Obj.hook, this]
    rfl
  · rw [hf] at h
    obtain ⟨a, w', e1, e2, e3, e4, e5, e6, _⟩ := place_spec x { w with env := { w.env with rng := r } } hw
    refine .inl ⟨a, w', _, by simp only [ArrWorld.hook, hf, e1], ?_, e3, e4, e6, by rw [e5]⟩
    have : g w.view.env.rng = .ok (x.val w.heap, r) := h.symm
    simp only [Obj.hook, this, e2]
    rfl

theorem setLoc_view {w : ArrWorld K ρ} {a : ℕ} {v : List (X K)} (h : Holds a w v) :
    ArrWorld.view { w with loc := some a } = { w.view with state := some v } := by
  simp [ArrWorld.view, h.2]

theorem setLoc_WF {w : ArrWorld K ρ} {a : ℕ} {v : List (X K)} (h : Holds a w v) : ArrWorld.WF { w with loc := some a } := by
  rintro b ⟨⟩
  exact h.1

theorem ref_search {c : EnvCtx K ρ} {fn : Option (List (X K) → List (X K) × Bool)} {k : Hooks K ρ} (hk : Follows c fn k)
    (spoil : ρ → ρ) (size n : ℕ) (w : ArrWorld K ρ) (hw : w.WF) :
    Ref w (ArrWorld.search c.sim k spoil size n) (Obj.searchPy c spoil size n) fun a w' b => Holds a w' b ∧ w'.loc = some a ∧
      w'.env.obsFn = w.env.obsFn := by
  induction n generalizing w with
  | zero => exact ref_error hw _
  | succ n ih =>
    unfold ArrWorld.search Obj.searchPy
    refine ref_bind (ref_hook spoil hw (hk.init _ _)) fun a w1 v hw1 ⟨h1, _, f1⟩ => ?_
    refine ref_step (w1 := { w1 with loc := some a }) rfl (b := ()) (by rw [setLoc_view h1]; rfl) ?_
    have hw2 := setLoc_WF h1
    refine ref_left (m := ArrWorld.read a) (a := v) (w1 := { w1 with loc := some a }) (by simp [ArrWorld.read, h1.2]) rfl ?_
    refine ref_bind (ref_lift hw2 _) fun _ w3 _ hw3 ⟨_, e3⟩ => ?_
    subst e3
    refine ref_bind (ref_onSim hw2 _) fun ok w4 ok' hw4 ⟨e, eh, el, s4, e4⟩ => ?_
    subst e
    have f4 : w4.env.obsFn = w1.env.obsFn := by rw [e4]
    by_cases hn : n = 0
    · simp only [hn, if_true]
      exact ref_error hw4 _
    · simp only [hn, if_false]
      cases ok
      · rcases ih w4 hw4 with ⟨a', w', b, g1, g2, g3, g4, g5, g6⟩ | g
        · exact .inl ⟨a', w', b, g1, g2, g3, g4, g5, g6.trans (f4.trans f1)⟩
        · exact .inr g
      · exact ref_pure hw4 ⟨⟨by rw [eh]; exact h1.1, by rw [eh]; exact h1.2⟩, el, f4.trans f1⟩

theorem ref_construct {w : ArrWorld K ρ} (hw : w.WF) {a : ℕ} {v : List (X K)} (h : Holds a w v) {α β : Type}
    {m : ℕ → Py (ArrWorld K ρ) α} {n : List (X K) → Py (Obj K ρ) β} {Q : α → ArrWorld K ρ → β → Prop}
    (hk : ∀ b w' st, w'.WF → Holds b w' st → w'.loc = some b → w'.env = w.env → Ref w' (m b) (n st) Q) :
    Ref w (ArrWorld.construct a >>= m) (lift (w.env.extract v w.env.stateValues) >>= fun st =>
      Py.modify (fun o => { o with state := some st }) >>= fun _ => n st) Q := by
  rcases he : w.env.extract v w.env.stateValues with x | st
  · refine .inr ⟨x, w, ?_, rfl, hw⟩
    refine py_bind_error ?_
    show (lift (w.env.extract (w.heap.read a) w.env.stateValues) >>= _) w = _
    rw [h.2, he]
    rfl
  · have hh := alloc_holds w st
    have hv : ArrWorld.view { w with heap := w.heap ++ [st], loc := some w.heap.length } = { w.view with state := some st } := by
      simp [ArrWorld.view, hh.2]
    have hc : ArrWorld.construct a w = (.ok w.heap.length, { w with heap := w.heap ++ [st], loc := some w.heap.length }) := by
      show (lift (w.env.extract (w.heap.read a) w.env.stateValues) >>= _) w = _
      rw [h.2, he]
      rfl
    have hw' : ArrWorld.WF { w with heap := w.heap ++ [st], loc := some w.heap.length } := by
      rintro b ⟨⟩
      exact hh.1
    have hn : ∀ o, (lift (Except.ok st) >>= fun st => Py.modify (fun o : Obj K ρ => { o with state := some st }) >>= fun _ => n st) o =
        n st { o with state := some st } := fun _ => rfl
    rcases hk w.heap.length _ st hw' hh rfl rfl with ⟨a', w'', b', g1, g2, g3, g4⟩ | ⟨x, w'', g1, g2, g3⟩
    · exact .inl ⟨a', w'', b', by rw [py_bind_ok hc, g1], by rw [hn, ← hv, g2], g3, g4⟩
    · exact .inr ⟨x, w'', by rw [py_bind_ok hc, g1], by rw [hn, ← hv, g2], g3⟩

theorem ref_observation {c : EnvCtx K ρ} {k : Hooks K ρ} {w : ArrWorld K ρ} (hk : Follows c w.env.obsFn k)
    (hw : w.WF) {a : ℕ} {v : List (X K)} (h : Holds a w v) :
    Ref w (ArrWorld.observation k a) (lift (w.env.observe v)) fun o w' x => Holds o.1 w' x.1 ∧ o.2 = x.2 ∧ w'.env = w.env ∧ w'.loc = w.loc := by
  unfold ArrWorld.observation
  refine ref_left (m := Py.get) (a := w) (w1 := w) rfl rfl ?_
  have ho := hk.obs
  rcases hf : k.obs with _ | f
  · rw [hf] at ho
    refine ref_left (m := ArrWorld.read a) (a := v) (w1 := w) (by simp [ArrWorld.read, h.2]) rfl ?_
    rcases he : w.env.observe v with x | x
    · exact .inr ⟨x, w, rfl, rfl, hw⟩
    · exact .inl ⟨(w.heap.length, x.2), { w with heap := w.heap ++ [x.1] }, x, rfl, by rw [alloc_view hw]; rfl, alloc_WF hw _,
        alloc_holds w x.1, rfl, rfl, rfl⟩
  · rw [hf] at ho
    rcases hg : w.env.obsFn with _ | g
    · rw [hg] at ho; exact ho.elim
    · rw [hg] at ho
      have hx := ho w.heap a
      obtain ⟨o, w', e1, e2, e3, e4, e5, e6, _⟩ := place_spec (f w.heap a).1 w hw
      have hobs : w.env.observe v = .ok (g v) := by simp [Env.observe, hg]
      refine .inl ⟨(o, (f w.heap a).2), w', g v, ?_, by rw [hobs, e2]; rfl, e3, ?_, ?_, e5, e6⟩
      · exact py_bind_ok e1
      · rw [← h.2, ← hx]; exact e4
      · rw [← h.2, ← hx]

/-- `reset` on arrays computes the values of `reset`. -/
theorem ref_reset {c : EnvCtx K ρ} {k : Hooks K ρ} {w : ArrWorld K ρ} (hk : Follows c w.env.obsFn k) (hw : w.WF)
    (spoil : ρ → ρ) (seed : Option ℤ) :
    Ref w (ArrWorld.reset c.sim k c.seeded spoil seed) (Obj.resetPy c spoil seed) fun a w' b => Holds a w' b ∧
      w'.env.obsFn = w.env.obsFn := by
  unfold ArrWorld.reset Obj.resetPy
  refine ref_step rfl rfl (b := ()) ?_
  refine ref_step rfl rfl (b := ()) ?_
  refine ref_step rfl rfl ?_
  refine ref_bind (ref_search hk spoil _ _ _ hw) fun a w1 v hw1 ⟨h1, _, f1⟩ => ?_
  refine ref_right (n := Py.get) (b := w1.view) rfl ?_
  refine ref_construct hw1 h1 fun b w2 st hw2 h2 el ee => ?_
  have f2 : w2.env.obsFn = w.env.obsFn := by rw [ee]; exact f1
  have ho := ref_observation (c := c) (k := k) (w := w2) (by rw [f2]; exact hk) hw2 h2
  rw [ee] at ho
  refine ref_bind ho fun o w3 x hw3 ⟨h3, e3, ee3, el3⟩ => ?_
  refine ref_left (m := ArrWorld.read o.1) (a := x.1) (w1 := w3) (by simp [ArrWorld.read, h3.2]) rfl ?_
  refine ref_left (m := Py.get) (a := w3) (w1 := w3) rfl rfl ?_
  have e4 : w3.env.obsSpace = w1.env.obsSpace := by rw [ee3]
  rw [e4]
  refine ref_step rfl rfl (b := ()) ?_
  rw [e3]
  refine ref_bind (ref_lift (by exact hw3) _) fun _ w5 _ hw5 ⟨_, e5⟩ => ?_
  subst e5
  exact ref_pure hw5 ⟨h3, by show w3.env.obsFn = _; rw [ee3]; exact f1⟩

theorem ref_setAux {a : ℕ} {aux : List (X K)} {kk : ℕ} (n : ℕ) {w : ArrWorld K ρ} (hw : w.WF) (hl : w.loc = some a) :
    Ref w (ArrWorld.setAux a aux kk n) (Obj.setAuxPy aux kk n) fun _ w' _ => w'.loc = some a ∧ w'.env = w.env := by
  induction n with
  | zero => exact ref_pure hw ⟨hl, rfl⟩
  | succ n ih =>
    unfold ArrWorld.setAux Obj.setAuxPy
    refine ref_bind ih fun _ w1 _ hw1 ⟨h1, h2⟩ => ?_
    refine ref_bind (ref_lift hw1 _) fun x w2 x' hw2 ⟨e, ew⟩ => ?_
    subst e; subst ew
    refine ref_left (m := ArrWorld.read a) (a := w2.heap.read a) (w1 := w2) rfl rfl ?_
    refine ref_right (n := Py.get) (b := w2.view) rfl ?_
    have hs : w2.view.state.getD [] = w2.heap.read a := by simp [ArrWorld.view, h1]
    rw [hs]
    refine ref_bind (ref_lift hw2 _) fun st w3 st' hw3 ⟨e, ew⟩ => ?_
    subst e; subst ew
    have ha := hw3 a h1
    refine .inl ⟨(), _, (), rfl, ?_, ?_, h1, h2⟩
    · show (Except.ok (), ({ w3.view with state := some st } : Obj K ρ)) = _
      simp [ArrWorld.view, h1, heap_read_set st ha]
    · intro b hb
      simpa using hw3 b hb

theorem ref_observeStep {c : EnvCtx K ρ} {k : Hooks K ρ} {w : ArrWorld K ρ} (hk : Follows c w.env.obsFn k) (hw : w.WF) {a : ℕ}
    (hl : w.loc = some a) (aux : List (X K)) :
    Ref w (ArrWorld.observeStep k a aux) (Obj.observePy aux) fun a w' b => Holds a w' b ∧ w'.env.obsFn = w.env.obsFn := by
  unfold ArrWorld.observeStep Obj.observePy
  refine ref_step rfl rfl ?_
  refine ref_bind (ref_setAux _ hw hl) fun _ w1 _ hw1 ⟨h1, h2⟩ => ?_
  refine ref_right (n := Py.get) (b := w1.view) rfl ?_
  have hs : w1.view.state.getD [] = w1.heap.read a := by simp [ArrWorld.view, h1]
  rw [hs]
  refine ref_construct hw1 ⟨hw1 a h1, rfl⟩ fun b w2 st hw2 h3 el ee => ?_
  have f2 : w2.env.obsFn = w.env.obsFn := by rw [ee, h2]
  have ho := ref_observation (c := c) (k := k) (w := w2) (by rw [f2]; exact hk) hw2 h3
  rw [ee] at ho
  refine ref_bind ho fun o w3 x hw3 ⟨h4, e3, ee3, el3⟩ => ?_
  refine ref_left (m := ArrWorld.read o.1) (a := x.1) (w1 := w3) (by simp [ArrWorld.read, h4.2]) rfl ?_
  refine ref_left (m := Py.get) (a := w3) (w1 := w3) rfl rfl ?_
  have e4 : w3.env.obsSpace = w1.view.env.obsSpace := by rw [ee3]; rfl
  rw [e4]
  rcases w1.view.env.obsSpace with _ | bx
  · exact ref_error hw3 _
  · rw [e3]
    refine ref_bind (ref_lift hw3 _) fun _ w5 _ hw5 ⟨_, e5⟩ => ?_
    subst e5
    exact ref_pure hw5 ⟨h4, by rw [ee3, h2]⟩

/-- What a step returns on arrays and on values. -/
def SameOut (a : ArrWorld.Out K) (w : ArrWorld K ρ) (b : Env.StepOut K) : Prop :=
  Holds a.obs w b.obs ∧ a.reward = b.reward ∧ a.terminated = b.terminated

theorem holds_keep {a : ℕ} {w : ArrWorld K ρ} {v : List (X K)} (h : Holds a w v) (f : Option (Flags K)) : Holds a { w with flags := f } v := h

theorem ref_advance {c : EnvCtx K ρ} {k : Hooks K ρ} {w : ArrWorld K ρ} (hk : Follows c w.env.obsFn k) (hw : w.WF)
    (spoil : ρ → ρ) {a : ℕ} (hl : w.loc = some a) (action : List (X K)) :
    Ref w (ArrWorld.advance c.sim k spoil a action) (Obj.advancePy c spoil (w.heap.read a) action) fun o w' b =>
      SameOut o w' b ∧ w'.env.obsFn = w.env.obsFn := by
  unfold ArrWorld.advance Obj.advancePy
  refine ref_bind (ref_hook spoil hw (hk.next _ _ _)) fun n w1 vars hw1 ⟨h1, l1, f1⟩ => ?_
  refine ref_left (m := ArrWorld.read n) (a := vars) (w1 := w1) (by simp [ArrWorld.read, h1.2]) rfl ?_
  refine ref_step rfl rfl ?_
  refine ref_bind (ref_lift hw1 _) fun _ w2 _ hw2 ⟨_, e2⟩ => ?_
  subst e2
  refine ref_bind (ref_lift hw2 _) fun d w3 d' hw3 ⟨e, e3⟩ => ?_
  subst e; subst e3
  refine ref_bind (ref_onSim hw3 _) fun t w4 t' hw4 ⟨e, eh, el, s4, e4⟩ => ?_
  subst e
  have f4 : w4.env.obsFn = w3.env.obsFn := by rw [e4]
  refine ref_step rfl rfl (b := ()) ?_
  refine ref_bind (ref_lift (by exact hw4) _) fun r w5 r' hw5 ⟨e, e5⟩ => ?_
  subst e; subst e5
  refine ref_step rfl rfl (b := ()) ?_
  have fx : w4.env.obsFn = w.env.obsFn := f4.trans f1
  have lx : w4.loc = some a := by rw [el, l1, hl]
  have nx : w4.heap.read n = vars := by rw [eh]; exact h1.2
  have ht : t.converged = true ∨ t.converged = false := by cases t.converged <;> simp
  rcases ht with ht | ht
  · simp only [ht, if_true]
    refine ref_left (m := ArrWorld.read n) (a := vars) (by rw [← nx]; rfl) rfl ?_
    refine ref_bind (ref_observeStep (c := c) (by rw [fx]; exact hk) (by exact hw4) (by exact lx) _) fun o w6 b hw6 ⟨h6, f6⟩ => ?_
    refine ref_step rfl rfl (b := ()) ?_
    refine ref_pure (by exact hw6) ?_
    exact ⟨⟨h6, rfl, rfl⟩, f6.trans fx⟩
  · simp only [ht, Bool.false_eq_true, if_false]
    have z : ∀ (h : Heap K) (e : Env K ρ) (f : Option (Flags K)) (l : Option ℕ) (v u : List (X K)),
        ArrWorld.view { heap := h ++ [v] ++ [u], env := e, flags := f, loc := some h.length } = { env := e, flags := f, state := some v } ∧
        ArrWorld.WF { heap := h ++ [v] ++ [u], env := e, flags := f, loc := some h.length } := by
      intro h e f l v u
      refine ⟨?_, ?_⟩
      · have : Heap.read (h ++ [v] ++ [u]) h.length = v := by
          rw [heap_read_append u (by simp), heap_read_new]
        show (⟨e, f, some (Heap.read (h ++ [v] ++ [u]) h.length)⟩ : Obj K ρ) = _
        rw [this]
      · rintro b ⟨⟩
        simp
    have eN : w3.env.obsN = w4.env.obsN := by rw [e4]; rfl
    have z' := z w4.heap w4.env
      (((w4.flags.map fun f => { f with terminated := !false }).map fun f => { f with eLoss := r.2.1, penalty := r.2.2 }).map
        fun f => { f with timestep := f.timestep + 1 }) none (Env.zeros w4.env.stateN) (Env.zeros w4.env.obsN)
    refine .inl ⟨_, _, { obs := Env.zeros w3.env.obsN, reward := r.1, terminated := !false }, rfl, ?_, z'.2, ⟨⟨by simp, ?_⟩, rfl, rfl⟩, fx⟩
    · have := z'.1
      show (Except.ok _, _) = _
      exact congrArg₂ Prod.mk rfl this.symm
    · rw [eN]
      have := heap_read_new (w4.heap ++ [Env.zeros w4.env.stateN]) (Env.zeros w4.env.obsN)
      simpa using this

/-- `step` on arrays computes the values of `step`. -/
theorem ref_stepArr {c : EnvCtx K ρ} {k : Hooks K ρ} {w : ArrWorld K ρ} (hk : Follows c w.env.obsFn k) (hw : w.WF)
    (spoil : ρ → ρ) (act : ℕ) :
    Ref w (ArrWorld.step c.sim k spoil act) (Obj.stepPy c spoil (w.heap.read act)) fun o w' b =>
      SameOut o w' b ∧ w'.env.obsFn = w.env.obsFn := by
  unfold ArrWorld.step Obj.stepPy
  refine ref_left (m := ArrWorld.read act) (a := w.heap.read act) (w1 := w) rfl rfl ?_
  refine ref_step rfl rfl ?_
  refine ref_bind (ref_lift hw _) fun _ w2 _ hw2 ⟨_, e2⟩ => ?_
  subst e2
  have ef : w2.view.flags = w2.flags := rfl
  rw [ef]
  rcases w2.flags with _ | f
  · exact ref_error hw2 _
  · by_cases ht : f.terminated = true
    · simp only [ht, if_true]
      exact .inl ⟨_, _, _, rfl, by rw [alloc_view hw2]; rfl, alloc_WF hw2 _, ⟨alloc_holds _ _, rfl, rfl⟩, rfl⟩
    · simp only [ht, if_false]
      rcases hl : w2.loc with _ | a
      · have es : w2.view.state = none := by simp [ArrWorld.view, hl]
        rw [es]
        exact ref_error hw2 _
      · have es : w2.view.state = some (w2.heap.read a) := by simp [ArrWorld.view, hl]
        rw [es]
        exact ref_advance hk hw2 spoil hl _

/-! ### Which arrays change -/

/-- Triples of Hoare with an invariant that holds also if `m` raises. -/
def Tri {σ α : Type} (I P : σ → Prop) (m : Py σ α) (Q : α → σ → Prop) : Prop :=
  ∀ s, I s → P s → I (m s).2 ∧ ∀ a, (m s).1 = .ok a → Q a (m s).2

theorem tri_bind {σ α β : Type} {I P : σ → Prop} {m : Py σ α} {k : α → Py σ β} {Q : α → σ → Prop} {R : β → σ → Prop}
    (h : Tri I P m Q) (hk : ∀ a, Tri I (Q a) (k a) R) : Tri I P (m >>= k) R := by
  intro s hI hP
  obtain ⟨h1, h2⟩ := h s hI hP
  rcases hm : m s with ⟨x | a, s'⟩
  · rw [py_bind_error hm]
    rw [hm] at h1
    exact ⟨h1, by simp⟩
  · rw [py_bind_ok hm]
    rw [hm] at h1 h2
    exact hk a s' h1 (h2 a rfl)

/-- A step that changes nothing. -/
theorem tri_still {σ α : Type} {I P : σ → Prop} {m : Py σ α} (h : ∀ s, (m s).2 = s) : Tri I P m fun _ s => P s := by
  intro s hI hP
  rw [h s]
  exact ⟨hI, fun _ _ => hP⟩

theorem tri_post {σ α : Type} {I P P' : σ → Prop} {m : Py σ α} {Q Q' : α → σ → Prop} (h : Tri I P m Q) (hp : ∀ s, P' s → P s)
    (hq : ∀ a s, Q a s → Q' a s) : Tri I P' m Q' := fun s hI hP =>
  ⟨(h s hI (hp s hP)).1, fun a ha => hq a _ ((h s hI (hp s hP)).2 a ha)⟩

/-- Compared with `w0`: no array is changed except for `L`; if `N`, then `self.state` is the same array, or one
made since. -/
def Since (w0 : ArrWorld K ρ) (L : Option ℕ) (N : Prop) (w : ArrWorld K ρ) : Prop :=
  w0.heap.length ≤ w.heap.length ∧ (∀ a < w0.heap.length, L ≠ some a → w.heap.read a = w0.heap.read a) ∧
  (N → w.loc = w0.loc ∨ ∃ b, w.loc = some b ∧ w0.heap.length ≤ b ∧ b < w.heap.length) ∧ w.env.obsFn = w0.env.obsFn

/-- The array `a` was made since `w0`. -/
def Made (w0 : ArrWorld K ρ) (a : ℕ) (w : ArrWorld K ρ) : Prop := w0.heap.length ≤ a ∧ a < w.heap.length

variable {w0 : ArrWorld K ρ} {L : Option ℕ} {N : Prop}

theorem since_self : Since w0 L N w0 := ⟨le_rfl, fun _ _ _ => rfl, fun _ => .inl rfl, rfl⟩

theorem since_same {w w' : ArrWorld K ρ} (h : Since w0 L N w) (hh : w'.heap = w.heap) (hl : w'.loc = w.loc)
    (ho : w'.env.obsFn = w.env.obsFn) : Since w0 L N w' := by
  unfold Since
  rw [hh, hl, ho]
  exact h

theorem since_alloc {w : ArrWorld K ρ} (h : Since w0 L N w) (v : List (X K)) : Since w0 L N { w with heap := w.heap ++ [v] } := by
  obtain ⟨h1, h2, h3, h4⟩ := h
  refine ⟨by simp; omega, fun a ha hL => ?_, fun hN => ?_, h4⟩
  · show Heap.read (w.heap ++ [v]) a = _
    rw [heap_read_append v (by omega), h2 a ha hL]
  · rcases h3 hN with h | ⟨b, h, h', h''⟩
    · exact .inl h
    · exact .inr ⟨b, h, h', by simp; omega⟩

theorem tri_read {P : ArrWorld K ρ → Prop} (a : ℕ) : Tri (Since w0 L N) P (ArrWorld.read a) fun _ => P := tri_still fun _ => rfl
theorem tri_get {P : ArrWorld K ρ → Prop} : Tri (Since w0 L N) P Py.get fun _ => P := tri_still fun _ => rfl
theorem tri_lift {α : Type} {P : ArrWorld K ρ → Prop} (x : Except PyErr α) : Tri (Since w0 L N) P (lift x) fun _ => P := tri_still fun _ => rfl
theorem tri_pure {α : Type} {P : ArrWorld K ρ → Prop} (x : α) {Q : α → ArrWorld K ρ → Prop} (h : ∀ w, P w → Q x w) :
    Tri (Since w0 L N) P (pure x) Q := fun w hI hP => ⟨hI, fun a ha => by cases ha; exact h w hP⟩
theorem tri_error {α : Type} {P : ArrWorld K ρ → Prop} (x : PyErr) {Q : α → ArrWorld K ρ → Prop} :
    Tri (Since w0 L N) P (lift (.error x)) Q := fun _ hI _ => ⟨hI, fun a ha => by cases ha⟩

theorem tri_alloc (v : List (X K)) {P : ArrWorld K ρ → Prop} {Q : ℕ → ArrWorld K ρ → Prop}
    (h : ∀ w, P w → w0.heap.length ≤ w.heap.length → Q w.heap.length { w with heap := w.heap ++ [v] }) :
    Tri (Since w0 L N) P (ArrWorld.alloc v) Q := by
  intro w hI hP
  refine ⟨since_alloc hI v, fun a ha => ?_⟩
  cases ha
  exact h w hP hI.1

theorem tri_onSim {α : Type} (m : Py (Sim K) α) : Tri (Since w0 L N) (fun _ => True) (ArrWorld.onSim m) fun _ _ => True :=
  fun _ hI _ => ⟨since_same hI rfl rfl rfl, fun _ _ => trivial⟩

theorem tri_flags (f : Flags K → Flags K) {P : ArrWorld K ρ → Prop} (h : ∀ w g, P w → P { w with flags := g }) :
    Tri (Since w0 L N) P (ArrWorld.setFlags f) fun _ => P :=
  fun w hI hP => ⟨since_same hI rfl rfl rfl, fun _ _ => h w _ hP⟩

theorem since_place {w : ArrWorld K ρ} (h : Since w0 L N w) (x : Ret K) : Since w0 L N (ArrWorld.place x w).2 := by
  rcases x with v | a
  · exact since_alloc h v
  · show Since w0 L N (if a < w.heap.length then ((Except.ok a, w) : Except PyErr ℕ × ArrWorld K ρ) else ArrWorld.alloc [] w).2
    split_ifs
    · exact h
    · exact since_alloc h []

theorem tri_hook (spoil : ρ → ρ) (f : Heap K → ρ → Except PyErr (Ret K × ρ)) :
    Tri (Since w0 L N) (fun _ => True) (ArrWorld.hook spoil f) fun a w =>
      (∀ h r x r', f h r = .ok (x, r') → ∃ v, x = .new v) → Made w0 a w := by
  intro w hI _
  unfold ArrWorld.hook
  rcases hf : f w.heap w.env.rng with x | ⟨x, r⟩
  · exact ⟨since_same hI rfl rfl rfl, by simp⟩
  · have h1 : Since w0 L N { w with env := { w.env with rng := r } } := since_same hI rfl rfl rfl
    refine ⟨since_place h1 x, fun a ha hn => ?_⟩
    obtain ⟨v, rfl⟩ := hn _ _ _ _ hf
    cases ha
    exact ⟨hI.1, by simp [ArrWorld.place, ArrWorld.alloc]⟩

theorem tri_setLoc (a : ℕ) : Tri (Since w0 L N) (fun w => N → Made w0 a w) (ArrWorld.setLoc a) fun _ w => w.loc = some a ∧ (N → Made w0 a w) :=
  fun _ ⟨h1, h2, _, h4⟩ hP => ⟨⟨h1, h2, fun hN => .inr ⟨a, rfl, hP hN⟩, h4⟩, fun _ _ => ⟨rfl, hP⟩⟩

/-- `init_state` makes a new array. -/
def Hooks.NewInit (k : Hooks K ρ) : Prop := ∀ h r x r', k.init h r = .ok (x, r') → ∃ v, x = .new v

/-- The observation function makes a new array. -/
def Hooks.NewObs (k : Hooks K ρ) : Prop := ∀ f, k.obs = some f → ∀ h a, ∃ v, (f h a).1 = .new v

theorem tri_search (c : Ctx K) (k : Hooks K ρ) (spoil : ρ → ρ) (size n : ℕ) :
    Tri (Since w0 L k.NewInit) (fun _ => True) (ArrWorld.search c k spoil size n) fun _ _ => True := by
  induction n with
  | zero => exact tri_error _
  | succ n ih =>
    unfold ArrWorld.search
    refine tri_bind (tri_hook spoil k.init) fun a => ?_
    refine tri_bind (tri_setLoc a) fun _ => ?_
    refine tri_bind (tri_read a) fun v => ?_
    refine tri_bind (tri_lift _) fun _ => ?_
    refine tri_bind (tri_post (tri_onSim _) (fun _ _ => trivial) fun _ _ h => h) fun ok => ?_
    by_cases hn : n = 0
    · simp only [hn, if_true]
      exact tri_error _
    · simp only [hn, if_false]
      cases ok
      · exact ih
      · exact tri_pure _ fun _ _ => trivial

theorem tri_construct (a : ℕ) : Tri (Since w0 L N) (fun _ => True) (ArrWorld.construct a) fun b w => w.loc = some b ∧ Made w0 b w := by
  unfold ArrWorld.construct
  refine tri_bind (tri_read a) fun v => ?_
  refine tri_bind tri_get fun w => ?_
  refine tri_bind (tri_lift _) fun st => ?_
  refine tri_bind (tri_alloc st (Q := Made w0) fun w _ h => ⟨h, by simp⟩) fun b => ?_
  refine tri_bind (Q := fun _ w => w.loc = some b ∧ Made w0 b w) ?_ fun _ => tri_pure _ fun _ h => h
  intro w ⟨h1, h2, _, h4⟩ hP
  exact ⟨⟨h1, h2, fun _ => .inr ⟨b, rfl, hP⟩, h4⟩, fun _ _ => ⟨rfl, hP⟩⟩

theorem tri_observation (k : Hooks K ρ) (a : ℕ) : Tri (Since w0 L N) (fun w => w.loc = some a ∧ Made w0 a w) (ArrWorld.observation k a)
    fun o w => k.NewObs → Made w0 o.1 w ∧ w.loc ≠ some o.1 := by
  unfold ArrWorld.observation
  refine tri_bind tri_get fun w1 => ?_
  rcases hf : k.obs with _ | f
  · refine tri_bind (tri_read a) fun v => ?_
    refine tri_bind (tri_lift _) fun x => ?_
    refine tri_bind (tri_alloc x.1 (Q := fun o w => Made w0 o w ∧ w.loc ≠ some o) ?_) fun o => tri_pure _ fun w h _ => h
    rintro w ⟨hl, h1, h2⟩ h
    refine ⟨⟨h, by simp⟩, ?_⟩
    show w.loc ≠ _
    rw [hl]
    intro e
    cases e
    omega
  · refine tri_bind (Q := fun o w => k.NewObs → Made w0 o w ∧ w.loc ≠ some o) ?_ fun o => tri_pure _ fun w h => h
    rintro w hI ⟨hl, h1, h2⟩
    refine ⟨since_place hI _, fun o ho hn => ?_⟩
    obtain ⟨v, hv⟩ := hn f hf w1.heap a
    rw [hv] at ho ⊢
    cases ho
    refine ⟨⟨hI.1, by simp [ArrWorld.place, ArrWorld.alloc]⟩, ?_⟩
    show w.loc ≠ _
    rw [hl]
    intro e
    cases e
    omega

theorem tri_reset (c : Ctx K) (k : Hooks K ρ) (seeded : ℤ → ρ) (spoil : ρ → ρ) (seed : Option ℤ) :
    Tri (Since w0 L k.NewInit) (fun _ => True) (ArrWorld.reset c k seeded spoil seed) fun o w =>
      k.NewObs → Made w0 o w ∧ w.loc ≠ some o := by
  unfold ArrWorld.reset
  refine tri_bind (Q := fun _ _ => True) (fun w hI _ => ⟨since_same hI rfl rfl rfl, fun _ _ => trivial⟩) fun _ => ?_
  refine tri_bind (Q := fun _ _ => True) (fun w hI _ => ⟨since_same hI rfl rfl rfl, fun _ _ => trivial⟩) fun _ => ?_
  refine tri_bind tri_get fun w1 => ?_
  refine tri_bind (tri_search c k spoil _ _) fun a => ?_
  refine tri_bind (tri_construct a) fun b => ?_
  refine tri_bind (tri_observation k b) fun o => ?_
  refine tri_bind (tri_read o.1) fun x => ?_
  refine tri_bind tri_get fun w2 => ?_
  refine tri_bind (Q := fun _ w => k.NewObs → Made w0 o.1 w ∧ w.loc ≠ some o.1) (fun w hI hP => ⟨since_same hI rfl rfl rfl, fun _ _ => hP⟩) fun _ => ?_
  refine tri_bind (tri_lift _) fun _ => ?_
  exact tri_pure _ fun _ h => h

theorem tri_setAux (a : ℕ) (aux : List (X K)) (kk n : ℕ) : Tri (Since w0 (some a) N) (fun _ => True) (ArrWorld.setAux a aux kk n) fun _ _ => True := by
  induction n with
  | zero => exact tri_pure _ fun _ h => h
  | succ n ih =>
    unfold ArrWorld.setAux
    refine tri_bind ih fun _ => ?_
    refine tri_bind (tri_lift _) fun x => ?_
    refine tri_bind (tri_read a) fun v => ?_
    refine tri_bind (tri_lift _) fun st => ?_
    rintro w ⟨h1, h2, h3, h4⟩ _
    refine ⟨⟨?_, fun b hb hL => ?_, fun hN => ?_, h4⟩, fun _ _ => trivial⟩
    · show _ ≤ (w.heap.set a st).length
      simpa using h1
    · show Heap.read (w.heap.set a st) b = _
      rw [heap_read_set_ne st (fun e => hL (by rw [e])), h2 b hb hL]
    · rcases h3 hN with h | ⟨b, h, h', h''⟩
      · exact .inl h
      · refine .inr ⟨b, h, h', ?_⟩
        show b < (w.heap.set a st).length
        simpa using h''

theorem tri_observeStep (k : Hooks K ρ) (a : ℕ) (aux : List (X K)) :
    Tri (Since w0 (some a) N) (fun _ => True) (ArrWorld.observeStep k a aux) fun o w => k.NewObs → Made w0 o w ∧ w.loc ≠ some o := by
  unfold ArrWorld.observeStep
  refine tri_bind tri_get fun w1 => ?_
  refine tri_bind (tri_setAux a aux _ _) fun _ => ?_
  refine tri_bind (tri_construct a) fun b => ?_
  refine tri_bind (tri_observation k b) fun o => ?_
  refine tri_bind (tri_read o.1) fun x => ?_
  refine tri_bind tri_get fun w2 => ?_
  rcases w2.env.obsSpace with _ | bx
  · exact tri_error _
  · refine tri_bind (tri_lift _) fun _ => ?_
    exact tri_pure _ fun _ h => h

theorem tri_advance (c : Ctx K) (k : Hooks K ρ) (spoil : ρ → ρ) (a : ℕ) (action : List (X K)) :
    Tri (Since w0 (some a) N) (fun _ => True) (ArrWorld.advance c k spoil a action) fun o w =>
      k.NewObs → Made w0 o.obs w ∧ w.loc ≠ some o.obs := by
  unfold ArrWorld.advance
  refine tri_bind (tri_post (tri_hook spoil _) (fun _ h => h) (Q' := fun _ _ => True) fun _ _ _ => trivial) fun n => ?_
  refine tri_bind (tri_read n) fun vars => ?_
  refine tri_bind tri_get fun w1 => ?_
  refine tri_bind (tri_lift _) fun _ => ?_
  refine tri_bind (tri_lift _) fun d => ?_
  refine tri_bind (tri_onSim _) fun t => ?_
  refine tri_bind (tri_flags _ fun _ _ h => h) fun _ => ?_
  refine tri_bind (tri_lift _) fun r => ?_
  refine tri_bind (tri_flags _ fun _ _ h => h) fun _ => ?_
  have ht : t.converged = true ∨ t.converged = false := by cases t.converged <;> simp
  rcases ht with ht | ht
  · simp only [ht, if_true]
    refine tri_bind (tri_read n) fun vars => ?_
    refine tri_bind (tri_observeStep k a _) fun o => ?_
    refine tri_bind (tri_flags _ fun _ _ h => h) fun _ => ?_
    exact tri_pure _ fun _ h => h
  · simp only [ht, Bool.false_eq_true, if_false]
    refine tri_bind tri_get fun w2 => ?_
    refine tri_bind (tri_alloc _ (Q := Made w0) fun w _ h => ⟨h, by simp⟩) fun z => ?_
    refine tri_bind (Q := fun _ w => w.loc = some z ∧ Made w0 z w) ?_ fun _ => ?_
    · intro w ⟨h1, h2, _, h4⟩ hP
      exact ⟨⟨h1, h2, fun _ => .inr ⟨z, rfl, hP⟩, h4⟩, fun _ _ => ⟨rfl, hP⟩⟩
    · refine tri_bind (tri_alloc _ (Q := fun o w => Made w0 o w ∧ w.loc ≠ some o) ?_) fun o => ?_
      · rintro w ⟨hl, h1, h2⟩ h
        refine ⟨⟨h, by simp⟩, ?_⟩
        show w.loc ≠ _
        rw [hl]
        intro e
        cases e
        omega
      · refine tri_bind (tri_flags _ fun _ _ h => h) fun _ => ?_
        exact tri_pure _ fun _ h _ => h

theorem since_step (c : Ctx K) (k : Hooks K ρ) (spoil : ρ → ρ) (act : ℕ) (w : ArrWorld K ρ) (hw : w.WF) :
    Since w w.loc True (ArrWorld.step c k spoil act w).2 ∧ ∀ o, (ArrWorld.step c k spoil act w).1 = .ok o →
      k.NewObs → Made w o.obs (ArrWorld.step c k spoil act w).2 ∧ (ArrWorld.step c k spoil act w).2.loc ≠ some o.obs := by
  have e : ArrWorld.step c k spoil act w = (lift (guardE (w.env.actionSpace.contains (w.heap.read act) true) .assertionError) >>= fun _ =>
    match w.flags with
    | none => lift (.error .attributeError)
    | some f =>
      if f.terminated then ArrWorld.alloc (Env.zeros w.env.obsN) >>= fun z => pure { obs := z, reward := 0, terminated := true }
      else
        match w.loc with
        | none => lift (.error .attributeError)
        | some a => ArrWorld.advance c k spoil a (w.heap.read act)) w := rfl
  rw [e]
  refine tri_bind (I := Since w w.loc True) (P := fun w' => w' = w) (Q := fun _ w' => w' = w) (R := fun (o : ArrWorld.Out K) w' => k.NewObs → Made w o.obs w' ∧ w'.loc ≠ some o.obs)
    (tri_lift _) (fun _ => ?_) w since_self rfl
  rcases w.flags with _ | f
  · exact tri_error _
  · by_cases ht : f.terminated = true
    · simp only [ht, if_true]
      refine tri_bind (tri_alloc _ (Q := fun o w' => Made w o w' ∧ w'.loc ≠ some o) ?_) fun o => tri_pure _ fun _ h _ => h
      rintro w' rfl h
      refine ⟨⟨h, by simp⟩, fun e => ?_⟩
      exact absurd (hw _ e) (lt_irrefl _)
    · simp only [ht, if_false]
      rcases hl : w.loc with _ | a
      · exact tri_error _
      · exact tri_post (tri_advance c k spoil a _) (fun _ _ => trivial) fun _ _ h => h

end

namespace Spec
section
variable {K : Type} [Field K] [LinearOrder K] {ρ : Type}

/-- What can happen to an environment: the agent calls `reset`, makes an array and passes it to `step`, or writes into
an array. -/
inductive AgentEvent (K : Type) where
  | reset (seed : Option ℤ)
  | step (action : List (X K))
  | write (a : ℕ) (v : List (X K))

/-- What the agent gets: the array of the observation, the reward and the flag (0 and `False` for `reset`); nothing
for a write. -/
def happen (c : Ctx K) (k : Hooks K ρ) (seeded : ℤ → ρ) (spoil : ρ → ρ) :
    AgentEvent K → ArrWorld K ρ → Option (Except PyErr (ℕ × X K × Bool)) × ArrWorld K ρ
  | .reset seed, w =>
    (some ((ArrWorld.reset c k seeded spoil seed w).1.map fun o => (o, 0, false)), (ArrWorld.reset c k seeded spoil seed w).2)
  | .step v, w =>
    let r := ArrWorld.step c k spoil w.heap.length { w with heap := w.heap ++ [v] }
    (some (r.1.map fun o => (o.obs, o.reward, o.terminated)), r.2)
  | .write a v, w => (none, { w with heap := w.heap.set a v })

/-- The answers to all calls of a sequence of events, with the contents of the observations when they are returned. -/
def playArr (c : Ctx K) (k : Hooks K ρ) (seeded : ℤ → ρ) (spoil : ρ → ρ) :
    List (AgentEvent K) → ArrWorld K ρ → List (Except PyErr (List (X K) × X K × Bool)) × ArrWorld K ρ
  | [], w => ([], w)
  | e :: es, w =>
    let h := happen c k seeded spoil e w
    let r := playArr c k seeded spoil es h.2
    (match h.1 with
      | none => r.1
      | some x => (x.map fun y => (h.2.heap.read y.1, y.2)) :: r.1, r.2)

/-- The event is not a write into the array `o`. -/
def AgentEvent.spares (o : ℕ) : AgentEvent K → Prop
  | .write a _ => a ≠ o
  | _ => True

/-- The event is a call. -/
def AgentEvent.isCall : AgentEvent K → Bool
  | .write _ _ => false
  | _ => true

/-- The arrays that the agent knows after an event: the actions it has made and the observations it has got. -/
def known (e : AgentEvent K) (r : Option (Except PyErr (ℕ × X K × Bool))) (w : ArrWorld K ρ) (A : List ℕ) : List ℕ :=
  (match e with
    | .step _ => [w.heap.length]
    | _ => []) ++
  (match r with
    | some (.ok x) => [x.1]
    | _ => []) ++ A

/-- The agent writes only into arrays it knows; `A` are those it knows at the beginning. -/
def OwnWrites (c : Ctx K) (k : Hooks K ρ) (seeded : ℤ → ρ) (spoil : ρ → ρ) : List ℕ → List (AgentEvent K) → ArrWorld K ρ → Prop
  | _, [], _ => True
  | A, e :: es, w =>
    (∀ a v, e = .write a v → a ∈ A) ∧
    OwnWrites c k seeded spoil (known e (happen c k seeded spoil e w).1 w A) es (happen c k seeded spoil e w).2

/-- An environment that has just been made. -/
def start (e : Env K ρ) : ArrWorld K ρ := { heap := [], env := { e with dyn := none }, flags := none, loc := none }

end
end Spec

section
variable {K : Type} [Field K] [LinearOrder K] {ρ : Type}

/-- **C123**: `reset` writes into no array. -/
theorem C123_reset (c : Ctx K) (k : Hooks K ρ) (seeded : ℤ → ρ) (spoil : ρ → ρ) (seed : Option ℤ) (w : ArrWorld K ρ) (a : ℕ)
    (ha : a < w.heap.length) : (ArrWorld.reset c k seeded spoil seed w).2.heap.read a = w.heap.read a :=
  (tri_reset (w0 := w) (L := none) c k seeded spoil seed w since_self trivial).1.2.1 a ha (by simp)

/-- **C123**: `step` writes into no array other than `self.state`. -/
theorem C123_step (c : Ctx K) (k : Hooks K ρ) (spoil : ρ → ρ) (act : ℕ) (w : ArrWorld K ρ) (hw : w.WF) (a : ℕ)
    (ha : a < w.heap.length) (hl : w.loc ≠ some a) : (ArrWorld.step c k spoil act w).2.heap.read a = w.heap.read a :=
  (since_step c k spoil act w hw).1.2.1 a ha hl

theorem since_WF {w0 w : ArrWorld K ρ} {L : Option ℕ} {N : Prop} (h : Since w0 L N w) (hn : N) (hw : w0.WF) : w.WF := by
  intro a ha
  rcases h.2.2.1 hn with e | ⟨b, e, _, hb⟩
  · exact lt_of_lt_of_le (hw a (e ▸ ha)) h.1
  · rw [e] at ha; cases ha; exact hb

/-- Calls and writes keep apart the arrays of the agent and `self.state`. -/
theorem happen_apart {c : Ctx K} {k : Hooks K ρ} {seeded : ℤ → ρ} {spoil : ρ → ρ} (hi : k.NewInit) (ho : k.NewObs) (e : AgentEvent K)
    {w : ArrWorld K ρ} (hw : w.WF) :
    (happen c k seeded spoil e w).2.WF ∧ w.heap.length ≤ (happen c k seeded spoil e w).2.heap.length ∧
    (∀ a < w.heap.length, w.loc ≠ some a → (happen c k seeded spoil e w).2.loc ≠ some a ∧
      (e.spares a → (happen c k seeded spoil e w).2.heap.read a = w.heap.read a)) ∧
    (∀ x, (happen c k seeded spoil e w).1 = some (.ok x) → x.1 < (happen c k seeded spoil e w).2.heap.length ∧
      (happen c k seeded spoil e w).2.loc ≠ some x.1) ∧
    (∀ v, e = .step v → w.heap.length < (happen c k seeded spoil e w).2.heap.length ∧ (happen c k seeded spoil e w).2.loc ≠ some w.heap.length) := by
  rcases e with seed | v | ⟨a, v⟩
  · obtain ⟨h1, h2⟩ := tri_reset (w0 := w) (L := none) c k seeded spoil seed w since_self trivial
    refine ⟨since_WF h1 hi hw, h1.1, fun a ha hl => ⟨?_, fun _ => h1.2.1 a ha (by simp)⟩, fun x hx => ?_, by simp⟩
    · rcases h1.2.2.1 hi with e | ⟨b, e, hb, _⟩
      · exact fun h => hl (e ▸ h)
      · intro h
        rw [show (ArrWorld.reset c k seeded spoil seed w).2.loc = _ from h] at e
        cases e
        omega
    · simp only [happen, Option.some.injEq] at hx
      rcases hr : (ArrWorld.reset c k seeded spoil seed w).1 with y | o
      · rw [hr] at hx; cases hx
      · rw [hr] at hx; cases hx
        have := h2 o hr ho
        exact ⟨this.1.2, this.2⟩
  · have hw1 := alloc_WF hw v
    obtain ⟨h1, h2⟩ := since_step c k spoil w.heap.length { w with heap := w.heap ++ [v] } hw1
    have hlen : w.heap.length < (w.heap ++ [v]).length := by simp
    have hloc : ∀ a < (w.heap ++ [v]).length, w.loc ≠ some a → (ArrWorld.step c k spoil w.heap.length { w with heap := w.heap ++ [v] }).2.loc ≠ some a := by
      intro a ha hl
      rcases h1.2.2.1 trivial with e | ⟨b, e, hb, _⟩
      · exact fun h => hl ((show _ = w.loc from e) ▸ h)
      · intro h
        rw [h] at e
        cases e
        exact absurd ha (not_lt.2 hb)
    refine ⟨since_WF h1 trivial hw1, hlen.le.trans h1.1, fun a ha hl => ⟨hloc a (ha.trans hlen) hl, fun _ => ?_⟩, fun x hx => ?_, fun _ _ => ⟨lt_of_lt_of_le hlen h1.1, ?_⟩⟩
    · have := h1.2.1 a (ha.trans hlen) hl
      exact this.trans (heap_read_append v ha)
    · simp only [happen, Option.some.injEq] at hx
      rcases hr : (ArrWorld.step c k spoil w.heap.length { w with heap := w.heap ++ [v] }).1 with y | o
      · rw [hr] at hx; cases hx
      · rw [hr] at hx; cases hx
        have := h2 o hr ho
        exact ⟨this.1.2, this.2⟩
    · exact hloc _ hlen fun h => absurd (hw _ h) (lt_irrefl _)
  · refine ⟨fun b hb => ?_, ?_, fun b hb hl => ⟨hl, fun hs => heap_read_set_ne v hs⟩, by simp [happen], by simp⟩
    · show b < (w.heap.set a v).length
      simpa using hw b hb
    · show _ ≤ (w.heap.set a v).length
      simp

/-- **C123** (observations of the library, or of a function that makes new arrays): an observation that has been
returned is never changed by later calls. -/
theorem C123_kept_partial {c : Ctx K} {k : Hooks K ρ} {seeded : ℤ → ρ} {spoil : ρ → ρ} (hi : k.NewInit) (ho : k.NewObs)
    {w w1 : ArrWorld K ρ} (hw : w.WF) {e : AgentEvent K} {x : ℕ × X K × Bool} (hx : happen c k seeded spoil e w = (some (.ok x), w1))
    (es : List (AgentEvent K)) (hes : ∀ e ∈ es, e.spares x.1) : (playArr c k seeded spoil es w1).2.heap.read x.1 = w1.heap.read x.1 := by
  obtain ⟨h1, _, _, h4, _⟩ := happen_apart (c := c) (seeded := seeded) (spoil := spoil) hi ho e hw
  rw [hx] at h1 h4
  obtain ⟨h6, h5⟩ := h4 x rfl
  simp only at h1 h6 h5
  clear hx h4
  induction es generalizing w1 with
  | nil => rfl
  | cons f fs ih =>
    obtain ⟨g1, g2, g3, _, _⟩ := happen_apart (c := c) (seeded := seeded) (spoil := spoil) hi ho f h1
    obtain ⟨g4, g5⟩ := g3 x.1 h6 h5
    exact (ih (fun e he => hes e (List.mem_cons_of_mem _ he)) g1 (lt_of_lt_of_le h6 g2) g4).trans (g5 (hes f (by simp)))

/-- The observations of the library are new arrays. -/
theorem newObs_library {c : EnvCtx K ρ} {k : Hooks K ρ} (hk : Follows c none k) : k.NewObs := by
  intro f hf
  have := hk.obs
  rw [hf] at this
  exact this.elim

/-- **C123** (environments made with `observation="state"` or a list of variables): an observation that has been returned is
never changed by later calls. -/
theorem C123_library [FloorRing K] {c : EnvCtx K ρ} {a : EnvArgs K} {e : Env K ρ} (he : mkEnv c a = .ok e) (ha : a.observation.fn = none)
    {k : Hooks K ρ} (hk : Follows c e.obsFn k) (hi : k.NewInit) (spoil : ρ → ρ) (before es : List (AgentEvent K)) (f : AgentEvent K)
    {x : ℕ × X K × Bool} {w1 : ArrWorld K ρ}
    (hx : happen c.sim k c.seeded spoil f (playArr c.sim k c.seeded spoil before (start e)).2 = (some (.ok x), w1)) (hes : ∀ e ∈ es, e.spares x.1) :
    (playArr c.sim k c.seeded spoil es w1).2.heap.read x.1 = w1.heap.read x.1 := by
  have hn : e.obsFn = none := by
    simp only [mkEnv, bind_ok, pure_ok] at he
    obtain ⟨_, _, _, _, _, _, _, _, _, _, _, _, rfl⟩ := he
    exact ha
  rw [hn] at hk
  have ho := newObs_library hk
  have hw : ∀ (es : List (AgentEvent K)) (w : ArrWorld K ρ), w.WF → (playArr c.sim k c.seeded spoil es w).2.WF := by
    intro es
    induction es with
    | nil => exact fun w h => h
    | cons f fs ih => exact fun w h => ih _ (happen_apart (c := c.sim) (seeded := c.seeded) (spoil := spoil) hi ho f h).1
  exact C123_kept_partial hi ho (hw before (start e) fun a ha => by cases ha) hx es hes

/-! ### Values only -/

/-- The answers to the calls of a sequence of events, computed with values; writes are ignored. -/
def playValues (c : EnvCtx K ρ) (spoil : ρ → ρ) : List (AgentEvent K) → Obj K ρ → List (Except PyErr (List (X K) × X K × Bool))
  | [], _ => []
  | .reset seed :: es, o =>
    ((Obj.resetPy c spoil seed o).1.map fun x => (x, 0, false)) :: playValues c spoil es (Obj.resetPy c spoil seed o).2
  | .step v :: es, o =>
    ((Obj.stepPy c spoil v o).1.map fun x => (x.obs, x.reward, x.terminated)) :: playValues c spoil es (Obj.stepPy c spoil v o).2
  | .write _ _ :: es, o => playValues c spoil es o

theorem playValues_calls (c : EnvCtx K ρ) (spoil : ρ → ρ) (es : List (AgentEvent K)) (o : Obj K ρ) :
    playValues c spoil (es.filter AgentEvent.isCall) o = playValues c spoil es o := by
  induction es generalizing o with
  | nil => rfl
  | cons e es ih => cases e <;> simp [playValues, AgentEvent.isCall, List.filter_cons, ih]

/-- A call computes values. -/
theorem happen_values {c : EnvCtx K ρ} {k : Hooks K ρ} {spoil : ρ → ρ} {fn : Option (List (X K) → List (X K) × Bool)} (hk : Follows c fn k)
    {w : ArrWorld K ρ} (hf : w.env.obsFn = fn) (hw : w.WF) (e : AgentEvent K) (es : List (AgentEvent K)) (hl : ∀ a v, e = .write a v → w.loc ≠ some a) :
    let h := happen c.sim k c.seeded spoil e w
    h.2.WF ∧ h.2.env.obsFn = fn ∧ playValues c spoil (e :: es) w.view =
      (match h.1 with
        | none => playValues c spoil es h.2.view
        | some x => (x.map fun y => (h.2.heap.read y.1, y.2)) :: playValues c spoil es h.2.view) := by
  subst hf
  rcases e with seed | v | ⟨a, v⟩
  · rcases ref_reset hk hw spoil seed with ⟨o, w', b, h1, h2, h3, h4, h5⟩ | ⟨x, w', h1, h2, h3⟩
    · simp only [happen, h1, playValues, h2, Except.map, h4.2]
      exact ⟨h3, h5, trivial⟩
    · simp only [happen, h1, playValues, h2, Except.map]
      refine ⟨h3, ?_, trivial⟩
      have := (tri_reset (w0 := w) (L := none) c.sim k c.seeded spoil seed w since_self trivial).1.2.2.2
      rwa [h1] at this
  · have hw1 := alloc_WF hw v
    have hv : Heap.read (w.heap ++ [v]) w.heap.length = v := heap_read_new _ _
    have := ref_stepArr (c := c) (k := k) (w := { w with heap := w.heap ++ [v] }) hk hw1 spoil w.heap.length
    simp only [hv] at this
    rcases this with ⟨o, w', b, h1, h2, h3, h4, h5⟩ | ⟨x, w', h1, h2, h3⟩
    · simp only [happen, h1, playValues]
      rw [alloc_view hw] at h2
      simp only [h2, Except.map, h4.1.2, h4.2.1, h4.2.2]
      exact ⟨h3, h5, trivial⟩
    · simp only [happen, h1, playValues]
      rw [alloc_view hw] at h2
      simp only [h2, Except.map]
      refine ⟨h3, ?_, trivial⟩
      have := (since_step c.sim k spoil w.heap.length { w with heap := w.heap ++ [v] } hw1).1.2.2.2
      rw [h1] at this
      exact this
  · have hv : ArrWorld.view { w with heap := w.heap.set a v } = w.view := by
      unfold ArrWorld.view
      rcases h : w.loc with _ | b
      · simp
      · have hab : a ≠ b := fun e => hl a v rfl (by rw [h, e])
        simp [heap_read_set_ne v hab]
    refine ⟨fun b hb => ?_, rfl, ?_⟩
    · show b < (w.heap.set a v).length
      simpa using hw b hb
    · simp only [happen, playValues, hv]

/-- **C124** (functions of the user that make new arrays): the answers to the calls are computed from values;
what the agent writes into its arrays has no influence. -/
theorem C124_values_partial {c : EnvCtx K ρ} {k : Hooks K ρ} {spoil : ρ → ρ} {fn : Option (List (X K) → List (X K) × Bool)}
    (hk : Follows c fn k) (hi : k.NewInit) (ho : k.NewObs) (es : List (AgentEvent K)) {w : ArrWorld K ρ} (hf : w.env.obsFn = fn) (hw : w.WF)
    {A : List ℕ} (hA : ∀ a ∈ A, a < w.heap.length ∧ w.loc ≠ some a) (hes : OwnWrites c.sim k c.seeded spoil A es w) :
    (playArr c.sim k c.seeded spoil es w).1 = playValues c spoil es w.view := by
  induction es generalizing w A with
  | nil => rfl
  | cons e es ih =>
    obtain ⟨h1, h2⟩ := hes
    obtain ⟨g1, g2, g3⟩ := happen_values (spoil := spoil) hk hf hw e es fun a v he => (hA a (h1 a v he)).2
    obtain ⟨_, f2, f3, f4, f5⟩ := happen_apart (c := c.sim) (seeded := c.seeded) (spoil := spoil) hi ho e hw
    have hA' : ∀ a ∈ known e (happen c.sim k c.seeded spoil e w).1 w A,
        a < (happen c.sim k c.seeded spoil e w).2.heap.length ∧ (happen c.sim k c.seeded spoil e w).2.loc ≠ some a := by
      intro a ha
      simp only [known, List.mem_append] at ha
      rcases ha with (ha | ha) | ha
      · rcases e with _ | v | _
        · simp at ha
        · simp only [List.mem_singleton] at ha
          rw [ha]
          exact f5 v rfl
        · simp at ha
      · rcases hr : (happen c.sim k c.seeded spoil e w).1 with _ | (x | x)
        · rw [hr] at ha; simp at ha
        · rw [hr] at ha; simp at ha
        · rw [hr] at ha
          simp only [List.mem_singleton] at ha
          rw [ha]
          exact f4 x hr
      · exact ⟨lt_of_lt_of_le (hA a ha).1 f2, (f3 a (hA a ha).1 (hA a ha).2).1⟩
    have := ih g2 g1 hA' h2
    simp only [playArr]
    rw [g3, this]

/-- **C124** (functions of the user that make new arrays): an environment answers the calls of an agent that writes into
the observations it has got and into the actions it has passed, as it answers the same calls without these writes. -/
theorem C124_writes_partial {c : EnvCtx K ρ} {k : Hooks K ρ} {spoil : ρ → ρ} {e : Env K ρ} (hk : Follows c e.obsFn k) (hi : k.NewInit)
    (ho : k.NewObs) (es : List (AgentEvent K)) (hes : OwnWrites c.sim k c.seeded spoil [] es (start e)) :
    (playArr c.sim k c.seeded spoil es (start e)).1 = (playArr c.sim k c.seeded spoil (es.filter AgentEvent.isCall) (start e)).1 := by
  have hw : (start e).WF := by
    intro a ha
    cases ha
  have hc : ∀ (es : List (AgentEvent K)) (A : List ℕ) (w : ArrWorld K ρ), (∀ f ∈ es, f.isCall = true) → OwnWrites c.sim k c.seeded spoil A es w := by
    intro es
    induction es with
    | nil => intro A w _; trivial
    | cons f fs ih =>
      intro A w h
      refine ⟨fun a v hf => ?_, ih _ _ fun g hg => h g (List.mem_cons_of_mem _ hg)⟩
      have := h f (by simp)
      rw [hf] at this
      cases this
  rw [C124_values_partial hk hi ho es (w := start e) rfl hw (A := []) (by simp) hes,
    C124_values_partial hk hi ho (es.filter AgentEvent.isCall) (w := start e) rfl hw (A := []) (by simp)
      (hc _ _ _ fun f hf => (List.mem_filter.1 hf).2), playValues_calls]

end
end Anm
