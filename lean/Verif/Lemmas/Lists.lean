import Verif.NumLemmas
import Verif.Model.CheckNetwork
import Mathlib.Data.List.Flatten
import Mathlib.Tactic.Tauto

/-! # Generic lemmas about `mapE`, python sets and dictionaries -/

set_option linter.unusedSectionVars false

namespace Anm

theorem mapE_ok {α β : Type} {f : α → Except PyErr β} {l : List α} {l' : List β} :
    mapE f l = .ok l' ↔ List.Forall₂ (fun a b => f a = .ok b) l l' := by
  induction l generalizing l' with
  | nil => cases l' <;> simp [mapE]
  | cons a l ih =>
    simp only [mapE, bind_ok, pure_ok]
    constructor
    · rintro ⟨b, hb, bs, hbs, rfl⟩
      exact .cons hb (ih.1 hbs)
    · intro h
      cases h with
      | cons hb hbs => exact ⟨_, hb, _, ih.2 hbs, rfl⟩

theorem mapE_error {α β : Type} {f : α → Except PyErr β} {l : List α} {e : PyErr}
    (h : mapE f l = .error e) : ∃ a ∈ l, f a = .error e := by
  induction l with
  | nil => simp [mapE] at h
  | cons a l ih =>
    simp only [mapE, bind_error, pure_error] at h
    rcases h with h | ⟨b, _, h | ⟨_, _, h⟩⟩
    · exact ⟨a, by simp, h⟩
    · obtain ⟨x, hx, hf⟩ := ih h
      exact ⟨x, by simp [hx], hf⟩
    · exact h.elim

theorem mapE_total {α β : Type} {f : α → Except PyErr β} {l : List α}
    (h : ∀ a ∈ l, ∃ b, f a = .ok b) : ∃ l', mapE f l = .ok l' := by
  induction l with
  | nil => exact ⟨[], rfl⟩
  | cons a l ih =>
    obtain ⟨b, hb⟩ := h a (by simp)
    obtain ⟨bs, hbs⟩ := ih fun x hx => h x (by simp [hx])
    exact ⟨b :: bs, by simp [mapE, hb, hbs, bind, Except.bind, pure, Except.pure]⟩

theorem mapE_length {α β : Type} {f : α → Except PyErr β} {l : List α} {l' : List β}
    (h : mapE f l = .ok l') : l'.length = l.length := (mapE_ok.1 h).length_eq.symm

/-- Total functions: `mapE` is `map`. -/
theorem mapE_pure {α β : Type} (f : α → β) (l : List α) :
    mapE (fun a => (.ok (f a) : Except PyErr β)) l = .ok (l.map f) := by
  induction l with
  | nil => rfl
  | cons a l ih => simp [mapE, ih, bind, Except.bind, pure, Except.pure]

/-- Every result of `mapE` comes from an element. -/
theorem mapE_mem {α β : Type} {f : α → Except PyErr β} {l : List α} {l' : List β}
    (h : mapE f l = .ok l') {b : β} (hb : b ∈ l') : ∃ a ∈ l, f a = .ok b := by
  have := mapE_ok.1 h
  clear h
  induction this with
  | nil => simp at hb
  | cons hab _ ih =>
    rcases List.mem_cons.1 hb with rfl | hb
    · exact ⟨_, by simp, hab⟩
    · obtain ⟨a, ha, hf⟩ := ih hb
      exact ⟨a, by simp [ha], hf⟩

theorem mapE_mem' {α β : Type} {f : α → Except PyErr β} {l : List α} {l' : List β}
    (h : mapE f l = .ok l') {a : α} (ha : a ∈ l) : ∃ b ∈ l', f a = .ok b := by
  have := mapE_ok.1 h
  clear h
  induction this with
  | nil => simp at ha
  | cons hab _ ih =>
    rcases List.mem_cons.1 ha with rfl | ha
    · exact ⟨_, by simp, hab⟩
    · obtain ⟨a, ha, hf⟩ := ih ha
      exact ⟨a, by simp [ha], hf⟩

/-! ### python sets -/

theorem foldl_pySetAdd_length {α : Type} (eq : α → α → Bool) (l s : List α) :
    (l.foldl (pySetAdd eq) s).length ≤ s.length + l.length ∧
    ((l.foldl (pySetAdd eq) s).length = s.length + l.length ↔
      (∀ a ∈ l, s.any (eq a) = false) ∧ l.Pairwise (fun a b => eq b a = false)) := by
  induction l generalizing s with
  | nil => simp
  | cons a l ih =>
    simp only [List.foldl_cons, List.length_cons, List.pairwise_cons, List.mem_cons]
    by_cases h : s.any (eq a) = true
    · have e : pySetAdd eq s a = s := by simp [pySetAdd, h]
      rw [e]
      obtain ⟨h1, _⟩ := ih s
      refine ⟨by omega, ⟨fun h' => by omega, fun h' => ?_⟩⟩
      have := h'.1 a (Or.inl rfl)
      rw [h] at this
      cases this
    · have e : pySetAdd eq s a = s ++ [a] := by simp [pySetAdd, h]
      rw [e]
      obtain ⟨h1, h2⟩ := ih (s ++ [a])
      simp only [List.length_append, List.length_cons, List.length_nil, zero_add] at h1 h2
      refine ⟨by omega, ?_⟩
      have e2 : s.length + (l.length + 1) = s.length + 1 + l.length := by omega
      rw [e2, h2]
      simp only [List.any_append, List.any_cons, List.any_nil, Bool.or_false,
        Bool.or_eq_false_iff]
      constructor
      · rintro ⟨hs, hp⟩
        refine ⟨?_, fun b hb => (hs b hb).2, hp⟩
        rintro b (rfl | hb)
        · simpa using h
        · exact (hs b hb).1
      · rintro ⟨hs, ha, hp⟩
        exact ⟨fun b hb => ⟨hs b (Or.inr hb), ha b hb⟩, hp⟩

theorem pySet_length_eq {α : Type} (eq : α → α → Bool) (l : List α) :
    l.length = (pySet eq l).length ↔ l.Pairwise (fun a b => eq b a = false) := by
  have := (foldl_pySetAdd_length eq l []).2
  simp only [List.length_nil, zero_add, List.any_nil, implies_true, true_and] at this
  rw [← this, pySet]
  exact eq_comm

theorem mem_foldl_pySetAdd {α : Type} (eq : α → α → Bool) {l s : List α} {a : α}
    (h : a ∈ l.foldl (pySetAdd eq) s) : a ∈ s ∨ a ∈ l := by
  induction l generalizing s with
  | nil => exact Or.inl h
  | cons b l ih =>
    rcases ih h with h | h
    · by_cases hb : s.any (eq b) = true
      · rw [show pySetAdd eq s b = s by simp [pySetAdd, hb]] at h
        exact Or.inl h
      · rw [show pySetAdd eq s b = s ++ [b] by simp [pySetAdd, hb]] at h
        rcases List.mem_append.1 h with h | h
        · exact Or.inl h
        · right; simp at h; simp [h]
    · right; simp [h]

theorem subset_foldl_pySetAdd {α : Type} (eq : α → α → Bool) {l s : List α} {a : α}
    (h : a ∈ s) : a ∈ l.foldl (pySetAdd eq) s := by
  induction l generalizing s with
  | nil => exact h
  | cons b l ih =>
    apply ih
    unfold pySetAdd
    split
    · exact h
    · simp [h]

/-- Every element of the list is in the set up to python equality. -/
theorem pySet_covers {α : Type} (eq : α → α → Bool) (refl : ∀ a, eq a a = true)
    (l : List α) {a : α} (h : a ∈ l) : ∃ b ∈ pySet eq l, eq a b = true := by
  suffices H : ∀ (l s : List α), a ∈ l → ∃ b ∈ l.foldl (pySetAdd eq) s, eq a b = true from H l [] h
  intro l
  induction l with
  | nil => intro s h; simp at h
  | cons c l ih =>
    intro s h
    rcases List.mem_cons.1 h with rfl | h
    · by_cases hb : s.any (eq a) = true
      · obtain ⟨b, hb1, hb2⟩ := List.any_eq_true.1 hb
        refine ⟨b, ?_, hb2⟩
        apply subset_foldl_pySetAdd (l := a :: l)
        exact hb1
      · refine ⟨a, ?_, refl a⟩
        rw [List.foldl_cons, show pySetAdd eq s a = s ++ [a] by simp [pySetAdd, hb]]
        apply subset_foldl_pySetAdd
        simp
    · exact ih _ h

section
variable {K : Type} [Field K] [LinearOrder K]

theorem setBranches_eq (l : List (BranchRow K)) :
    setBranches l = pySet pairEqB (l.flatMap fun br => [(br .fBus, br .tBus), (br .tBus, br .fBus)]) := by
  unfold setBranches pySet
  rw [List.foldl_flatMap]
  rfl

end

end Anm
