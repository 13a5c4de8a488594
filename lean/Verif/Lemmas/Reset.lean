import Verif.Lemmas.Transition

/-! # Lemmas about `reset`: which component of the vector goes where -/

set_option linter.unusedSectionVars false

namespace Anm

open Spec

theorem Dict.getE_ok {α β : Type} [DecidableEq α] {d : Dict α β} {k : α} {v : β} :
    d.getE k = .ok v ↔ d.get? k = some v := by
  unfold Dict.getE
  cases d.get? k <;> simp

theorem Dict.get?_set {α β : Type} [DecidableEq α] (d : Dict α β) (k k' : α) (v : β) :
    (d.set k v).get? k' = if k = k' then some v else d.get? k' := by
  induction d with
  | nil => simp only [Dict.set, Dict.get?, List.find?_cons]; by_cases h : k = k' <;> simp [h]
  | cons e d ih =>
    obtain ⟨k0, v0⟩ := e
    simp only [Dict.set]
    split
    · rename_i h0
      subst h0
      simp only [Dict.get?, List.find?_cons]
      by_cases h : k0 = k' <;> simp [h]
    · rename_i h0
      simp only [Dict.get?, List.find?_cons] at ih ⊢
      by_cases h : k0 = k'
      · subst h
        simp [Ne.symm h0]
      · simp only [h, decide_false]
        exact ih

section
variable {K : Type} [Field K] [LinearOrder K]

theorem idx_ok {v : List (X K)} {k : ℕ} {x : X K} : Sim.idx v k = .ok x ↔ v[k]? = some x := by
  unfold Sim.idx
  split <;> simp_all

theorem slice_get {α : Type} {v : List α} {a b k : ℕ} {x : α} (h : (Sim.slice v a b)[k]? = some x) :
    v[a + k]? = some x ∧ k < b - a := by
  unfold Sim.slice at h
  rw [List.getElem?_take] at h
  split at h
  · rw [List.getElem?_drop] at h; exact ⟨h, by assumption⟩
  · simp at h

/-- The four dictionaries agree at a key. -/
def Sim.Args.SameAt (a a' : Sim.Args K) (i : ℤ) : Prop :=
  a'.pLoad.get? i = a.pLoad.get? i ∧ a'.pPot.get? i = a.pPot.get? i ∧
  a'.pSet.get? i = a.pSet.get? i ∧ a'.qSet.get? i = a.qSet.get? i

/-- What the dictionaries contain for the device `d` at position `k`. -/
structure ResetEntry (pDev qDev pMax : List (X K)) (a : Sim.Args K) (d : Device K) (k g : ℕ) : Prop where
  load : d.isLoad = true → ∃ x, pDev[k]? = some x ∧ a.pLoad.get? d.id = some x
  set : d.isLoad = false → ((d.isGen || d.isStorage) && !d.isSlack) = true →
    ∃ x y, pDev[k]? = some x ∧ qDev[k]? = some y ∧ a.pSet.get? d.id = some x ∧ a.qSet.get? d.id = some y
  pot : d.isLoad = false → d.isNonSlackGen = true → ∃ z, pMax[g]? = some z ∧ a.pPot.get? d.id = some z

theorem resetArgs_ok {pDev qDev pMax : List (X K)} {ds : List (Device K)} {i g : ℕ}
    {a a' : Sim.Args K} (hs : ds.Pairwise (fun a b => a.id < b.id))
    (h : Sim.resetArgs pDev qDev pMax ds i g a = .ok a') :
    (∀ j, (∀ d ∈ ds, d.id ≠ j) → a.SameAt a' j) ∧
    ∀ k d, ds[k]? = some d → ResetEntry pDev qDev pMax a' d (i + k)
      (g + ((ds.take k).filter Device.isNonSlackGen).length) := by
  induction ds generalizing i g a with
  | nil =>
    simp only [Sim.resetArgs, Except.ok.injEq] at h
    subst h
    exact ⟨fun _ _ => ⟨rfl, rfl, rfl, rfl⟩, fun k d hk => by simp at hk⟩
  | cons d ds ih =>
    rw [List.pairwise_cons] at hs
    have hne : ∀ d' ∈ ds, d'.id ≠ d.id := fun d' hd' => (hs.1 d' hd').ne'
    have key : ∀ (g' : ℕ) (b : Sim.Args K), Sim.resetArgs pDev qDev pMax ds (i + 1) g' b = .ok a' →
        g' = g + (if d.isNonSlackGen then 1 else 0) →
        (∀ j, d.id ≠ j → a.SameAt b j) → ResetEntry pDev qDev pMax b d i g →
        (∀ j, (∀ d' ∈ d :: ds, d'.id ≠ j) → a.SameAt a' j) ∧
        ∀ k d', (d :: ds)[k]? = some d' → ResetEntry pDev qDev pMax a' d' (i + k)
          (g + (((d :: ds).take k).filter Device.isNonSlackGen).length) := by
      intro g' b hb hg' hsame hent
      obtain ⟨i1, i2⟩ := ih hs.2 hb
      constructor
      · intro j hj
        have h1 := hsame j (hj d (by simp))
        have h2 := i1 j fun d' hd' => hj d' (by simp [hd'])
        exact ⟨h2.1.trans h1.1, h2.2.1.trans h1.2.1, h2.2.2.1.trans h1.2.2.1, h2.2.2.2.trans h1.2.2.2⟩
      · intro k d' hk
        cases k with
        | zero =>
          simp only [List.getElem?_cons_zero, Option.some.injEq] at hk
          subst hk
          obtain ⟨e1, e2, e3, e4⟩ := i1 d.id hne
          simp only [List.take_zero, List.filter_nil, List.length_nil, add_zero]
          refine ⟨?_, ?_, ?_⟩
          · rw [e1]; exact hent.load
          · rw [e3, e4]; exact hent.set
          · rw [e2]; exact hent.pot
        | succ k =>
          simp only [List.getElem?_cons_succ] at hk
          have := i2 k d' hk
          subst hg'
          convert this using 1
          · omega
          · rw [List.take_succ_cons, List.filter_cons]
            split <;> simp_all <;> omega
    unfold Sim.resetArgs at h
    split at h
    · rename_i hl
      simp only [bind_ok, idx_ok] at h
      obtain ⟨x, hx, h⟩ := h
      have hk : d.isNonSlackGen = false := by
        unfold Device.isNonSlackGen Device.isGen Device.isLoad at *
        cases hk : d.kind <;> simp_all
      refine key g _ h (by simp [hk]) (fun j hj => ⟨?_, rfl, rfl, rfl⟩) ⟨fun _ => ⟨x, hx, ?_⟩, ?_, ?_⟩
      · rw [Dict.get?_set, if_neg hj]
      · rw [Dict.get?_set, if_pos rfl]
      · intro hl'; simp [hl] at hl'
      · intro hl'; simp [hl] at hl'
    · rename_i hl
      split at h
      · rename_i hc
        simp only [bind_ok, idx_ok] at h
        obtain ⟨x, hx, y, hy, h⟩ := h
        split at h
        · rename_i hg
          simp only [bind_ok, idx_ok] at h
          obtain ⟨z, hz, h⟩ := h
          refine key (g + 1) _ h (by simp [hg]) (fun j hj => ⟨rfl, ?_, ?_, ?_⟩)
            ⟨fun h' => absurd h' hl, fun _ _ => ⟨x, y, hx, hy, ?_, ?_⟩, fun _ _ => ⟨z, hz, ?_⟩⟩
          all_goals simp only [Dict.get?_set]
          all_goals simp_all
        · rename_i hg
          refine key g _ h (by simp [hg]) (fun j hj => ⟨rfl, rfl, ?_, ?_⟩)
            ⟨fun h' => absurd h' hl, fun _ _ => ⟨x, y, hx, hy, ?_, ?_⟩, fun _ h' => absurd h' hg⟩
          all_goals simp only [Dict.get?_set]
          all_goals simp_all
      · rename_i hc
        have hk : d.isNonSlackGen = false := by
          unfold Device.isNonSlackGen at *
          cases hk : d.isGen <;> simp_all
        refine key g _ h (by simp [hk]) (fun j hj => ⟨rfl, rfl, rfl, rfl⟩)
          ⟨fun h' => absurd h' hl, fun _ h' => absurd h' hc, fun _ h' => by simp [hk] at h'⟩

theorem assignSoc_get {base : X K} {soc : List (X K)} {ds ds' : List (Device K)} {k0 : ℕ}
    (h : Sim.assignSoc base soc ds k0 = .ok ds') {k : ℕ} {d' : Device K} (hk : ds'[k]? = some d') :
    ∃ d, ds[k]? = some d ∧ (d.isStorage = false → d' = d) ∧
      (d.isStorage = true → ∃ x, soc[k0 + ((ds.take k).filter Device.isStorage).length]? = some x ∧
        d' = { d with soc := some (x / base) }) := by
  induction ds generalizing ds' k0 k with
  | nil => simp [Sim.assignSoc] at h; subst h; simp at hk
  | cons d ds ih =>
    unfold Sim.assignSoc at h
    split at h
    · rename_i hs
      simp only [bind_ok, pure_ok, idx_ok] at h
      obtain ⟨x, hx, ds1, h1, rfl⟩ := h
      cases k with
      | zero =>
        simp only [List.getElem?_cons_zero, Option.some.injEq] at hk
        exact ⟨d, rfl, fun h => by simp [hs] at h, fun _ => ⟨x, by simpa using hx, hk.symm⟩⟩
      | succ k =>
        obtain ⟨d1, e1, e2, e3⟩ := ih h1 (by simpa using hk)
        refine ⟨d1, by simpa using e1, e2, fun h' => ?_⟩
        obtain ⟨y, hy, hd⟩ := e3 h'
        refine ⟨y, ?_, hd⟩
        rw [← hy]
        congr 1
        simp [List.take_succ_cons, hs]
        omega
    · rename_i hs
      simp only [bind_ok, pure_ok] at h
      obtain ⟨ds1, h1, rfl⟩ := h
      cases k with
      | zero =>
        simp only [List.getElem?_cons_zero, Option.some.injEq] at hk
        exact ⟨d, rfl, fun _ => hk.symm, fun h => absurd h hs⟩
      | succ k =>
        obtain ⟨d1, e1, e2, e3⟩ := ih h1 (by simpa using hk)
        refine ⟨d1, by simpa using e1, e2, fun h' => ?_⟩
        obtain ⟨y, hy, hd⟩ := e3 h'
        refine ⟨y, ?_, hd⟩
        rw [← hy]
        congr 1
        simp [List.take_succ_cons, hs]

theorem forall₂_get {α β : Type} {R : α → β → Prop} {l : List α} {l' : List β}
    (h : List.Forall₂ R l l') {k : ℕ} {b : β} (hk : l'[k]? = some b) : ∃ a, l[k]? = some a ∧ R a b := by
  induction h generalizing k with
  | nil => simp at hk
  | cons hab _ ih =>
    cases k with
    | zero => simp only [List.getElem?_cons_zero, Option.some.injEq] at hk; subst hk; exact ⟨_, rfl, hab⟩
    | succ k => exact ih (by simpa using hk)

theorem filter_take_length {α : Type} {R : α → α → Prop} {p : α → Bool} {l l' : List α}
    (h : List.Forall₂ R l l') (hR : ∀ a b, R a b → p b = p a) (k : ℕ) :
    ((l'.take k).filter p).length = ((l.take k).filter p).length := by
  induction h generalizing k with
  | nil => rfl
  | cons hab _ ih =>
    cases k with
    | zero => rfl
    | succ k => simp only [List.take_succ_cons, List.filter_cons, hR _ _ hab]; split <;> simp [ih]

end

end Anm
