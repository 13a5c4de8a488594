import Verif.Lemmas.Lists
import Verif.Lemmas.Components
import Verif.Model.Simulator

/-! # Lemmas about dictionaries and `loadCase` -/

set_option linter.unusedSectionVars false

namespace Anm

section
variable {α β : Type} [DecidableEq α]

/-- All entries are filed under their own key, and keys are distinct. -/
def DictInv (key : β → α) (d : Dict α β) : Prop :=
  (∀ e ∈ d, e.1 = key e.2) ∧ (d.map (·.1)).Nodup

theorem Dict.set_mem {d : Dict α β} {k : α} {v : β} {e : α × β} (h : e ∈ d.set k v) :
    e ∈ d ∨ e = (k, v) := by
  induction d with
  | nil => right; simpa [Dict.set] using h
  | cons a d ih =>
    unfold Dict.set at h
    split at h
    · rcases List.mem_cons.1 h with h | h
      · exact Or.inr h
      · exact Or.inl (by simp [h])
    · rcases List.mem_cons.1 h with h | h
      · exact Or.inl (by simp [h])
      · rcases ih h with h | h
        · exact Or.inl (by simp [h])
        · exact Or.inr h

theorem Dict.set_keys_mem {d : Dict α β} {k x : α} {v : β} :
    x ∈ (d.set k v).map (·.1) ↔ x ∈ d.map (·.1) ∨ x = k := by
  induction d with
  | nil => simp [Dict.set]
  | cons a d ih =>
    unfold Dict.set
    split
    · rename_i h
      simp only [List.map_cons, List.mem_cons, h]
      tauto
    · simp only [List.map_cons, List.mem_cons, ih]
      tauto

theorem Dict.set_nodup {d : Dict α β} {k : α} {v : β} (h : (d.map (·.1)).Nodup) :
    ((d.set k v).map (·.1)).Nodup := by
  induction d with
  | nil => simp [Dict.set]
  | cons a d ih =>
    simp only [List.map_cons, List.nodup_cons] at h
    unfold Dict.set
    split
    · rename_i h'
      simp only [List.map_cons, List.nodup_cons]
      exact ⟨h' ▸ h.1, h.2⟩
    · rename_i h'
      simp only [List.map_cons, List.nodup_cons, Dict.set_keys_mem]
      exact ⟨fun h'' => h''.elim h.1 h', ih h.2⟩

theorem Dict.set_fresh {d : Dict α β} {k : α} {v : β} (h : k ∉ d.map (·.1)) :
    d.set k v = d ++ [(k, v)] := by
  induction d with
  | nil => rfl
  | cons a d ih =>
    simp only [List.map_cons, List.mem_cons, not_or] at h
    unfold Dict.set
    rw [if_neg (fun e => h.1 e.symm), ih h.2]
    rfl

theorem foldl_set_inv (key : β → α) (l : List β) (d : Dict α β) (hd : DictInv key d) :
    DictInv key (l.foldl (fun d x => d.set (key x) x) d) ∧
    (∀ e ∈ l.foldl (fun d x => d.set (key x) x) d, e ∈ d ∨ e.2 ∈ l) ∧
    ∀ k, k ∈ (l.foldl (fun d x => d.set (key x) x) d).map (·.1) ↔
      k ∈ d.map (·.1) ∨ k ∈ l.map key := by
  induction l generalizing d with
  | nil => exact ⟨hd, fun e he => Or.inl he, fun k => by simp⟩
  | cons a l ih =>
    have hd' : DictInv key (d.set (key a) a) := by
      refine ⟨fun e he => ?_, Dict.set_nodup hd.2⟩
      rcases Dict.set_mem he with he | rfl
      · exact hd.1 e he
      · rfl
    obtain ⟨h1, h2, h3⟩ := ih _ hd'
    refine ⟨h1, fun e he => ?_, fun k => ?_⟩
    · rcases h2 e he with h | h
      · rcases Dict.set_mem h with h | rfl
        · exact Or.inl h
        · exact Or.inr (by simp)
      · exact Or.inr (by simp [h])
    · rw [List.foldl_cons, h3, Dict.set_keys_mem]
      simp only [List.map_cons, List.mem_cons]
      tauto

theorem dictOf_inv (key : β → α) (l : List β) : DictInv key (dictOf key l) :=
  (foldl_set_inv key l [] ⟨by simp, by simp⟩).1

theorem dictOf_mem (key : β → α) (l : List β) {e : α × β} (h : e ∈ dictOf key l) :
    e.1 = key e.2 ∧ e.2 ∈ l := by
  refine ⟨(dictOf_inv key l).1 e h, ?_⟩
  rcases (foldl_set_inv key l [] ⟨by simp, by simp⟩).2.1 e h with h | h
  · simp at h
  · exact h

theorem dictOf_keys (key : β → α) (l : List β) (k : α) :
    k ∈ (dictOf key l).map (·.1) ↔ k ∈ l.map key := by
  rw [dictOf, (foldl_set_inv key l [] ⟨by simp, by simp⟩).2.2]
  simp

theorem foldl_set_distinct (key : β → α) (l : List β) (d : Dict α β)
    (h : (l.map key).Nodup) (hd : ∀ x ∈ l, key x ∉ d.map (·.1)) :
    l.foldl (fun d x => d.set (key x) x) d = d ++ l.map (fun x => (key x, x)) := by
  induction l generalizing d with
  | nil => simp
  | cons a l ih =>
    simp only [List.map_cons, List.nodup_cons] at h
    rw [List.foldl_cons, Dict.set_fresh (hd a (by simp)), ih _ h.2]
    · simp
    · intro x hx
      simp only [List.map_append, List.map_cons, List.map_nil, List.mem_append, List.mem_cons,
        List.not_mem_nil, or_false, not_or]
      exact ⟨hd x (by simp [hx]), fun e => h.1 (e ▸ List.mem_map_of_mem hx)⟩

theorem dictOf_distinct (key : β → α) (l : List β) (h : (l.map key).Nodup) :
    dictOf key l = l.map (fun x => (key x, x)) := by
  rw [dictOf, foldl_set_distinct key l [] h (by simp)]
  rfl

end

theorem sortDict_perm {β : Type} (d : Dict ℤ β) : (sortDict d).Perm d :=
  List.perm_insertionSort _ _

theorem sortDict_sorted {β : Type} (d : Dict ℤ β) : (sortDict d).Pairwise (fun a b => a.1 ≤ b.1) := by
  haveI : Std.Total (fun a b : ℤ × β => a.1 ≤ b.1) := ⟨fun a b => le_total a.1 b.1⟩
  haveI : IsTrans (ℤ × β) (fun a b => a.1 ≤ b.1) := ⟨fun _ _ _ h h' => le_trans h h'⟩
  exact List.pairwise_insertionSort (fun a b : ℤ × β => a.1 ≤ b.1) d

/-- The values of a sorted dictionary, under distinct keys. -/
theorem sortDict_strict {β : Type} (key : β → ℤ) (d : Dict ℤ β) (h : DictInv key d) :
    ((sortDict d).map (·.2)).Pairwise (fun a b => key a < key b) := by
  have hs := sortDict_sorted d
  have hn : ((sortDict d).map (·.1)).Nodup := ((sortDict_perm d).map _).nodup_iff.2 h.2
  rw [List.pairwise_map]
  rw [List.Nodup, List.pairwise_map] at hn
  refine (hs.and hn).imp_of_mem ?_
  intro a b ha hb hab
  rw [← h.1 a ((sortDict_perm d).mem_iff.1 ha), ← h.1 b ((sortDict_perm d).mem_iff.1 hb)]
  exact lt_of_le_of_ne hab.1 hab.2

/-- Two strictly sorted lists that are permutations of each other are equal. -/
theorem sorted_perm_eq {β : Type} (key : β → ℤ) {l l' : List β}
    (h : l.Pairwise (fun a b => key a < key b)) (h' : l'.Pairwise (fun a b => key a < key b))
    (hp : l.Perm l') : l = l' :=
  List.Perm.eq_of_pairwise (le := fun a b => key a < key b)
    (fun a b _ _ h1 h2 => absurd h1 (not_lt_of_gt h2)) h h' hp

theorem mapE_perm {α β : Type} {f : α → Except PyErr β} {l l' : List α} {r : List β}
    (h : mapE f l = .ok r) (hp : l.Perm l') : ∃ r', mapE f l' = .ok r' ∧ r.Perm r' := by
  induction hp generalizing r with
  | nil => exact ⟨r, h, List.Perm.refl _⟩
  | cons a _ ih =>
    simp only [mapE, bind_ok, pure_ok] at h ⊢
    obtain ⟨b, hb, bs, hbs, rfl⟩ := h
    obtain ⟨r', h1, h2⟩ := ih hbs
    exact ⟨b :: r', ⟨b, hb, r', h1, rfl⟩, h2.cons b⟩
  | swap a b l =>
    simp only [mapE, bind_ok, pure_ok] at h ⊢
    obtain ⟨x, hx, bs, ⟨y, hy, bs', hbs', rfl⟩, rfl⟩ := h
    exact ⟨y :: x :: bs', ⟨y, hy, _, ⟨x, hx, bs', hbs', rfl⟩, rfl⟩, List.Perm.swap _ _ _⟩
  | trans _ _ ih1 ih2 =>
    obtain ⟨r1, h1, p1⟩ := ih1 h
    obtain ⟨r2, h2, p2⟩ := ih2 h1
    exact ⟨r2, h2, p1.trans p2⟩

section
variable {K : Type} [Field K] [LinearOrder K] [FloorRing K]

/-- What `loadCase` guarantees. -/
structure LoadInvs (n : Network K) (bl : List (Bus K)) (brl : List (Line K)) (dl : List (Device K))
    (buses : List (Bus K)) (branches : List (Branch K)) (devices : List (Device K)) : Prop where
  hbl : mapE mkBus n.bus = .ok bl
  hbrl : mapE (fun r => mkLine r n.baseMVA (buses.map Bus.id)) n.branch = .ok brl
  hdl : mapE (fun r => mkDevice r (buses.map Bus.id) n.baseMVA) n.device = .ok dl
  hbuses : buses = (sortDict (dictOf Bus.id bl)).map (·.2)
  hbranches : branches = ((dictOf (fun l : Line K => (l.fBus, l.tBus)) brl).map (·.2)).map
    (fun l => { line := l })
  hdevices : devices = (sortDict (dictOf Device.id dl)).map (·.2)

theorem loadCase_ok {n : Network K} {r : List (Bus K) × List (Branch K) × List (Device K)} :
    loadCase n = .ok r ↔ ∃ bl brl dl, LoadInvs n bl brl dl r.1 r.2.1 r.2.2 := by
  obtain ⟨r1, r2, r3⟩ := r
  simp only [loadCase, bind_ok, pure_ok, Prod.mk.injEq]
  constructor
  · rintro ⟨bl, h1, brl, h2, dl, h3, h4, h5, h6⟩
    exact ⟨bl, brl, dl, ⟨h1, h4 ▸ h2, h4 ▸ h3, h4.symm, h5.symm, h6.symm⟩⟩
  · rintro ⟨bl, brl, dl, I⟩
    refine ⟨bl, I.hbl, brl, ?_, dl, ?_, I.hbuses.symm, I.hbranches.symm, I.hdevices.symm⟩
    · have := I.hbrl; rw [I.hbuses] at this; exact this
    · have := I.hdl; rw [I.hbuses] at this; exact this

theorem mkSim_ok {n : Network K} {dt lam : X K} {s : Sim K} :
    mkSim n dt lam = .ok s ↔ (checkNetwork n = .ok () ∧
      ybusCheck (s.buses.map Bus.id) (s.branches.map fun b => (b.line.fBus, b.line.tBus)) = .ok ()) ∧
      ∃ buses branches devices bl brl dl,
      LoadInvs n bl brl dl buses branches devices ∧
      s = { baseMVA := n.baseMVA, deltaT := dt, lamb := lam,
            buses := buses.map (busBounds devices), branches, devices } := by
  simp only [mkSim, bind_ok, pure_ok]
  constructor
  · rintro ⟨_, h1, ⟨b, br, d⟩, h2, _, hy, rfl⟩
    obtain ⟨bl, brl, dl, I⟩ := loadCase_ok.1 h2
    refine ⟨⟨h1, ?_⟩, b, br, d, bl, brl, dl, I, rfl⟩
    simpa only [List.map_map, Function.comp_def, busBounds] using hy
  · rintro ⟨⟨h1, hy⟩, b, br, d, bl, brl, dl, I, rfl⟩
    refine ⟨(), h1, (b, br, d), loadCase_ok.2 ⟨bl, brl, dl, I⟩, (), ?_, rfl⟩
    simpa only [List.map_map, Function.comp_def, busBounds] using hy

@[simp] theorem busBounds_id (ds : List (Device K)) (b : Bus K) : (busBounds ds b).id = b.id := rfl

theorem mem_sortDict_values {β : Type} (key : β → ℤ) {l : List β} {x : β}
    (h : x ∈ (sortDict (dictOf key l)).map (·.2)) : x ∈ l := by
  obtain ⟨e, he, rfl⟩ := List.mem_map.1 h
  exact (dictOf_mem key l ((sortDict_perm _).mem_iff.1 he)).2

namespace LoadInvs
variable {n : Network K} {bl : List (Bus K)} {brl : List (Line K)} {dl : List (Device K)}
  {buses : List (Bus K)} {branches : List (Branch K)} {devices : List (Device K)}

theorem buses_sorted (I : LoadInvs n bl brl dl buses branches devices) :
    buses.Pairwise (fun a b => a.id < b.id) := by
  rw [I.hbuses]; exact sortDict_strict _ _ (dictOf_inv _ _)

theorem devices_sorted (I : LoadInvs n bl brl dl buses branches devices) :
    devices.Pairwise (fun a b => a.id < b.id) := by
  rw [I.hdevices]; exact sortDict_strict _ _ (dictOf_inv _ _)

/-- Every device object comes from a row of the file. -/
theorem device_row (I : LoadInvs n bl brl dl buses branches devices) {d : Device K}
    (h : d ∈ devices) : ∃ r ∈ n.device, mkDevice r (buses.map Bus.id) n.baseMVA = .ok d := by
  rw [I.hdevices] at h
  exact mapE_mem I.hdl (mem_sortDict_values _ h)

theorem bus_row (I : LoadInvs n bl brl dl buses branches devices) {b : Bus K}
    (h : b ∈ buses) : ∃ r ∈ n.bus, mkBus r = .ok b := by
  rw [I.hbuses] at h
  exact mapE_mem I.hbl (mem_sortDict_values _ h)

theorem branch_row (I : LoadInvs n bl brl dl buses branches devices) {b : Branch K}
    (h : b ∈ branches) : ∃ r ∈ n.branch, mkLine r n.baseMVA (buses.map Bus.id) = .ok b.line := by
  rw [I.hbranches] at h
  obtain ⟨l, hl, rfl⟩ := List.mem_map.1 h
  obtain ⟨e, he, rfl⟩ := List.mem_map.1 hl
  exact mapE_mem I.hbrl (dictOf_mem _ _ he).2

theorem perm_buses (I : LoadInvs n bl brl dl buses branches devices)
    (h : (bl.map Bus.id).Nodup) : buses.Perm bl := by
  rw [I.hbuses]
  refine ((sortDict_perm _).map _).trans ?_
  rw [dictOf_distinct _ _ h, List.map_map]
  simp [Function.comp_def]

theorem perm_devices (I : LoadInvs n bl brl dl buses branches devices)
    (h : (dl.map Device.id).Nodup) : devices.Perm dl := by
  rw [I.hdevices]
  refine ((sortDict_perm _).map _).trans ?_
  rw [dictOf_distinct _ _ h, List.map_map]
  simp [Function.comp_def]

theorem eq_branches (I : LoadInvs n bl brl dl buses branches devices)
    (h : (brl.map (fun l => (l.fBus, l.tBus))).Nodup) : branches = brl.map (fun l => { line := l }) := by
  rw [I.hbranches, dictOf_distinct _ _ h, List.map_map, List.map_map]
  rfl

end LoadInvs

end

end Anm
