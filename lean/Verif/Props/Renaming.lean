import Verif.Props.State
import Verif.Props.Total
import Verif.Lemmas.Env
import Verif.Props.BaseUnits
import Mathlib.Logic.Equiv.Basic

/-! # C134: the IDs of the devices are only names

Giving other IDs to the devices of a network file — and using them in the arguments — changes nothing but the names, and the order in which
vectors list the devices. -/

set_option linter.unusedSectionVars false

namespace Anm

open Spec

namespace Spec
variable {K : Type} [Field K] [LinearOrder K]

/-- A device row under its new ID. -/
def renamedRow [FloorRing K] (f : ℤ → ℤ) (row : DevRow K) : DevRow K
  | .devId => (row .devId).map fun x => match x with
    | .fin y => .fin (f ⌊y⌋ : K)
    | x => x
  | c => row c

/-- The network file in which device `i` is called `f i`. -/
def renamed [FloorRing K] (f : ℤ → ℤ) (n : Network K) : Network K := { n with device := n.device.map (renamedRow f) }

/-- A device under its new ID. -/
def rename (f : ℤ → ℤ) (d : Device K) : Device K := { d with id := f d.id }

/-- Two simulators of the same network, up to the names of the devices. -/
structure SameBut (f : ℤ → ℤ) (s s' : Sim K) : Prop where
  base : s'.baseMVA = s.baseMVA
  dt : s'.deltaT = s.deltaT
  lamb : s'.lamb = s.lamb
  buses : s'.buses = s.buses
  branches : s'.branches = s.branches
  devices : (s.devices.map (rename f)).Perm s'.devices
  sorted : s.devices.Pairwise fun a b => a.id < b.id
  sorted' : s'.devices.Pairwise fun a b => a.id < b.id

/-- The same arguments, up to the names of the devices. -/
structure ArgsRenamed (f : ℤ → ℤ) (a a' : Sim.Args K) : Prop where
  pLoad : ∀ i, a'.pLoad.get? (f i) = a.pLoad.get? i
  pPot : ∀ i, a'.pPot.get? (f i) = a.pPot.get? i
  pSet : ∀ i, a'.pSet.get? (f i) = a.pSet.get? i
  qSet : ∀ i, a'.qSet.get? (f i) = a.qSet.get? i

/-- The new name of an entry of the state: only those of the devices change. -/
def entryName (f : ℤ → ℤ) (key : Key) (i : Ident) : Ident :=
  match i with
  | .node j => if key ∈ [Key.devP, .devQ, .desSoc, .genPMax] then .node (f j) else .node j
  | i => i

/-- The same state, up to the names of the devices: the same variables, with the same values. -/
def StateRenamed (f : ℤ → ℤ) (st st' : SimState K) : Prop :=
  st'.map (·.1) = st.map (·.1) ∧ ∀ key u i, reading st' key u (entryName f key i) = reading st key u i

/-- The number of devices of a kind with an ID smaller than `i`: the position of device `i` in a vector that lists the devices of this kind. -/
def place (kind : Device K → Bool) (s : Sim K) (i : ℤ) : ℕ := (s.devices.filter fun d => kind d && decide (d.id < i)).length

/-- Two initial vectors contain the same values for every device. -/
structure VectorRenamed (f : ℤ → ℤ) (s s' : Sim K) (v v' : List (X K)) : Prop where
  size : 2 * s.nDevice + s.nDes + s.nNonSlackGen ≤ v.length
  size' : v'.length = v.length
  p : ∀ d ∈ s.devices, v'[place (fun _ => true) s' (f d.id)]? = v[place (fun _ => true) s d.id]?
  q : ∀ d ∈ s.devices, v'[s.nDevice + place (fun _ => true) s' (f d.id)]? = v[s.nDevice + place (fun _ => true) s d.id]?
  soc : ∀ d ∈ s.devices, d.isStorage = true →
    v'[2 * s.nDevice + place Device.isStorage s' (f d.id)]? = v[2 * s.nDevice + place Device.isStorage s d.id]?
  pMax : ∀ d ∈ s.devices, d.isNonSlackGen = true →
    v'[2 * s.nDevice + s.nDes + place Device.isNonSlackGen s' (f d.id)]? = v[2 * s.nDevice + s.nDes + place Device.isNonSlackGen s d.id]?

end Spec

/-! ### Transitions -/

section
variable {K : Type} [Field K] [LinearOrder K] [IsStrictOrderedRing K] {f : ℤ → ℤ}

theorem foldl_add_perm {α : Type} (g : α → X K) {l l' : List α} (h : l.Perm l') (a : X K) :
    l.foldl (fun a b => a + g b) a = l'.foldl (fun a b => a + g b) a := by
  refine h.foldl_eq' (fun x _ y _ z => ?_) a
  generalize g x = u
  generalize g y = w
  cases z <;> cases u <;> cases w <;> first
    | rfl
    | (show X.fin _ = X.fin _
       congr 1
       ring)

theorem getE_of_get? {a a' : Dict ℤ (X K)} {i j : ℤ} (h : a'.get? j = a.get? i) : a'.getE j = a.getE i := by
  unfold Dict.getE; rw [h]

theorem except_map_id {ε α : Type} (x : Except ε α) : x = x.map id := by cases x <;> rfl

theorem bind_named {ε α β β' : Type} {x : Except ε α} {g : α → Except ε β} {g' : α → Except ε β'} {h : β → β'}
    (hg : ∀ a, g' a = (g a).map h) : (x >>= g') = (x >>= g).map h := by
  cases x
  · rfl
  · exact hg _

theorem project_rename (qp : QP K) (rows : List (HalfPlane K)) (d : Device K) (p q : X K) :
    Device.project qp rows (rename f d) p q = (Device.project qp rows d p q).map (rename f) := by
  unfold Device.project
  cases qp rows (p, q) <;> rfl

theorem mapStorage_rename (qp : QP K) (d : Device K) (p q dt : X K) :
    (rename f d).mapStorage qp p q dt = (d.mapStorage qp p q dt).map (rename f) := by
  unfold Device.mapStorage
  show (d.storageConstraints dt >>= _) = _
  exact bind_named fun rows => project_rename qp rows d p q

theorem updateSoc_rename (d : Device K) (dt : X K) : (rename f d).updateSoc dt = (d.updateSoc dt).map (rename f) := by
  unfold Device.updateSoc
  show (match d.soc with | none => _ | some soc => _) = _
  cases d.soc <;> rfl

theorem stepDevice_rename {a a' : Sim.Args K} (ha : ArgsRenamed f a a') (qp : QP K) (m dt : X K) (d : Device K) :
    Sim.stepDevice qp m dt a' (rename f d) = (Sim.stepDevice qp m dt a d).map (rename f) := by
  unfold Sim.stepDevice
  rw [show (rename f d).isLoad = d.isLoad from rfl, show (rename f d).isNonSlackGen = d.isNonSlackGen from rfl,
    show (rename f d).isStorage = d.isStorage from rfl, show (rename f d).isSlack = d.isSlack from rfl, show (rename f d).id = f d.id from rfl,
    getE_of_get? (ha.pLoad d.id), getE_of_get? (ha.pPot d.id)]
  split
  · exact bind_named fun x => rfl
  split
  · refine bind_named fun x => ?_
    show (a'.pSet.getE (f d.id) >>= fun p => a'.qSet.getE (f d.id) >>= fun q =>
      Device.project qp (d.setPPot (X.clip (x / m) d.pMin d.pMax)).genConstraints (rename f (d.setPPot (X.clip (x / m) d.pMin d.pMax))) (p / m) (q / m)) = _
    rw [getE_of_get? (ha.pSet d.id), getE_of_get? (ha.qSet d.id)]
    exact bind_named fun p => bind_named fun q => project_rename qp _ _ _ _
  split
  · rw [getE_of_get? (ha.pSet d.id), getE_of_get? (ha.qSet d.id)]
    refine bind_named fun p => bind_named fun q => ?_
    rw [mapStorage_rename]
    cases d.mapStorage qp (p / m) (q / m) dt
    · rfl
    · exact updateSoc_rename _ _
  split <;> rfl

/-- A loop over the devices of both simulators. -/
theorem mapE_rename {g g' : Device K → Except PyErr (Device K)} (h : ∀ d, g' (rename f d) = (g d).map (rename f))
    {l l' r : List (Device K)} (hp : (l.map (rename f)).Perm l') (hr : mapE g l = .ok r) :
    ∃ r', mapE g' l' = .ok r' ∧ (r.map (rename f)).Perm r' := by
  have e' : mapE g' (l.map (rename f)) = .ok (r.map (rename f)) := by
    rw [mapE_units (f := g) (h := rename f) l fun d _ => h d, hr]; rfl
  exact mapE_perm e' hp


theorem busInjections_rename {l l' : List (Device K)} (hp : (l.map (rename f)).Perm l') (b : Bus K) :
    Sim.busInjections l' b = Sim.busInjections l b := by
  have h := hp.filter (fun d => decide (d.busId = b.id))
  unfold Sim.busInjections
  dsimp only
  rw [← foldl_add_perm Device.p h, ← foldl_add_perm Device.q h, List.filter_map, List.foldl_map, List.foldl_map]
  rfl

theorem eLoss_rename {l l' : List (Device K)} (hp : (l.map (rename f)).Perm l') :
    l'.foldl Sim.eLossStep 0 = l.foldl Sim.eLossStep 0 := by
  rw [← hp.foldl_eq' (f := Sim.eLossStep) (fun x _ y _ z => ?_) 0, List.foldl_map]
  · rfl
  · unfold Sim.eLossStep
    dsimp only
    generalize X.maximum 0 (x.pPot - x.p) = u
    generalize X.maximum 0 (y.pPot - y.p) = w
    generalize x.p = u'
    generalize y.p = w'
    haveI : Std.Associative (α := X K) (· + ·) := ⟨fun a b c => by
      cases a <;> cases b <;> cases c <;> first
        | rfl
        | exact congrArg X.fin (add_assoc _ _ _)⟩
    haveI : Std.Commutative (α := X K) (· + ·) := ⟨fun a b => by
      cases a <;> cases b <;> first
        | rfl
        | exact congrArg X.fin (add_comm _ _)⟩
    split_ifs <;> first
      | rfl
      | ac_rfl

theorem ids_of_sameConfig {s t : Sim K} (h : SameConfig s t) : t.devices.map Device.id = s.devices.map Device.id := by
  have := h.devices
  revert this
  generalize s.devices = l
  generalize t.devices = l'
  intro h
  induction h with
  | nil => rfl
  | cons hab _ ih =>
    rw [List.map_cons, List.map_cons, ih]
    congr 1
    rw [hab]

theorem sorted_of_sameConfig {s t : Sim K} (h : SameConfig s t) (hs : s.devices.Pairwise fun a b => a.id < b.id) :
    t.devices.Pairwise fun a b => a.id < b.id := by
  have e := ids_of_sameConfig h
  have : (s.devices.map Device.id).Pairwise (· < ·) := List.pairwise_map.2 hs
  rw [← e] at this
  exact List.pairwise_map.1 this

/-- The loop of `applyPF` over the devices. -/
def slackOf (o : PFOut K) (buses : List (Bus K)) (d : Device K) : Except PyErr (Device K) :=
  if d.isSlack then
    match (buses.mapIdx fun k b => { b with v := o.v k, i := o.i k, p := if b.isSlack then Sim.nanToInf o.slackP else b.p, q := if b.isSlack then Sim.nanToInf o.slackQ else b.q }).find? (fun b => b.id = d.busId) with
    | some b => .ok { d with p := b.p, q := b.q }
    | none => .error .keyError
  else .ok d

/-- The buses after `applyPF`. -/
def solvedBuses (o : PFOut K) (buses : List (Bus K)) : List (Bus K) :=
  buses.mapIdx fun k b => { b with v := o.v k, i := o.i k, p := if b.isSlack then Sim.nanToInf o.slackP else b.p, q := if b.isSlack then Sim.nanToInf o.slackQ else b.q }

theorem applyPF_eq (s : Sim K) (o : PFOut K) : s.applyPF o = (mapE (slackOf o s.buses) s.devices >>= fun ds =>
    pure { s with buses := solvedBuses o s.buses, devices := ds, branches := s.branches.mapIdx fun k b => { b with flow := o.flow k } }) := by
  unfold Sim.applyPF slackOf
  rfl

/-- Steps 1-5 of a transition. -/
theorem solveStep_rename {c : Ctx K} {s s' t : Sim K} {a a' : Sim.Args K} (hb : s'.baseMVA = s.baseMVA) (hdt : s'.deltaT = s.deltaT)
    (hl : s'.lamb = s.lamb) (hbus : s'.buses = s.buses) (hbr : s'.branches = s.branches) (hp : (s.devices.map (rename f)).Perm s'.devices)
    (ha : ArgsRenamed f a a') (h : s.solveStep c a = .ok t) :
    ∃ t', s'.solveStep c a' = .ok t' ∧ t'.baseMVA = t.baseMVA ∧ t'.deltaT = t.deltaT ∧ t'.lamb = t.lamb ∧ t'.buses = t.buses ∧
      t'.branches = t.branches ∧ (t.devices.map (rename f)).Perm t'.devices ∧ t'.pfeConverged = t.pfeConverged := by
  unfold Sim.solveStep at h ⊢
  simp only [applyPF_eq, bind_ok] at h
  simp only [applyPF_eq]
  obtain ⟨ds, h1, o, h2, s2, ⟨ds2, h3, h4⟩, h5⟩ := h
  cases h4
  cases h5
  obtain ⟨ds', e1, p1⟩ := mapE_rename (stepDevice_rename ha c.qp s.baseMVA s.deltaT) hp h1
  have eb : s'.buses.map (Sim.busInjections ds') = s.buses.map (Sim.busInjections ds) := by
    rw [hbus]; exact List.map_congr_left fun b _ => busInjections_rename p1 b
  simp only [bind, Except.bind]
  rw [hb, hdt, e1]
  dsimp only
  simp only [eb, hbr]
  have e2 : c.pf (Sim.pfIn { s' with baseMVA := s.baseMVA, deltaT := s.deltaT, branches := s.branches, devices := ds', buses := s.buses.map (Sim.busInjections ds) }) = .ok o := h2
  rw [e2]
  dsimp only
  have hg : ∀ d : Device K, slackOf o (s.buses.map (Sim.busInjections ds)) (rename f d) = (slackOf o (s.buses.map (Sim.busInjections ds)) d).map (rename f) := by
    intro d
    show (if d.isSlack then (match List.find? (fun b : Bus K => decide (b.id = d.busId)) _ with | some b => _ | none => _) else _) = Except.map _ (if d.isSlack then _ else _)
    split
    · generalize List.find? _ _ = r
      cases r <;> rfl
    · rfl
  obtain ⟨ds2', e3, p2⟩ := mapE_rename hg p1 h3
  simp only [e3, pure, Except.pure]
  exact ⟨_, rfl, rfl, rfl, hl, rfl, rfl, p2, rfl⟩

/-! ### The state -/

theorem get?_perm {α β : Type} [DecidableEq α] {d d' : Dict α β} (h : d.Perm d') (hn : (d.map (·.1)).Nodup) (i : α) : d'.get? i = d.get? i := by
  have key : ∀ {d : Dict α β}, (d.map (·.1)).Nodup → ∀ v, d.get? i = some v ↔ (i, v) ∈ d := by
    intro d
    induction d with
    | nil => simp [Dict.get?]
    | cons e d ih =>
      intro hn v
      rw [List.map_cons, List.nodup_cons] at hn
      unfold Dict.get? at ih ⊢
      rw [List.find?_cons]
      by_cases hi : e.1 = i
      · subst hi
        simp only [decide_true, Option.map_some, Option.some.injEq, List.mem_cons]
        constructor
        · rintro rfl; left; rfl
        · rintro (h | h)
          · rw [← h]
          · exact absurd (List.mem_map_of_mem (f := (·.1)) h) hn.1
      · simp only [hi, decide_false, List.mem_cons]
        rw [ih hn.2]
        constructor
        · exact Or.inr
        · rintro (h | h)
          · rw [← h] at hi; exact absurd rfl hi
          · exact h
  have hn' : (d'.map (·.1)).Nodup := (h.map _).nodup_iff.1 hn
  refine Option.ext fun v => ?_
  rw [key hn, key hn', h.mem_iff]

/-- A dictionary of devices, read under the new name. -/
theorem get?_rename (hf : Function.Injective f) {β : Type} {d d' : Dict Ident β} (hn : (d.map (·.1)).Nodup) 
    (h : (d.map fun e => (entryName f .devP e.1, e.2)).Perm d') (i : Ident) : d'.get? (entryName f .devP i) = d.get? i := by
  have hinj : Function.Injective (entryName f .devP) := by
    intro a b hab
    cases a <;> cases b <;> simp_all [entryName]
    exact hf hab
  rw [get?_perm h]
  · clear h hn
    induction d with
    | nil => rfl
    | cons e d ih =>
      unfold Dict.get? at ih ⊢
      rw [List.map_cons, List.find?_cons, List.find?_cons]
      by_cases hi : e.1 = i
      · subst hi; simp
      · simp only [hi, hinj.ne hi, decide_false]
        exact ih
  · rw [List.map_map]
    have : ((d.map (·.1)).map (entryName f .devP)).Nodup := hn.map hinj
    rwa [List.map_map] at this

theorem entryName_other (key : Key) (h : key ∉ [Key.devP, .devQ, .desSoc, .genPMax]) (i : Ident) : entryName f key i = i := by
  cases i <;> simp only [entryName, if_neg h]

theorem entryName_dev (key : Key) (h : key ∈ [Key.devP, .devQ, .desSoc, .genPMax]) (i : Ident) : entryName f key i = entryName f .devP i := by
  cases i with
  | node j => simp only [entryName]; rw [if_pos h, if_pos (by decide)]
  | _ => rfl

/-- Quantities of the devices, read under the new names. -/
theorem renamed_reading (hf : Function.Injective f) {l l' : List (Device K)} (hn : (l.map Device.id).Nodup) (hp : (l.map (rename f)).Perm l')
    (g : Device K → X K) (hg : ∀ d, g (rename f d) = g d) (i : Ident) :
    Dict.get? (l'.map fun d => (Ident.node d.id, g d)) (entryName f .devP i) = Dict.get? (l.map fun d => (Ident.node d.id, g d)) i := by
  refine get?_rename hf ?_ ?_ i
  · rw [List.map_map]
    have := hn.map (f := Ident.node) (fun a b h => by cases h; rfl)
    rwa [List.map_map] at this
  · have := hp.map fun d => (Ident.node d.id, g d)
    rw [List.map_map] at this ⊢
    refine (List.Perm.of_eq ?_).trans this
    refine List.map_congr_left fun d _ => ?_
    simp only [Function.comp_apply, hg]
    rfl

theorem gatherState_rename (hf : Function.Injective f) {pi : K} {s s' : Sim K} {st : SimState K} (hb : s'.baseMVA = s.baseMVA) (hbus : s'.buses = s.buses)
    (hbr : s'.branches = s.branches) (hp : (s.devices.map (rename f)).Perm s'.devices) (hn : (s.devices.map Device.id).Nodup)
    (h : s.gatherState pi = .ok st) : ∃ st', s'.gatherState pi = .ok st' ∧ StateRenamed f st st' := by
  unfold Sim.gatherState at h ⊢
  simp only [bind_ok] at h
  obtain ⟨soc, h1, h2⟩ := h
  have hfil : ∀ q : Device K → Bool, (∀ d, q (rename f d) = q d) → ((s.devices.filter q).map (rename f)).Perm (s'.devices.filter q) := by
    intro q hq
    have := hp.filter q
    rw [List.filter_map] at this
    refine (List.Perm.of_eq ?_).trans this
    congr 1
    exact List.filter_congr fun d _ => (hq d).symm
  have hnf : ∀ q : Device K → Bool, ((s.devices.filter q).map Device.id).Nodup := fun q => (List.filter_sublist.map _).nodup hn
  have p1 := hfil Device.isStorage (fun _ => rfl)
  have p2 := hfil Device.isNonSlackGen (fun _ => rfl)
  have e1 := mapE_units (f := fun d : Device K => match d.soc with | none => (.error .typeError : Except PyErr (Ident × X K)) | some x => .ok (Ident.node d.id, x))
    (f' := fun d : Device K => match d.soc with | none => (.error .typeError : Except PyErr (Ident × X K)) | some x => .ok (Ident.node d.id, x))
    (g := rename f) (h := fun e => (entryName f .devP e.1, e.2)) (s.devices.filter Device.isStorage) (fun d _ => by
      show (match d.soc with | none => _ | some x => _) = _
      cases d.soc <;> rfl)
  have h1' : mapE (fun d : Device K => match d.soc with | none => (.error .typeError : Except PyErr (Ident × X K)) | some x => .ok (Ident.node d.id, x))
    (s.devices.filter Device.isStorage) = .ok soc := h1
  rw [h1'] at e1
  obtain ⟨soc', e2, p3⟩ := mapE_perm e1 p1
  have e2' : mapE (fun d : Device K => match d.soc with | none => (.error .typeError : Except PyErr (Ident × X K)) | some x => .ok (Ident.node d.id, x))
    (s'.devices.filter Device.isStorage) = .ok soc' := e2
  have hns : (soc.map (·.1)).Nodup := by
    have hk : soc.map (·.1) = ((s.devices.filter Device.isStorage).map Device.id).map Ident.node := by
      have := mapE_ok.1 h1
      revert this
      generalize s.devices.filter Device.isStorage = l
      intro h
      clear e1 e2 e2' p3 h1 h1' h2
      induction h with
      | nil => rfl
      | @cons d e _ _ hd _ ih =>
        rw [List.map_cons, List.map_cons, List.map_cons, ih]
        congr 1
        cases hs : d.soc with
        | none => rw [hs] at hd; cases hd
        | some x => rw [hs] at hd; cases hd; rfl
    rw [hk]
    exact (hnf _).map fun a b h => by cases h; rfl
  refine ⟨_, by simp only [bind_ok]; exact ⟨soc', e2', rfl⟩, ?_⟩
  cases h2
  refine ⟨rfl, fun key u i => ?_⟩
  by_cases hkey : key ∈ [Key.devP, .devQ, .desSoc, .genPMax]
  · rw [entryName_dev key hkey]
    simp only [List.mem_cons, List.not_mem_nil, or_false] at hkey
    rcases hkey with rfl | rfl | rfl | rfl
    · cases u <;> first
        | rfl
        | exact renamed_reading hf hn hp (fun d => d.p) (fun _ => rfl) i
        | (show Dict.get? (s'.devices.map fun d => (Ident.node d.id, d.p * s'.baseMVA)) _ = _
           rw [hb]; exact renamed_reading hf hn hp (fun d => d.p * s.baseMVA) (fun _ => rfl) i)
    · cases u <;> first
        | rfl
        | exact renamed_reading hf hn hp (fun d => d.q) (fun _ => rfl) i
        | (show Dict.get? (s'.devices.map fun d => (Ident.node d.id, d.q * s'.baseMVA)) _ = _
           rw [hb]; exact renamed_reading hf hn hp (fun d => d.q * s.baseMVA) (fun _ => rfl) i)
    · cases u <;> first
        | rfl
        | exact get?_rename hf hns p3 i
        | (show Dict.get? (soc'.map fun e => (e.1, e.2 * s'.baseMVA)) _ = Dict.get? (soc.map fun e => (e.1, e.2 * s.baseMVA)) _
           rw [hb, get?_scale soc' (· * s.baseMVA), get?_scale soc (· * s.baseMVA)]
           exact congrArg _ (get?_rename hf hns p3 i))
    · cases u <;> first
        | rfl
        | exact renamed_reading hf (hnf _) p2 (fun d => d.pPot) (fun _ => rfl) i
        | (show Dict.get? ((s'.devices.filter Device.isNonSlackGen).map fun d => (Ident.node d.id, d.pPot * s'.baseMVA)) _ = _
           rw [hb]; exact renamed_reading hf (hnf _) p2 (fun d => d.pPot * s.baseMVA) (fun _ => rfl) i)
  · rw [entryName_other key hkey, hb, hbus, hbr]
    cases key <;> first
      | exact absurd (by decide) hkey
      | rfl

theorem nodup_of_sorted {l : List (Device K)} (h : l.Pairwise fun a b => a.id < b.id) : (l.map Device.id).Nodup :=
  List.pairwise_map.2 (h.imp fun h => h.ne)

/-- **C134.** One time step: the renamed simulator, given the same values under the new names, reaches the same state under the new names, with
the same rewards, energy loss, penalty and convergence flag. -/
theorem C134_transition (hf : Function.Injective f) {c : Ctx K} {s s' t : Sim K} {a a' : Sim.Args K} {out : Sim.TransOut K} (hs : SameBut f s s')
    (ha : ArgsRenamed f a a') (h : s.transition c a = .ok (t, out)) :
    ∃ t' st st', s'.transition c a' = .ok (t', out) ∧ SameBut f t t' ∧ t.state = some st ∧ t'.state = some st' ∧ StateRenamed f st st' := by
  have hc := sameConfig_transition h
  unfold Sim.transition at h
  simp only [bind_ok] at h
  obtain ⟨s1, h1, st, hst, ⟨r, e, pen⟩, h3, h4⟩ := h
  cases h4
  obtain ⟨s1', e1, b1, b2, b3, b4, b5, b6, b7⟩ := solveStep_rename hs.base hs.dt hs.lamb hs.buses hs.branches hs.devices ha h1
  have hsort : s1.devices.Pairwise fun a b => a.id < b.id := sorted_of_sameConfig (t := { s1 with state := some st }) hc hs.sorted
  obtain ⟨st', e2, hren⟩ := gatherState_rename hf b1 b4 b5 b6 (nodup_of_sorted hsort) hst
  have e3 : Sim.computeReward { s1' with state := some st' } = .ok (r, e, pen) := by
    rw [← h3]
    unfold Sim.computeReward
    dsimp only
    rw [b2, b3, b4, b5, eLoss_rename b6]
  have e4 : s'.transition c a' = .ok ({ s1' with state := some st' }, { reward := r, eLoss := e, penalty := pen, converged := s1.pfeConverged.getD false }) := by
    unfold Sim.transition
    simp only [bind_ok]
    exact ⟨s1', e1, st', e2, _, e3, by rw [b7]; rfl⟩
  exact ⟨_, st, st', e4, ⟨b1, b2, b3, b4, b5, b6, hsort, sorted_of_sameConfig (sameConfig_transition e4) hs.sorted'⟩, rfl, rfl, hren⟩

/-- The renaming can be undone. -/
theorem sameBut_symm {f : Equiv.Perm ℤ} {s s' : Sim K} (h : SameBut f s s') : SameBut f.symm s' s := by
  refine ⟨h.base.symm, h.dt.symm, h.lamb.symm, h.buses.symm, h.branches.symm, ?_, h.sorted', h.sorted⟩
  have := (h.devices.map (rename f.symm)).symm
  rw [List.map_map] at this
  refine this.trans (List.Perm.of_eq ?_)
  have e : (rename f.symm ∘ rename f : Device K → Device K) = id := by
    funext d
    simp [rename]
  rw [e, List.map_id]

theorem argsRenamed_symm {f : Equiv.Perm ℤ} {a a' : Sim.Args K} (h : ArgsRenamed f a a') : ArgsRenamed f.symm a' a := by
  constructor
  · intro i; rw [← h.pLoad, Equiv.apply_symm_apply]
  · intro i; rw [← h.pPot, Equiv.apply_symm_apply]
  · intro i; rw [← h.pSet, Equiv.apply_symm_apply]
  · intro i; rw [← h.qSet, Equiv.apply_symm_apply]

/-- **C134.** A time step raises an exception under the new names exactly if it does under the old ones. -/
theorem C134_raises {f : Equiv.Perm ℤ} {c : Ctx K} {s s' : Sim K} {a a' : Sim.Args K} (hs : SameBut f s s') (ha : ArgsRenamed f a a') :
    (∃ e, s.transition c a = .error e) ↔ ∃ e, s'.transition c a' = .error e := by
  have key : ∀ {f : Equiv.Perm ℤ} {s s' : Sim K} {a a' : Sim.Args K}, SameBut f s s' → ArgsRenamed f a a' →
      (∃ e, s.transition c a = .error e) → ∃ e, s'.transition c a' = .error e := by
    intro f s s' a a' hs ha ⟨e, he⟩
    cases h : s'.transition c a' with
    | error e => exact ⟨e, rfl⟩
    | ok r =>
      obtain ⟨t', _, _, h', -⟩ := C134_transition (Equiv.injective _) (sameBut_symm hs) (argsRenamed_symm ha) h
      rw [he] at h'
      cases h'
  exact ⟨key hs ha, key (sameBut_symm hs) (argsRenamed_symm ha)⟩

namespace Spec

/-- Successive time steps: the simulators reached and what the calls return. -/
def record {K : Type} [Field K] [LinearOrder K] (c : Ctx K) : Sim K → List (Sim.Args K) → Except PyErr (List (Sim K × Sim.TransOut K))
  | _, [] => .ok []
  | s, a :: as => do
    let r ← s.transition c a
    let l ← record c r.1 as
    pure (r :: l)

end Spec

/-- **C134.** Runs of any length: the same returned values, and the same states under the new names. -/
theorem C134_run (hf : Function.Injective f) {c : Ctx K} {as as' : List (Sim.Args K)} (ha : List.Forall₂ (ArgsRenamed f) as as')
    {s s' : Sim K} (hs : SameBut f s s') {l : List (Sim K × Sim.TransOut K)} (h : record c s as = .ok l) :
    ∃ l', record c s' as' = .ok l' ∧ List.Forall₂ (fun r r' => r'.2 = r.2 ∧ SameBut f r.1 r'.1 ∧
      ∃ st st', r.1.state = some st ∧ r'.1.state = some st' ∧ StateRenamed f st st') l l' := by
  induction ha generalizing s s' l with
  | nil => cases h; exact ⟨[], rfl, .nil⟩
  | cons ha _ ih =>
    unfold record at h ⊢
    simp only [bind_ok] at h ⊢
    obtain ⟨⟨t, o⟩, h1, l1, h2, h3⟩ := h
    cases h3
    obtain ⟨t', st, st', e1, e2, e3, e4, e5⟩ := C134_transition hf hs ha h1
    obtain ⟨l', e6, e7⟩ := ih e2 h2
    exact ⟨(t', o) :: l', ⟨(t', o), e1, l', e6, rfl⟩, .cons ⟨rfl, e2, st, st', e3, e4, e5⟩ e7⟩

/-! ### The constructor -/

end

section
variable {K : Type} [Field K] [LinearOrder K] [IsStrictOrderedRing K] [FloorRing K] {f : ℤ → ℤ}

theorem deviceCommon_rename {row : DevRow K} {i : ℤ} (h : row .devId = some (.fin (i : K))) (ids : List ℤ) :
    deviceCommon (renamedRow f row) ids = (deviceCommon row ids).map fun r => (f r.1, r.2) := by
  unfold deviceCommon
  rw [show renamedRow f row .devId = some (.fin (f i : K)) by simp [renamedRow, h], h,
    show renamedRow f row .busId = row .busId from rfl, show renamedRow f row .devType = row .devType from rfl]
  have e : ∀ j : ℤ, (readCell (some (.fin (j : K))) (throw .deviceSpecError) (fun _ => False) .deviceSpecError _root_.id : Except PyErr (X K)) = .ok (.fin (j : K)) := by
    intro j; simp [readCell, guardE, bind, Except.bind, pure, Except.pure]
  rw [e, e]
  simp only [bind, Except.bind, toInt_intCast]
  cases endpoint (row .busId) ids PyErr.deviceSpecError with
  | error _ => rfl
  | ok b =>
    dsimp only
    generalize readCell (row .devType) (throw .typeError) (fun t => ¬ inIds t [-1, 0, 1, 2, 3]) .typeError (fun t => decide (X.feq t 0)) = r
    cases r <;> rfl

theorem mkLoad_rename {row : DevRow K} {i : ℤ} (h : row .devId = some (.fin (i : K))) (ids : List ℤ) (m : X K) :
    mkLoad (renamedRow f row) ids m = (mkLoad row ids m).map (rename f) := by
  unfold mkLoad
  refine bind_units _ (deviceCommon_rename h ids) fun ⟨i, b, sl⟩ => ?_
  dsimp only
  iterate 4 refine bind_named fun _ => ?_
  rfl

theorem mkGen_rename (kind : DevKind) {row : DevRow K} {i : ℤ} (h : row .devId = some (.fin (i : K))) (ids : List ℤ) (m : X K) :
    mkGen kind (renamedRow f row) ids m = (mkGen kind row ids m).map (rename f) := by
  unfold mkGen
  refine bind_units _ (deviceCommon_rename h ids) fun ⟨i, b, sl⟩ => ?_
  dsimp only
  iterate 9 refine bind_named fun _ => ?_
  rfl

theorem mkStorage_rename {row : DevRow K} {i : ℤ} (h : row .devId = some (.fin (i : K))) (ids : List ℤ) (m : X K) :
    mkStorage (renamedRow f row) ids m = (mkStorage row ids m).map (rename f) := by
  unfold mkStorage
  refine bind_units _ (deviceCommon_rename h ids) fun ⟨i, b, sl⟩ => ?_
  dsimp only
  iterate 16 refine bind_named fun _ => ?_
  rfl

theorem mkDevice_rename {row : DevRow K} {i : ℤ} (h : row .devId = some (.fin (i : K))) (ids : List ℤ) (m : X K) :
    mkDevice (renamedRow f row) ids m = (mkDevice row ids m).map (rename f) := by
  unfold mkDevice
  refine bind_named fun ty => ?_
  rw [mkLoad_rename h, mkGen_rename _ h, mkGen_rename _ h, mkStorage_rename h]
  split_ifs <;> rfl

theorem renamedRow_other (row : DevRow K) {c : DevCol} (h : c ≠ .devId) : renamedRow f row c = row c := by
  cases c <;> first | rfl | exact absurd rfl h

theorem wellFormed_renamed (hf : Function.Injective f) {n : Network K} (hi : IntegralIds n) (W : WellFormed n) : WellFormed (renamed f n) := by
  refine ⟨W.basePos, W.oneSlackBus, ?_, ?_, W.busIds, ?_, W.simple, W.endpoints⟩
  · obtain ⟨k, a, h1, h2, h3⟩ := W.oneSlackDev
    refine ⟨k, renamedRow f a, ?_, ?_, ?_⟩
    · show (n.device.map _)[k]? = _
      rw [List.getElem?_map, h1]; rfl
    · exact h2
    · intro j b hj hb
      have hj' : (n.device.map (renamedRow f))[j]? = some b := hj
      rw [List.getElem?_map] at hj'
      cases hd : n.device[j]? with
      | none => rw [hd] at hj'; cases hj'
      | some d =>
        rw [hd] at hj'
        cases hj'
        exact h3 j d hd hb
  · intro b hb d hd h1 h2
    obtain ⟨d', hd', rfl⟩ := List.mem_map.1 hd
    exact W.slackMatch b hb d' hd' h1 h2
  · show (n.device.map (renamedRow f)).Pairwise _
    refine List.pairwise_map.2 (W.devIds.imp_of_mem ?_)
    intro a b ha hb hab e
    obtain ⟨i, hi1⟩ := hi.2 a ha
    obtain ⟨j, hj1⟩ := hi.2 b hb
    simp only [renamedRow, hi1, hj1, Option.map_some, Option.some.injEq, X.fin.injEq, Int.floor_intCast, Int.cast_inj] at e
    exact hab (by rw [hi1, hj1, hf e])

/-- **C134.** The constructor accepts the renamed network file, and builds the same simulator up to the names of the devices. -/
theorem C134_construct (hf : Function.Injective f) {n : Network K} {dt lam : X K} {s : Sim K} (hb : n.baseMVA ≠ .nan) (hi : IntegralIds n)
    (h : mkSim n dt lam = .ok s) : ∃ s', mkSim (renamed f n) dt lam = .ok s' ∧ SameBut f s s' := by
  have hn := noNan_of_mkSim h hb
  have W := (C01_checkNetwork_iff hn).1 (mkSim_ok.1 h).1.1
  have hn' : NoNanTopology (renamed f n) := by
    refine ⟨hb, hn.bus, ?_, hn.branch⟩
    intro r hr
    obtain ⟨r', hr', rfl⟩ := List.mem_map.1 hr
    obtain ⟨-, h2, h3⟩ := hn.dev r' hr'
    obtain ⟨i, hi1⟩ := hi.2 r' hr'
    refine ⟨?_, h2, h3⟩
    simp [renamedRow, hi1, CellOk]
  obtain ⟨_, buses, branches, devices, bl, brl, dl, I, rfl⟩ := mkSim_ok.1 h
  obtain ⟨n1, n2, n3⟩ := nodup_of_accepted h hb hi I
  have hdl' : mapE (fun r => mkDevice r (buses.map Bus.id) n.baseMVA) (n.device.map (renamedRow f)) = .ok (dl.map (rename f)) := by
    rw [mapE_units (f := fun r => mkDevice r (buses.map Bus.id) n.baseMVA) (h := rename f) n.device fun r hr => ?_, I.hdl]
    · rfl
    · obtain ⟨i, hi1⟩ := hi.2 r hr
      exact mkDevice_rename hi1 _ _
  have n2' : ((dl.map (rename f)).map Device.id).Nodup := by
    have := n2.map hf
    rw [List.map_map] at this ⊢
    exact this
  have hp : (devices.map (rename f)).Perm ((sortDict (dictOf Device.id (dl.map (rename f)))).map (·.2)) := by
    refine ((I.perm_devices n2).map _).trans (List.Perm.symm (((sortDict_perm _).map _).trans ?_))
    rw [dictOf_distinct _ _ n2', List.map_map]
    simp [Function.comp_def]
  have hbb : buses.map (busBounds ((sortDict (dictOf Device.id (dl.map (rename f)))).map (·.2))) = buses.map (busBounds devices) := by
    refine List.map_congr_left fun b _ => ?_
    have h := hp.filter (fun d => decide (d.busId = b.id))
    unfold busBounds
    dsimp only
    rw [← foldl_add_perm Device.pMin h, ← foldl_add_perm Device.pMax h, ← foldl_add_perm Device.qMin h, ← foldl_add_perm Device.qMax h, List.filter_map,
      List.foldl_map, List.foldl_map, List.foldl_map, List.foldl_map]
    rfl
  refine ⟨{ baseMVA := n.baseMVA, deltaT := dt, lamb := lam, buses := buses.map (busBounds devices), branches := branches, devices := (sortDict (dictOf Device.id (dl.map (rename f)))).map (·.2) }, ?_, ?_⟩
  · refine mkSim_ok.2 ⟨⟨(C01_checkNetwork_iff hn').2 (wellFormed_renamed hf hi W), (mkSim_ok.1 h).1.2⟩, buses, branches, (sortDict (dictOf Device.id (dl.map (rename f)))).map (·.2), bl, brl, dl.map (rename f), ?_, ?_⟩
    · exact ⟨I.hbl, I.hbrl, hdl', I.hbuses, I.hbranches, rfl⟩
    · rw [hbb]; rfl
  · exact ⟨rfl, rfl, rfl, rfl, rfl, hp, I.devices_sorted, sortDict_strict _ _ (dictOf_inv _ _)⟩

end

section
variable {K : Type} [Field K] [LinearOrder K] [IsStrictOrderedRing K] [FloorRing K] {f : ℤ → ℤ}

/-! ### Reset -/

/-- `resetArgs` sets nothing that it does not need. -/
theorem resetArgs_keep {pDev qDev pMax : List (X K)} {ds : List (Device K)} {i g : ℕ} {a a' : Sim.Args K}
    (h : Sim.resetArgs pDev qDev pMax ds i g a = .ok a') (j : ℤ) :
    ((∀ d ∈ ds, d.id = j → d.isLoad = false) → a'.pLoad.get? j = a.pLoad.get? j) ∧
    ((∀ d ∈ ds, d.id = j → d.isLoad = true ∨ d.isNonSlackGen = false) → a'.pPot.get? j = a.pPot.get? j) ∧
    ((∀ d ∈ ds, d.id = j → d.isLoad = true ∨ ((d.isGen || d.isStorage) && !d.isSlack) = false) →
      a'.pSet.get? j = a.pSet.get? j ∧ a'.qSet.get? j = a.qSet.get? j) := by
  induction ds generalizing i g a with
  | nil =>
    simp only [Sim.resetArgs, Except.ok.injEq] at h
    subst h
    exact ⟨fun _ => rfl, fun _ => rfl, fun _ => ⟨rfl, rfl⟩⟩
  | cons d ds ih =>
    unfold Sim.resetArgs at h
    split at h
    · rename_i hl
      simp only [bind_ok] at h
      obtain ⟨x, -, h⟩ := h
      obtain ⟨i1, i2, i3⟩ := ih h
      refine ⟨fun H => ?_, fun H => i2 fun d' hd' => H d' (.tail _ hd'), fun H => i3 fun d' hd' => H d' (.tail _ hd')⟩
      rw [i1 fun d' hd' => H d' (.tail _ hd'), Dict.get?_set, if_neg]
      intro e
      have := H d (.head _) e
      rw [hl] at this
      cases this
    · rename_i hl
      split at h
      · rename_i hc
        simp only [bind_ok] at h
        obtain ⟨x, -, y, -, h⟩ := h
        have hne : (∀ d' ∈ d :: ds, d'.id = j → d'.isLoad = true ∨ ((d'.isGen || d'.isStorage) && !d'.isSlack) = false) → d.id ≠ j := by
          intro H e
          rcases H d (.head _) e with h | h
          · exact hl h
          · rw [hc] at h; cases h
        split at h
        · rename_i hg
          simp only [bind_ok] at h
          obtain ⟨z, -, h⟩ := h
          obtain ⟨i1, i2, i3⟩ := ih h
          refine ⟨fun H => i1 fun d' hd' => H d' (.tail _ hd'), fun H => ?_, fun H => ?_⟩
          · rw [i2 fun d' hd' => H d' (.tail _ hd'), Dict.get?_set, if_neg]
            intro e
            rcases H d (.head _) e with h | h
            · exact hl h
            · rw [hg] at h; cases h
          · obtain ⟨e1, e2⟩ := i3 fun d' hd' => H d' (.tail _ hd')
            rw [e1, e2, Dict.get?_set, Dict.get?_set, if_neg (hne H), if_neg (hne H)]
            exact ⟨rfl, rfl⟩
        · obtain ⟨i1, i2, i3⟩ := ih h
          refine ⟨fun H => i1 fun d' hd' => H d' (.tail _ hd'), fun H => i2 fun d' hd' => H d' (.tail _ hd'), fun H => ?_⟩
          obtain ⟨e1, e2⟩ := i3 fun d' hd' => H d' (.tail _ hd')
          rw [e1, e2, Dict.get?_set, Dict.get?_set, if_neg (hne H), if_neg (hne H)]
          exact ⟨rfl, rfl⟩
      · obtain ⟨i1, i2, i3⟩ := ih h
        exact ⟨fun H => i1 fun d' hd' => H d' (.tail _ hd'), fun H => i2 fun d' hd' => H d' (.tail _ hd'), fun H => i3 fun d' hd' => H d' (.tail _ hd')⟩

/-- The place of a device in the vectors is its position in the sorted list. -/
theorem place_eq {s : Sim K} (hs : s.devices.Pairwise fun a b => a.id < b.id) (kind : Device K → Bool) {k : ℕ} {d : Device K}
    (hk : s.devices[k]? = some d) : place kind s d.id = ((s.devices.take k).filter kind).length := by
  unfold place
  obtain ⟨hlt, hd⟩ := List.getElem?_eq_some_iff.1 hk
  have e : s.devices = s.devices.take k ++ s.devices.drop k := (List.take_append_drop k _).symm
  conv_lhs => rw [e]
  rw [List.filter_append, List.length_append]
  have e1 : (s.devices.take k).filter (fun x => kind x && decide (x.id < d.id)) = (s.devices.take k).filter kind := by
    refine List.filter_congr fun x hx => ?_
    obtain ⟨j, hj, rfl⟩ := List.mem_iff_getElem.1 hx
    have hj' : j < k := by simp at hj; omega
    have := List.pairwise_iff_getElem.1 hs j k (by omega) hlt hj'
    rw [hd] at this
    simp [this]
  have e2 : (s.devices.drop k).filter (fun x => kind x && decide (x.id < d.id)) = [] := by
    rw [List.filter_eq_nil_iff]
    intro x hx
    obtain ⟨j, hj, rfl⟩ := List.mem_iff_getElem.1 hx
    simp only [List.getElem_drop, Bool.and_eq_true, decide_eq_true_eq, not_and, not_lt]
    intro _
    rcases Nat.eq_zero_or_pos j with rfl | hpos
    · simp only [Nat.add_zero]; rw [hd]
    · have := List.pairwise_iff_getElem.1 hs k (k + j) hlt (by simp at hj; omega) (by omega)
      rw [hd] at this
      exact this.le
  rw [e1, e2]
  simp

theorem place_all {s : Sim K} (hs : s.devices.Pairwise fun a b => a.id < b.id) {k : ℕ} {d : Device K} (hk : s.devices[k]? = some d) :
    place (fun _ => true) s d.id = k := by
  rw [place_eq hs _ hk]
  obtain ⟨hlt, -⟩ := List.getElem?_eq_some_iff.1 hk
  simp
  omega

theorem slice_get? {α : Type} (v : List α) (a b k : ℕ) (h : k < b - a) : (Sim.slice v a b)[k]? = v[a + k]? := by
  unfold Sim.slice
  rw [List.getElem?_take, if_pos h, List.getElem?_drop]

theorem counts_rename {s s' : Sim K} (hs : SameBut f s s') : s'.nDevice = s.nDevice ∧ s'.nDes = s.nDes ∧ s'.nNonSlackGen = s.nNonSlackGen := by
  refine ⟨?_, ?_, ?_⟩
  · have := hs.devices.length_eq
    rw [List.length_map] at this
    exact this.symm
  · have := (hs.devices.filter Device.isStorage).length_eq
    rw [List.filter_map, List.length_map] at this
    exact this.symm
  · have := (hs.devices.filter Device.isNonSlackGen).length_eq
    rw [List.filter_map, List.length_map] at this
    exact this.symm

/-- A device and its renamed self, by position. -/
theorem positions {s s' : Sim K} (hs : SameBut f s s') {d : Device K} (hd : d ∈ s.devices) :
    ∃ k k' : ℕ, k < s.nDevice ∧ k' < s.nDevice ∧ s.devices[k]? = some d ∧ s'.devices[k']? = some (rename f d) := by
  have hd' : rename f d ∈ s'.devices := hs.devices.mem_iff.1 (List.mem_map_of_mem hd)
  obtain ⟨k, hk, e⟩ := List.mem_iff_getElem.1 hd
  obtain ⟨k', hk', e'⟩ := List.mem_iff_getElem.1 hd'
  have := (counts_rename hs).1
  refine ⟨k, k', hk, ?_, List.getElem?_eq_some_iff.2 ⟨hk, e⟩, List.getElem?_eq_some_iff.2 ⟨hk', e'⟩⟩
  rw [← this]; exact hk'

theorem take_filter_lt (kind : Device K → Bool) {l : List (Device K)} {k : ℕ} {d : Device K} (hk : l[k]? = some d) (hd : kind d = true) :
    ((l.take k).filter kind).length < (l.filter kind).length := by
  obtain ⟨hlt, rfl⟩ := List.getElem?_eq_some_iff.1 hk
  have e : l = l.take k ++ l.drop k := (List.take_append_drop k _).symm
  conv_rhs => rw [e]
  rw [List.filter_append, List.length_append, List.drop_eq_getElem_cons hlt, List.filter_cons, if_pos hd, List.length_cons]
  omega

theorem resetArgs_rename (hf : Function.Injective f) {s s' : Sim K} {v v' : List (X K)} (hs : SameBut f s s') (hv : VectorRenamed f s s' v v')
    {a : Sim.Args K} {n m g : ℕ} (hn : n = s.nDevice) (hm : m = s.nDes) (hg : g = s.nNonSlackGen)
    (h : Sim.resetArgs (Sim.slice v 0 n) (Sim.slice v n (2 * n)) (Sim.slice v (2 * n + m) (2 * n + m + g)) s.devices 0 0
      { pLoad := [], pPot := [], pSet := [], qSet := [] } = .ok a) :
    ∃ a', Sim.resetArgs (Sim.slice v' 0 n) (Sim.slice v' n (2 * n)) (Sim.slice v' (2 * n + m) (2 * n + m + g)) s'.devices 0 0
      { pLoad := [], pPot := [], pSet := [], qSet := [] } = .ok a' ∧ ArgsRenamed f a a' := by
  obtain ⟨c1, c2, c3⟩ := counts_rename hs
  have hsz := hv.size
  have hsz' := hv.size'
  obtain ⟨a', ha'⟩ := resetArgs_total (pDev := Sim.slice v' 0 n) (qDev := Sim.slice v' n (2 * n)) (pMax := Sim.slice v' (2 * n + m) (2 * n + m + g))
    s'.devices 0 0 { pLoad := [], pPot := [], pSet := [], qSet := [] }
    (by unfold Sim.nDevice at *; simp [Sim.slice]; omega) (by unfold Sim.nDevice at *; simp [Sim.slice]; omega)
    (by unfold Sim.nNonSlackGen at *; simp [Sim.slice]; omega)
  refine ⟨a', ha', ?_⟩
  obtain ⟨-, r1⟩ := resetArgs_ok hs.sorted h
  obtain ⟨-, r2⟩ := resetArgs_ok hs.sorted' ha'
  have k1 := resetArgs_keep h
  have k2 := resetArgs_keep ha'
  have back : ∀ {P : Device K → Prop} {i : ℤ}, (∀ d, P (rename f d) = P d) → (∀ d ∈ s.devices, d.id = i → P d) →
      ∀ d ∈ s'.devices, d.id = f i → P d := by
    intro P i hP H d hd e
    obtain ⟨d1, hd1, rfl⟩ := List.mem_map.1 (hs.devices.mem_iff.2 hd)
    rw [hP]
    exact H d1 hd1 (hf e)
  have hp : ∀ {d : Device K} {k k' : ℕ}, k < s.nDevice → k' < s.nDevice → s.devices[k]? = some d → s'.devices[k']? = some (rename f d) →
      (Sim.slice v' 0 n)[0 + k']? = (Sim.slice v 0 n)[0 + k]? ∧ (Sim.slice v' n (2 * n))[0 + k']? = (Sim.slice v n (2 * n))[0 + k]? := by
    intro d k k' hk hk' e e'
    have hd : d ∈ s.devices := List.mem_of_getElem? e
    have q1 := hv.p d hd
    have q2 := hv.q d hd
    rw [place_all hs.sorted e, show f d.id = (rename f d).id from rfl, place_all hs.sorted' e'] at q1 q2
    rw [slice_get? _ _ _ _ (by omega), slice_get? _ _ _ _ (by omega), slice_get? _ _ _ _ (by omega), slice_get? _ _ _ _ (by omega)]
    subst hn
    simp only [Nat.zero_add]
    exact ⟨q1, q2⟩
  constructor
  · intro i
    by_cases hx : ∃ d ∈ s.devices, d.id = i ∧ d.isLoad = true
    · obtain ⟨d, hd, rfl, hl⟩ := hx
      obtain ⟨k, k', hk, hk', e, e'⟩ := positions hs hd
      obtain ⟨x, x1, x2⟩ := (r1 k d e).load hl
      obtain ⟨y, y1, y2⟩ := (r2 k' _ e').load hl
      rw [x2, ← x1, ← (hp hk hk' e e').1, y1]
      exact y2
    · have H : ∀ d ∈ s.devices, d.id = i → d.isLoad = false := fun d hd e => by
        by_contra hc
        exact hx ⟨d, hd, e, by simpa using hc⟩
      rw [(k1 i).1 H, (k2 (f i)).1 (back (P := fun d => d.isLoad = false) (fun _ => rfl) H)]
      rfl
  · intro i
    by_cases hx : ∃ d ∈ s.devices, d.id = i ∧ d.isLoad = false ∧ d.isNonSlackGen = true
    · obtain ⟨d, hd, rfl, hl, hng⟩ := hx
      obtain ⟨k, k', hk, hk', e, e'⟩ := positions hs hd
      obtain ⟨x, x1, x2⟩ := (r1 k d e).pot hl hng
      obtain ⟨y, y1, y2⟩ := (r2 k' _ e').pot hl hng
      have q := hv.pMax d hd hng
      have l1 := take_filter_lt Device.isNonSlackGen e hng
      have l2 := take_filter_lt Device.isNonSlackGen e' hng
      rw [place_eq hs.sorted _ e, show f d.id = (rename f d).id from rfl, place_eq hs.sorted' _ e'] at q
      unfold Sim.nNonSlackGen at c3 hg
      rw [slice_get? _ _ _ _ (by omega)] at x1 y1
      subst hn hm
      simp only [Nat.zero_add] at x1 y1
      rw [x2, ← x1, ← q, y1]
      exact y2
    · have H : ∀ d ∈ s.devices, d.id = i → d.isLoad = true ∨ d.isNonSlackGen = false := fun d hd e => by
        by_contra hc
        rw [not_or] at hc
        exact hx ⟨d, hd, e, by simpa using hc.1, by simpa using hc.2⟩
      rw [(k1 i).2.1 H, (k2 (f i)).2.1 (back (P := fun d => d.isLoad = true ∨ d.isNonSlackGen = false) (fun _ => rfl) H)]
      rfl
  all_goals
    intro i
    by_cases hx : ∃ d ∈ s.devices, d.id = i ∧ d.isLoad = false ∧ ((d.isGen || d.isStorage) && !d.isSlack) = true
    · obtain ⟨d, hd, rfl, hl, hng⟩ := hx
      obtain ⟨k, k', hk, hk', e, e'⟩ := positions hs hd
      obtain ⟨x, z, x1, z1, x2, z2⟩ := (r1 k d e).set hl hng
      obtain ⟨y, w, y1, w1, y2, w2⟩ := (r2 k' _ e').set hl hng
      obtain ⟨q1, q2⟩ := hp hk hk' e e'
      first
        | (rw [x2, ← x1, ← q1, y1]; exact y2)
        | (rw [z2, ← z1, ← q2, w1]; exact w2)
    · have H : ∀ d ∈ s.devices, d.id = i → d.isLoad = true ∨ ((d.isGen || d.isStorage) && !d.isSlack) = false := fun d hd e => by
        by_contra hc
        rw [not_or] at hc
        exact hx ⟨d, hd, e, by simpa using hc.1, by simpa using hc.2⟩
      have e1 := (k1 i).2.2 H
      have e2 := (k2 (f i)).2.2 (back (P := fun d => d.isLoad = true ∨ ((d.isGen || d.isStorage) && !d.isSlack) = false) (fun _ => rfl) H)
      first
        | (rw [e1.1, e2.1]; rfl)
        | (rw [e1.2, e2.2]; rfl)

theorem place_same {s t : Sim K} (h : SameConfig s t) (kind : Device K → Bool) (hk : ∀ d d' : Device K, SameMachine d d' → kind d' = kind d) (i : ℤ) :
    place kind t i = place kind s i := by
  unfold place
  have := h.devices
  revert this
  generalize s.devices = l
  generalize t.devices = l'
  intro h
  induction h with
  | nil => rfl
  | @cons d d' _ _ hd _ ih =>
    have hid : d'.id = d.id := by rw [hd]
    rw [List.filter_cons, List.filter_cons, hk _ _ hd, hid]
    split
    · rw [List.length_cons, List.length_cons, ih]
    · exact ih

/-- The assignment of the states of charge, device by device. -/
theorem assignSoc_map {s : Sim K} (hs : s.devices.Pairwise fun a b => a.id < b.id) {base : X K} {soc : List (X K)} {ds : List (Device K)}
    (h : Sim.assignSoc base soc s.devices 0 = .ok ds) :
    ds = s.devices.map (fun d => if d.isStorage then { d with soc := (soc[place Device.isStorage s d.id]?).map (· / base) } else d) := by
  have hl : ds.length = s.devices.length := (assignSoc_ok h).length_eq.symm
  refine List.ext_getElem? fun k => ?_
  rw [List.getElem?_map]
  cases hk : ds[k]? with
  | none =>
    rw [List.getElem?_eq_none_iff] at hk
    rw [List.getElem?_eq_none (by omega)]; rfl
  | some d' =>
    obtain ⟨d, e1, e2, e3⟩ := assignSoc_get h hk
    rw [e1, Option.map_some]
    congr 1
    cases hst : d.isStorage with
    | false => simp [e2 hst]
    | true =>
      obtain ⟨x, x1, x2⟩ := e3 hst
      rw [Nat.zero_add] at x1
      simp only [if_true]
      rw [place_eq hs _ e1, x1, x2]
      rfl

/-- **C134.** `reset` under the new names, with the values of the initial vector at the places of the renamed devices. -/
theorem C134_reset (hf : Function.Injective f) {c : Ctx K} {s s' t : Sim K} {v v' : List (X K)} {conv : Bool} (hs : SameBut f s s')
    (hv : VectorRenamed f s s' v v') (h : s.reset c v = .ok (t, conv)) :
    ∃ t' st st', s'.reset c v' = .ok (t', conv) ∧ SameBut f t t' ∧ t.state = some st ∧ t'.state = some st' ∧ StateRenamed f st st' := by
  have hc := sameConfig_reset h
  obtain ⟨n1, n2, n3⟩ := counts_rename hs
  have m1 : Sim.nDevice { s' with state := none } = Sim.nDevice { s with state := none } := n1
  have m2 : Sim.nDes { s' with state := none } = Sim.nDes { s with state := none } := n2
  have m3 : Sim.nNonSlackGen { s' with state := none } = Sim.nNonSlackGen { s with state := none } := n3
  unfold Sim.reset at h
  simp only [bind_ok] at h
  obtain ⟨a, ha, ds, hds, ⟨s1, o⟩, ht, ds2, hds2, st, hst, he⟩ := h
  cases he
  obtain ⟨a', e1, har⟩ := resetArgs_rename hf hs hv rfl rfl rfl ha
  obtain ⟨ds', e2, p2⟩ := mapE_rename (f := f) (g := Sim.resetSoc a.pSet) (g' := Sim.resetSoc a'.pSet) (fun d => by
    unfold Sim.resetSoc
    rw [show (rename f d).isStorage = d.isStorage from rfl, show (rename f d).id = f d.id from rfl, getE_of_get? (har.pSet d.id)]
    split
    · exact bind_named fun _ => rfl
    · rfl) hs.devices hds
  have ids : ∀ {l r : List (Device K)} {b : Dict ℤ (X K)}, mapE (Sim.resetSoc b) l = .ok r → (l.Pairwise fun a b => a.id < b.id) →
      r.Pairwise fun a b => a.id < b.id := by
    intro l r b hr hl
    have e : r.map Device.id = l.map Device.id := by
      have := mapE_ok.1 hr
      clear hr hl
      induction this with
      | nil => rfl
      | @cons d d' _ _ hd _ ih =>
        rw [List.map_cons, List.map_cons, ih]
        congr 1
        unfold Sim.resetSoc at hd
        split at hd
        · simp only [bind_ok] at hd
          obtain ⟨x, -, hx⟩ := hd
          cases hx; rfl
        · cases hd; rfl
    have h2 : (l.map Device.id).Pairwise (· < ·) := List.pairwise_map.2 hl
    rw [← e] at h2
    exact List.pairwise_map.1 h2
  have hs0 : SameBut f { s with state := none, devices := ds } { s' with state := none, devices := ds' } :=
    ⟨hs.base, hs.dt, hs.lamb, hs.buses, hs.branches, p2, ids hds hs.sorted, ids e2 hs.sorted'⟩
  obtain ⟨s1', st1, st1', e3, hs1, -, -, -⟩ := C134_transition hf hs0 har ht
  have g1 : SameConfig { s with state := none, devices := ds } s1 := sameConfig_transition ht
  have g2 : SameConfig { s' with state := none, devices := ds' } s1' := sameConfig_transition e3
  -- the kinds and IDs of the devices are those of `s`
  have kindSoc : ∀ {l r : List (Device K)} {b : Dict ℤ (X K)}, mapE (Sim.resetSoc b) l = .ok r → List.Forall₂ SameMachine l r := by
    intro l r b hr
    refine (mapE_ok.1 hr).imp fun d d' hd => ?_
    unfold Sim.resetSoc at hd
    split at hd
    · simp only [bind_ok] at hd
      obtain ⟨x, -, hx⟩ := hd
      cases hx; rfl
    · cases hd; rfl
  have c1 : SameConfig s s1 := sameConfig_trans (s' := { s with state := none, devices := ds }) ⟨rfl, rfl, rfl, (sameConfig_refl s).buses, (sameConfig_refl s).branches, kindSoc hds⟩ g1
  have c2 : SameConfig s' s1' := sameConfig_trans (s' := { s' with state := none, devices := ds' }) ⟨rfl, rfl, rfl, (sameConfig_refl s').buses, (sameConfig_refl s').branches, kindSoc e2⟩ g2
  have hkind : ∀ d d' : Device K, SameMachine d d' → d'.isStorage = d.isStorage := fun d d' h => by rw [h]; rfl
  obtain ⟨q1, q2, -⟩ := counts_rename hs1
  have hsto : (s1'.devices.filter Device.isStorage).length = s.nDes := by
    have h1 : s1'.nDes = s1.nDes := q2
    have h2 : s1.nDes = s.nDes := (counts_same c1).2.2.2
    exact h1.trans h2
  have hsz := hv.size
  have hsz' := hv.size'
  obtain ⟨ds2', e4⟩ := assignSoc_total (base := s1'.baseMVA) (soc := Sim.slice v' (2 * Sim.nDevice { s with state := none }) (2 * Sim.nDevice { s with state := none } + Sim.nDes { s with state := none }))
    s1'.devices 0 (by
      rw [hsto]
      show 0 + s.nDes ≤ (Sim.slice v' (2 * s.nDevice) (2 * s.nDevice + s.nDes)).length
      simp [Sim.slice]; omega)
  have p3 : (ds2.map (rename f)).Perm ds2' := by
    rw [assignSoc_map hs1.sorted hds2, assignSoc_map hs1.sorted' e4, List.map_map]
    refine List.Perm.trans (List.Perm.of_eq ?_) ((hs1.devices.map _))
    rw [List.map_map]
    refine List.map_congr_left fun d hd => ?_
    simp only [Function.comp_apply]
    cases hst : d.isStorage with
    | false => rw [show (rename f d).isStorage = d.isStorage from rfl, hst]; rfl
    | true =>
      rw [show (rename f d).isStorage = d.isStorage from rfl, hst]
      simp only [if_true]
      obtain ⟨d0, hd0, hsm⟩ := forall₂_mem_right c1.devices hd
      have hid : d.id = d0.id := by rw [hsm]
      have q := hv.soc d0 hd0 (by rw [← hkind _ _ hsm]; exact hst)
      have hlt : place Device.isStorage s d0.id < s.nDes := by
        obtain ⟨k, -, -, -, e, -⟩ := positions hs hd0
        rw [place_eq hs.sorted _ e]
        exact take_filter_lt Device.isStorage e (by rw [← hkind _ _ hsm]; exact hst)
      have hlt' : place Device.isStorage s' (f d0.id) < s.nDes := by
        obtain ⟨-, k, -, -, -, e⟩ := positions hs hd0
        have h1 := take_filter_lt Device.isStorage e (show d0.isStorage = true by rw [← hkind _ _ hsm]; exact hst)
        rw [show f d0.id = (rename f d0).id from rfl, place_eq hs.sorted' _ e]
        have : (s'.devices.filter Device.isStorage).length = s.nDes := n2
        omega
      have e5 : (Sim.slice v' (2 * s.nDevice) (2 * s.nDevice + s.nDes))[place Device.isStorage s1' (f d.id)]? =
          (Sim.slice v (2 * s.nDevice) (2 * s.nDevice + s.nDes))[place Device.isStorage s1 d.id]? := by
        rw [place_same c1 _ hkind, place_same c2 _ hkind, hid, slice_get? _ _ _ _ (by omega), slice_get? _ _ _ _ (by omega)]
        exact q
      show rename f { d with soc := Option.map (· / s1.baseMVA) ((Sim.slice v (2 * s.nDevice) (2 * s.nDevice + s.nDes))[place Device.isStorage s1 d.id]?) } =
        { rename f d with soc := Option.map (· / s1'.baseMVA) ((Sim.slice v' (2 * s.nDevice) (2 * s.nDevice + s.nDes))[place Device.isStorage s1' (f d.id)]?) }
      rw [e5, hs1.base]
      rfl
  have hsort : ds2.Pairwise fun a b => a.id < b.id := sorted_of_sameConfig (t := { s1 with devices := ds2, state := some st }) hc hs.sorted
  obtain ⟨st', e6, hren⟩ := gatherState_rename (s := { s1 with devices := ds2 }) (s' := { s1' with devices := ds2' }) hf hs1.base hs1.buses hs1.branches p3
    (nodup_of_sorted hsort) hst
  have e7 : s'.reset c v' = .ok ({ s1' with devices := ds2', state := some st' }, o.converged) := by
    unfold Sim.reset
    simp only [bind_ok]
    rw [m1, m2, m3]
    exact ⟨a', e1, ds', e2, _, e3, ds2', e4, st', e6, rfl⟩
  exact ⟨_, st, st', e7, ⟨hs1.base, hs1.dt, hs1.lamb, hs1.buses, hs1.branches, p3, hsort,
    sorted_of_sameConfig (t := { s1' with devices := ds2', state := some st' }) (sameConfig_reset e7) hs.sorted'⟩, rfl, rfl, hren⟩

/-- **C134.** A renaming that keeps the order of the devices changes no vector. -/
theorem C134_order (hmono : StrictMono f) {s s' : Sim K} (hs : SameBut f s s') {v : List (X K)} (hv : 2 * s.nDevice + s.nDes + s.nNonSlackGen ≤ v.length) :
    VectorRenamed f s s' v v := by
  have hp : ∀ kind : Device K → Bool, (∀ d, kind (rename f d) = kind d) → ∀ i, place kind s' (f i) = place kind s i := by
    intro kind hk i
    unfold place
    have := (hs.devices.filter fun d => kind d && decide (d.id < f i)).length_eq
    rw [← this, List.filter_map, List.length_map]
    congr 1
    refine List.filter_congr fun d _ => ?_
    simp only [Function.comp_apply, hk]
    congr 1
    exact decide_eq_decide.2 hmono.lt_iff_lt
  refine ⟨hv, rfl, ?_, ?_, ?_, ?_⟩
  · intro d _; rw [hp _ fun _ => rfl]
  · intro d _; rw [hp _ fun _ => rfl]
  · intro d _ _; rw [hp _ fun _ => rfl]
  · intro d _ _; rw [hp _ fun _ => rfl]

/-- A dictionary of bounds, read under the new name. -/
theorem bounds_rename (hf : Function.Injective f) {l l' : List (Device K)} (hn : (l.map Device.id).Nodup) (hp : (l.map (rename f)).Perm l')
    {β : Type} (g : Device K → β) (hg : ∀ d, g (rename f d) = g d) (i : ℤ) :
    Dict.get? (l'.map fun d => (d.id, g d)) (f i) = Dict.get? (l.map fun d => (d.id, g d)) i := by
  have h := hp.map fun d => (d.id, g d)
  rw [List.map_map] at h
  rw [get?_perm h]
  · clear h hp hn
    induction l with
    | nil => rfl
    | cons d l ih =>
      unfold Dict.get? at ih ⊢
      rw [List.map_cons, List.map_cons, List.find?_cons, List.find?_cons]
      by_cases hi : d.id = i
      · subst hi; simp [rename, ← hg d]
      · simp only [Function.comp_apply, rename, hi, hf.ne hi, decide_false]
        exact ih
  · rw [List.map_map]
    have := hn.map hf
    rw [List.map_map] at this
    exact this

/-- **C134.** The action space: the same bounds under the new names. -/
theorem C134_action_space (hf : Function.Injective f) {s s' : Sim K} (hs : SameBut f s s') (i : ℤ) :
    s'.actionSpace.1.get? (f i) = s.actionSpace.1.get? i ∧ s'.actionSpace.2.1.get? (f i) = s.actionSpace.2.1.get? i ∧
    s'.actionSpace.2.2.1.get? (f i) = s.actionSpace.2.2.1.get? i ∧ s'.actionSpace.2.2.2.get? (f i) = s.actionSpace.2.2.2.get? i := by
  have hn := nodup_of_sorted hs.sorted
  have hfil : ∀ q : Device K → Bool, (∀ d, q (rename f d) = q d) → ((s.devices.filter q).map (rename f)).Perm (s'.devices.filter q) := by
    intro q hq
    have := hs.devices.filter q
    rw [List.filter_map] at this
    refine (List.Perm.of_eq ?_).trans this
    congr 1
    exact List.filter_congr fun d _ => (hq d).symm
  have hnf : ∀ q : Device K → Bool, ((s.devices.filter q).map Device.id).Nodup := fun q => (List.filter_sublist.map _).nodup hn
  unfold Sim.actionSpace
  dsimp only
  rw [hs.base]
  refine ⟨?_, ?_, ?_, ?_⟩
  all_goals first
    | exact bounds_rename hf (hnf _) (hfil _ fun _ => rfl) (fun d => (d.pMin * s.baseMVA, d.pMax * s.baseMVA)) (fun _ => rfl) i
    | exact bounds_rename hf (hnf _) (hfil _ fun _ => rfl) (fun d => (d.qMin * s.baseMVA, d.qMax * s.baseMVA)) (fun _ => rfl) i

end

end Anm
