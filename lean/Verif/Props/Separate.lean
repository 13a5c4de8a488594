import Verif.Props.RenamingEnv
import Verif.Props.DynamicsEx

/-! # C136: devices do not interfere with each other -/

set_option linter.unusedSectionVars false

namespace Anm

open Spec

namespace Spec
variable {K : Type} [Field K] [LinearOrder K]

/-- The arguments say the same about device `i`. -/
structure AgreeAt (i : ℤ) (a b : Sim.Args K) : Prop where
  pLoad : b.pLoad.get? i = a.pLoad.get? i
  pPot : b.pPot.get? i = a.pPot.get? i
  pSet : b.pSet.get? i = a.pSet.get? i
  qSet : b.qSet.get? i = a.qSet.get? i

/-- The same device, which is not the slack, in two simulators — perhaps of different networks: same data, same stored energy. -/
def SameUnit (i : ℤ) (s u : Sim K) : Prop :=
  ∃ d ∈ s.devices, ∃ e ∈ u.devices, d.id = i ∧ d.isSlack = false ∧ SameMachine d e ∧ e.soc = d.soc

/-- The states say the same about device `i`, in every unit. -/
def SameReadings (i : ℤ) (st st' : SimState K) : Prop :=
  ∀ key ∈ [Key.devP, .devQ, .desSoc, .genPMax], ∀ u, reading st' key u (.node i) = reading st key u (.node i)

/-- Two runs, perhaps of different networks, whose arguments agree about device `i`. -/
inductive RunsAgree (c c₂ : Ctx K) (i : ℤ) (s u : Sim K) : Sim K → Sim K → Prop where
  | nil : RunsAgree c c₂ i s u s u
  | snoc {s1 s' u1 u' : Sim K} {a b : Sim.Args K} {o o' : Sim.TransOut K} : RunsAgree c c₂ i s u s1 u1 →
      s1.transition c a = .ok (s', o) → u1.transition c₂ b = .ok (u', o') → AgreeAt i a b → RunsAgree c c₂ i s u s' u'

end Spec

section
variable {K : Type} [Field K] [LinearOrder K] [IsStrictOrderedRing K] [FloorRing K]

theorem getE_at {a b : Dict ℤ (X K)} {i : ℤ} {x y : X K} (h : b.get? i = a.get? i) (hx : a.getE i = .ok x) (hy : b.getE i = .ok y) : y = x := by
  rw [Dict.getE_ok] at hx hy
  rw [h, hx] at hy
  exact (Option.some.inj hy).symm

/-- What a device does depends only on its data, its stored energy and the arguments about it. -/
theorem stepRel_same {qp : QP K} {base dt : X K} {a b : Sim.Args K} {d e d' e' : Device K} (hm : SameMachine d e) (hs : e.soc = d.soc)
    (hsl : d.isSlack = false) (ha : AgreeAt d.id a b) (h : StepRel qp base dt a d d') (h' : StepRel qp base dt b e e') :
    e'.p = d'.p ∧ e'.q = d'.q ∧ e'.soc = d'.soc ∧ (d.isNonSlackGen = true → e'.pPot = d'.pPot) := by
  obtain ⟨k1, k2, k3, k4⟩ := hm.classes
  have k5 : e.isSlack = d.isSlack := by rw [hm]
  have hid : e.id = d.id := by rw [hm]
  have hnl : d.isLoad = true → d.isNonSlackGen = false := by
    intro h; unfold Device.isLoad at h; unfold Device.isNonSlackGen Device.isGen; cases hk : d.kind <;> simp_all
  cases h with
  | load x h1 h2 =>
    have hn := hnl h1
    cases h' with
    | load y g1 g2 =>
      rw [hid] at g2
      have e1 : e.pMin = d.pMin := by rw [hm]
      have e2 : e.pMax = d.pMax := by rw [hm]
      have e3 : e.qpRatio = d.qpRatio := by rw [hm]
      rw [getE_at ha.pLoad h2 g2]
      refine ⟨?_, ?_, hs, fun h => absurd h (by simp [hn])⟩
      · simp only [Device.mapLoad, e1, e2]
      · simp only [Device.mapLoad, e1, e2, e3]
    | gen _ _ _ _ _ g1 g2 => simp_all
    | storage _ _ _ _ _ _ g1 g2 g3 => simp_all
    | slack g1 => simp_all
    | none g1 => simp_all
  | gen pot p q x y h1 h2 h3 h4 h5 h6 =>
    cases h' with
    | load y g1 => simp_all
    | gen pot' p' q' x' y' g1 g2 g3 g4 g5 g6 =>
      rw [hid] at g3 g4 g5
      rw [getE_at ha.pPot h3 g3, getE_at ha.pSet h4 g4, getE_at ha.qSet h5 g5] at g6
      have e1 : (e.setPPot (X.clip (pot / base) e.pMin e.pMax)).genConstraints = (d.setPPot (X.clip (pot / base) d.pMin d.pMax)).genConstraints := by
        rw [hm]; rfl
      rw [e1, h6] at g6
      cases g6
      refine ⟨rfl, rfl, hs, fun _ => ?_⟩
      rw [getE_at ha.pPot h3 g3]
      have e2 : e.pMin = d.pMin := by rw [hm]
      have e3 : e.pMax = d.pMax := by rw [hm]
      simp only [Device.setPPot, e2, e3]
    | storage _ _ _ _ _ _ g1 g2 g3 => simp_all
    | slack g1 g2 => simp_all
    | none g1 g2 => simp_all
  | storage p q x y rows soc h1 h2 h3 h4 h5 h6 h7 h8 =>
    cases h' with
    | load y g1 => simp_all
    | gen _ _ _ _ _ g1 => simp_all
    | storage p' q' x' y' rows' soc' g1 g2 g3 g4 g5 g6 g7 g8 =>
      rw [hid] at g4 g5
      rw [getE_at ha.pSet h4 g4, getE_at ha.qSet h5 g5] at g8
      rw [hs, h6] at g6
      cases g6
      have e1 : e.storageConstraints dt = d.storageConstraints dt := by
        unfold Device.storageConstraints
        rw [hs, hm]
      rw [e1, h7] at g7
      cases g7
      rw [h8] at g8
      cases g8
      have e2 : e.eff = d.eff := by rw [hm]
      have e3 : e.socMin = d.socMin := by rw [hm]
      have e4 : e.socMax = d.socMax := by rw [hm]
      refine ⟨rfl, rfl, ?_, fun h => absurd h (by simp [h2])⟩
      simp only [e2, e3, e4]
    | slack g1 g2 g3 => simp_all
    | none g1 g2 g3 => simp_all
  | slack h1 h2 h3 h4 => simp_all
  | none h1 h2 h3 h4 =>
    exfalso
    unfold Device.isLoad at h1
    unfold Device.isNonSlackGen Device.isGen at h2
    unfold Device.isStorage at h3
    cases hk : d.kind <;> simp_all

/-! ### The state -/

theorem two_units {A B A' B' : Dict Ident (X K)} {v w u : QUnit} {i : Ident} (hA : A'.get? i = A.get? i) (hB : B'.get? i = B.get? i) :
    (Dict.get? [(v, A'), (w, B')] u).bind (·.get? i) = (Dict.get? [(v, A), (w, B)] u).bind (·.get? i) := by
  unfold Dict.get? at hA hB ⊢
  by_cases h1 : v = u
  · simpa [h1] using hA
  · by_cases h2 : w = u
    · simpa [h1, h2] using hB
    · simp [h1, h2]

/-- Two lists of devices without repeated IDs, read at a common device. -/
theorem listed_same {l l' : List (Device K)} (hl : l.Pairwise fun a b => a.id < b.id) (hl' : l'.Pairwise fun a b => a.id < b.id) {d e : Device K}
    (hd : d ∈ l) (he : e ∈ l') (hid : e.id = d.id) {β : Type} (q : Device K → Bool) (hq : q e = q d) (g : Device K → β) (hg : q d = true → g e = g d) :
    Dict.get? ((l'.filter q).map fun x => (Ident.node x.id, g x)) (.node d.id) = Dict.get? ((l.filter q).map fun x => (Ident.node x.id, g x)) (.node d.id) := by
  have inj : ∀ {l : List (Device K)}, (l.Pairwise fun a b => a.id < b.id) → ∀ x ∈ l.filter q, ∀ y ∈ l.filter q, x.id = y.id → x = y :=
    fun h x hx y hy e => sorted_id_inj h (List.mem_filter.1 hx).1 (List.mem_filter.1 hy).1 e
  have miss : ∀ {l : List (Device K)}, (l.Pairwise fun a b => a.id < b.id) → ∀ {d : Device K}, d ∈ l → q d = false →
      Dict.get? ((l.filter q).map fun x => (Ident.node x.id, g x)) (.node d.id) = none := by
    intro l h d hd hq
    rw [get?_map (l.filter q) (fun y => Ident.node y.id) g, Option.map_eq_none_iff, List.find?_eq_none]
    intro x hx
    simp only [decide_eq_true_eq, Ident.node.injEq]
    intro e
    have := sorted_id_inj h (List.mem_filter.1 hx).1 hd e
    subst this
    simp [(List.mem_filter.1 hx).2] at hq
  cases h : q d with
  | false => rw [miss hl hd h, ← hid, miss hl' he (hq.trans h)]
  | true =>
    rw [get?_of_mem (inj hl) (List.mem_filter.2 ⟨hd, h⟩), ← hid, get?_of_mem (inj hl') (List.mem_filter.2 ⟨he, hq.trans h⟩), hg h]

theorem stored_list {l : List (Device K)} {soc : Dict Ident (X K)} (h : mapE (fun d : Device K =>
    match d.soc with
    | none => .error .typeError
    | some x => .ok (Ident.node d.id, x)) l = .ok soc) : soc = l.map fun d => (Ident.node d.id, d.soc.getD .nan) := by
  rw [mapE_ok] at h
  induction h with
  | nil => rfl
  | cons h _ ih =>
    rw [List.map_cons, ← ih]
    congr 1
    split at h
    · cases h
    · rename_i hx
      cases h
      rw [hx]
      rfl

theorem sameReadings {s u : Sim K} {pi pi' : K} {st st' : SimState K} (hg : s.gatherState pi = .ok st) (hg' : u.gatherState pi' = .ok st')
    (hb : u.baseMVA = s.baseMVA) (hl : s.devices.Pairwise fun a b => a.id < b.id) (hl' : u.devices.Pairwise fun a b => a.id < b.id) {d e : Device K}
    (hd : d ∈ s.devices) (he : e ∈ u.devices) (hm : SameMachine d e) (hp : e.p = d.p) (hq : e.q = d.q) (hsoc : e.soc = d.soc)
    (hpot : d.isNonSlackGen = true → e.pPot = d.pPot) : SameReadings d.id st st' := by
  obtain ⟨k1, k2, k3, k4⟩ := hm.classes
  have hid : e.id = d.id := by rw [hm]
  have L : ∀ {β : Type} (q : Device K → Bool) (_ : q e = q d) (g : Device K → β) (_ : q d = true → g e = g d),
      Dict.get? ((u.devices.filter q).map fun x => (Ident.node x.id, g x)) (.node d.id) = Dict.get? ((s.devices.filter q).map fun x => (Ident.node x.id, g x)) (.node d.id) :=
    fun q hq g hg => listed_same hl hl' hd he hid q hq g hg
  have A : ∀ {β : Type} (g : Device K → β), g e = g d →
      Dict.get? (u.devices.map fun x => (Ident.node x.id, g x)) (.node d.id) = Dict.get? (s.devices.map fun x => (Ident.node x.id, g x)) (.node d.id) := by
    intro β g hg
    have := L (fun _ => true) rfl g fun _ => hg
    rwa [List.filter_true, List.filter_true] at this
  simp only [Sim.gatherState, bind_ok, pure_ok] at hg hg'
  obtain ⟨soc, h1, rfl⟩ := hg
  obtain ⟨soc', h2, rfl⟩ := hg'
  rw [stored_list h1, stored_list h2, hb]
  intro key hk v
  simp only [List.mem_cons, List.not_mem_nil, or_false] at hk
  rcases hk with rfl | rfl | rfl | rfl
  · exact two_units (A (fun d => d.p) hp) (A (fun d => d.p * s.baseMVA) (by rw [hp]))
  · exact two_units (A (fun d => d.q) hq) (A (fun d => d.q * s.baseMVA) (by rw [hq]))
  · refine two_units (L Device.isStorage k3 (fun d => d.soc.getD .nan) fun _ => by rw [hsoc]) ?_
    rw [List.map_map, List.map_map]
    exact L Device.isStorage k3 (fun d => d.soc.getD .nan * s.baseMVA) fun _ => by rw [hsoc]
  · exact two_units (L Device.isNonSlackGen k4 (fun d => d.pPot) hpot) (L Device.isNonSlackGen k4 (fun d => d.pPot * s.baseMVA) fun h => by rw [hpot h])

/-! ### Transitions and runs -/

/-- **C136, one time step.** Two simulators, perhaps of different networks, with the same base power and time step, contain the same device with
the same stored energy, and get the same arguments about it: whatever the other devices, their arguments, and whatever comes out of the
load flow, the states say the same about this device, and it stores the same energy. -/
theorem C136_step {n m : Network K} {dt lam lam₂ : X K} {c c₂ : Ctx K} {s s' u u' : Sim K} {a b : Sim.Args K} {o o' : Sim.TransOut K} {i : ℤ}
    (hs : SimOf n dt lam s) (hu : SimOf m dt lam₂ u) (hb : m.baseMVA = n.baseMVA) (hq : c₂.qp = c.qp) (hi : SameUnit i s u) (ha : AgreeAt i a b)
    (h : s.transition c a = .ok (s', o)) (h' : u.transition c₂ b = .ok (u', o')) :
    SameUnit i s' u' ∧ ∃ st st', s'.state = some st ∧ u'.state = some st' ∧ SameReadings i st st' := by
  obtain ⟨d, hd, e, he, rfl, hsl, hm, hsoc⟩ := hi
  have hid : e.id = d.id := by rw [hm]
  have hsl' : e.isSlack = false := by rw [← hsl, hm]
  have b1 : u.baseMVA = s.baseMVA := by rw [(simOf_base hs).1, (simOf_base hu).1, hb]
  have b2 : u.deltaT = s.deltaT := by rw [(simOf_base hs).2.1, (simOf_base hu).2.1]
  obtain ⟨ds, _, I⟩ := transition_ok h
  obtain ⟨ds', _, I'⟩ := transition_ok h'
  obtain ⟨d1, hd1, d2, hr, h1, _⟩ := forall₂_mem_left I.devices hd
  obtain ⟨e1, he1, e2, hr', h1', _⟩ := forall₂_mem_left I'.devices he
  rw [← h1 hsl] at hr
  rw [← h1' hsl', hq, b1, b2] at hr'
  obtain ⟨r1, r2, r3, r4⟩ := stepRel_same hm hsoc hsl ha hr hr'
  have m1 := hr.same
  have m2 := hr'.same
  have mm : SameMachine d1 e1 := by
    unfold SameMachine at *
    rw [m2, hm, m1]
  have n1 : d1.id = d.id := by rw [m1]
  have n2 : d1.isNonSlackGen = d.isNonSlackGen := m1.classes.2.2.2
  obtain ⟨st, g1, g2⟩ := I.state
  obtain ⟨st', g3, g4⟩ := I'.state
  have hs' := simOf_transition hs h
  have hu' := simOf_transition hu h'
  refine ⟨⟨d1, hd1, e1, he1, n1, by rw [← hsl, m1], mm, r3⟩, st, st', g2, g4, ?_⟩
  rw [← n1]
  refine sameReadings g1 g3 ?_ (simOf_sorted hs') (simOf_sorted hu') hd1 he1 mm r1 r2 r3 (by rw [n2]; exact r4)
  rw [(simOf_base hs').1, (simOf_base hu').1, hb]

/-- **C136** Runs of any length: what happens to a device, and what the states say about it, depends on nothing but its own data, its
stored energy and the arguments about it. -/
theorem C136_run {n m : Network K} {dt lam lam₂ : X K} {c c₂ : Ctx K} {s s' u u' : Sim K} {i : ℤ} (hs : SimOf n dt lam s)
    (hu : SimOf m dt lam₂ u) (hb : m.baseMVA = n.baseMVA) (hq : c₂.qp = c.qp) (hi : SameUnit i s u) (h : RunsAgree c c₂ i s u s' u') :
    SameUnit i s' u' ∧ (s' = s ∧ u' = u ∨ ∃ st st', s'.state = some st ∧ u'.state = some st' ∧ SameReadings i st st') := by
  have key : SimOf n dt lam s' ∧ SimOf m dt lam₂ u' ∧ SameUnit i s' u' ∧
      (s' = s ∧ u' = u ∨ ∃ st st', s'.state = some st ∧ u'.state = some st' ∧ SameReadings i st st') := by
    induction h with
    | nil => exact ⟨hs, hu, hi, .inl ⟨rfl, rfl⟩⟩
    | snoc _ h1 h2 ha ih =>
      obtain ⟨k1, k2, k3, -⟩ := ih
      obtain ⟨g1, g2⟩ := C136_step k1 k2 hb hq k3 ha h1 h2
      exact ⟨simOf_transition k1 h1, simOf_transition k2 h2, g1, .inr g2⟩
  exact key.2.2

end

/-- The example network, reset, then: the battery charges at 40 MW in both cases; in the second one the load and the generator are asked for
something else. -/
def twoWorlds : Except PyErr (Sim ℚ × Sim ℚ × Sim ℚ) := do
  let s0 ← mkSim demoNet (.fin (1/4)) (.fin 100)
  let (s1, _) ← s0.reset demoCtx demoInit
  let (s2, _) ← s1.transition demoCtx (demoArgs (-40))
  let (s3, _) ← s1.transition demoCtx ⟨[(1, .fin (-9))], [(2, .fin 12)], [(2, .fin 3), (3, .fin (-40))], [(2, .fin 0), (3, .fin 0)]⟩
  pure (s1, s2, s3)

/-- The hypotheses of C136: the other devices do different things, the battery does the same. -/
example : ∃ s u v : Sim ℚ, RunsAgree demoCtx demoCtx 3 s s u v ∧ SameUnit 3 s s ∧ SameUnit 3 u v ∧
    u.devices.map (·.p) ≠ v.devices.map (·.p) ∧ ∃ st st', u.state = some st ∧ v.state = some st' ∧ SameReadings 3 st st' ∧
      reading st .devP .mw (.node 3) = some (.fin (-40)) := by
  obtain ⟨⟨s, u, v⟩, h, h1, h2, h3⟩ : ∃ r, twoWorlds = .ok r ∧ (r.2.1.devices.map (·.p) ≠ r.2.2.devices.map (·.p) ∧
      r.1.devices.any (fun d => decide (d.id = 3) && !d.isSlack) = true ∧
      (r.2.1.state.bind fun st => reading st .devP .mw (.node 3)) = some (.fin (-40))) := exOk (by decide +kernel)
  simp only [twoWorlds, bind_ok, pure_ok] at h
  obtain ⟨s0, k0, ⟨s1, b⟩, k1, ⟨s2, o2⟩, k2, ⟨s3, o3⟩, k3, k4⟩ := h
  injection k4 with e1 k4
  injection k4 with e2 e3
  subst e1 e2 e3
  obtain ⟨d, hd, he⟩ := List.any_eq_true.1 h2
  simp only [Bool.and_eq_true, decide_eq_true_eq, Bool.not_eq_true'] at he
  have hs := simOf_reset (simOf_mk k0) k1
  have hu : SameUnit 3 s1 s1 := ⟨d, hd, d, hd, he.1, he.2, sameMachine_refl d, rfl⟩
  have ha : AgreeAt 3 (demoArgs (-40)) ⟨[(1, .fin (-9))], [(2, .fin 12)], [(2, .fin 3), (3, .fin (-40))], [(2, .fin 0), (3, .fin 0)]⟩ :=
    ⟨by decide, by decide, by decide, by decide⟩
  have hr : RunsAgree demoCtx demoCtx 3 s1 s1 s2 s3 := .snoc .nil k2 k3 ha
  obtain ⟨g1, st, st', g2, g3, g4⟩ := C136_step hs hs rfl rfl hu ha k2 k3
  refine ⟨s1, s2, s3, hr, hu, g1, h1, st, st', g2, g3, g4, ?_⟩
  simp only at h3
  rw [g2] at h3
  simpa using h3

end Anm
