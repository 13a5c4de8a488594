import Verif.Props.Env

/-! # C43, C44, C51, C75: arguments, observation lists and observation spaces -/

set_option linter.unusedSectionVars false

namespace Anm

open Spec

section
variable {K ρ : Type} [Field K] [LinearOrder K]

theorem forE_ok {α : Type} {f : α → Except PyErr Unit} {l : List α} :
    forE f l = .ok () ↔ ∀ a ∈ l, f a = .ok () := by
  induction l with
  | nil => simp [forE]
  | cons a l ih => 
    simp only [forE, bind_ok, ih, List.mem_cons, forall_eq_or_imp]
    constructor
    · rintro ⟨⟨⟩, h1, h2⟩; exact ⟨h1, h2⟩
    · rintro ⟨h1, h2⟩; exact ⟨(), h1, h2⟩

/-! ### The dictionaries contain what the specification says -/

theorem keys_map {α β : Type} (l : List α) (k : α → Ident) (f : α → β) (i : Ident) :
    i ∈ Dict.keys (l.map fun x => (k x, f x)) ↔ ∃ x ∈ l, i = k x := by
  simp [Dict.keys, eq_comm]

/-- The bounds dictionary has an entry for a quantity exactly where the quantity exists. -/
theorem bounds_keys {pi : K} {s : Sim K} {k : ℤ} {key : Key} (hk : key ≠ .aux) (hk' : knownKey key = true) :
    ∃ d, (s.stateSpace pi).getE key = .ok d ∧ ∀ i, i ∈ d.keys ↔ Located s k key i := by
  cases key <;> simp only [knownKey, Bool.false_eq_true, ne_eq, not_true_eq_false, reduceCtorEq] at hk hk' <;>
    refine ⟨_, rfl, fun i => ?_⟩ <;> rw [keys_map] <;> simp [Located, and_assoc]

theorem hasUnit_iff {key : Key} {u : QUnit} : HasUnit key u ↔ u ∈ stateUnits key := by
  cases key <;> simp [HasUnit, quantities, stateUnits]

theorem hasUnit_known {key : Key} : (∃ u, HasUnit key u) ↔ knownKey key = true := by
  simp only [hasUnit_iff]
  cases key <;> simp [stateUnits, knownKey]

theorem get?_isSome {α β : Type} (l : List α) (k : α → Ident) (f : α → β) {i : Ident} (h : ∃ x ∈ l, i = k x) :
    ∃ y, Dict.get? (l.map fun x => (k x, f x)) i = some y := by
  rw [get?_map l k f]
  obtain ⟨x, hx, rfl⟩ := h
  cases hf : l.find? (fun y => k y = k x) with
  | none =>
    have := List.find?_eq_none.1 hf x hx
    simp at this
  | some y => exact ⟨_, rfl⟩

theorem get?_of_keys {α β : Type} [DecidableEq α] {d : Dict α β} {i : α} (h : i ∈ d.keys) :
    ∃ x, d.get? i = some x ∧ (i, x) ∈ d := by
  unfold Dict.keys at h
  unfold Dict.get?
  obtain ⟨p, hp, rfl⟩ := List.mem_map.1 h
  cases hf : d.find? (fun q => q.1 = p.1) with
  | none =>
    have := List.find?_eq_none.1 hf p hp
    simp at this
  | some q =>
    have h1 := List.find?_some hf
    simp only [decide_eq_true_eq] at h1
    exact ⟨q.2, rfl, h1 ▸ List.mem_of_find?_eq_some hf⟩

theorem bounds_units {pi : K} {s : Sim K} {key : Key} {d : Dict Ident (Dict QUnit (X K × X K))}
    (h : (s.stateSpace pi).getE key = .ok d) {p : Ident × Dict QUnit (X K × X K)} (hp : p ∈ d) {u : QUnit}
    (hu : u ∈ stateUnits key) : ∃ b, p.2.get? u = some b := by
  cases key <;> simp only [stateUnits, List.not_mem_nil] at hu <;>
    simp only [Sim.stateSpace, Dict.getE, Dict.get?, List.find?, reduceCtorEq, decide_false, decide_true,
      Option.map_some, Option.map_none, Except.ok.injEq] at h <;> subst h <;>
    obtain ⟨x, _, rfl⟩ := List.mem_map.1 hp <;> dsimp only <;>
    simp only [List.mem_cons, List.not_mem_nil, or_false] at hu <;>
    rcases hu with rfl | rfl <;> first | exact ⟨_, rfl⟩ | (split <;> exact ⟨_, rfl⟩)

/-- Every quantity that exists has bounds in each of its units. -/
theorem bounds_total {pi : K} {s : Sim K} {k : ℤ} {key : Key} {u : QUnit} {i : Ident} (hk : key ≠ .aux)
    (hu : HasUnit key u) (hi : Located s k key i) :
    ∃ d e b, (s.stateSpace pi).getE key = .ok d ∧ d.getE i = .ok e ∧ e.getE u = .ok b := by
  obtain ⟨d, hd, hkeys⟩ := bounds_keys (pi := pi) (s := s) (k := k) hk (hasUnit_known.1 ⟨u, hu⟩)
  obtain ⟨e, he, hm⟩ := get?_of_keys ((hkeys i).2 hi)
  obtain ⟨b, hb⟩ := bounds_units hd hm (hasUnit_iff.1 hu)
  exact ⟨d, e, b, hd, Dict.getE_ok.2 he, Dict.getE_ok.2 hb⟩

/-- Every quantity that exists is reported in each of its units. -/
theorem reading_total {pi : K} {s : Sim K} {st : SimState K} {k : ℤ} {key : Key} {u : QUnit} {i : Ident}
    (hg : s.gatherState pi = .ok st) (hk : key ≠ .aux) (hu : HasUnit key u) (hi : Located s k key i) :
    ∃ x, reading st key u i = some x := by
  rw [hasUnit_iff] at hu
  simp only [Sim.gatherState, bind_ok, pure_ok] at hg
  obtain ⟨soc, hsoc, rfl⟩ := hg
  have hsk : ∀ d ∈ s.devices, d.isStorage = true → Ident.node d.id ∈ Dict.keys soc := by
    intro d hd hs
    obtain ⟨y, hy, h⟩ := forall₂_mem_left (mapE_ok.1 hsoc) (List.mem_filter.2 ⟨hd, hs⟩)
    refine List.mem_map.2 ⟨y, hy, ?_⟩
    cases hso : d.soc with
    | none => rw [hso] at h; cases h
    | some x => rw [hso] at h; cases h; rfl
  have hf : ∀ P : Device K → Bool, (∃ d ∈ s.devices, P d = true ∧ i = .node d.id) →
      ∃ d ∈ s.devices.filter P, i = .node d.id := by
    rintro P ⟨d, hd, h1, h2⟩
    exact ⟨d, List.mem_filter.2 ⟨hd, h1⟩, h2⟩
  cases key <;> simp only [stateUnits, List.not_mem_nil, ne_eq, not_true_eq_false, reduceCtorEq] at hk hu <;>
    simp only [List.mem_cons, List.not_mem_nil, or_false] at hu <;>
    simp only [Located, reduceCtorEq, List.mem_cons, List.not_mem_nil, or_false, false_and, or_self, true_and,
      false_or, or_true] at hi
  case desSoc =>
    obtain ⟨d, hd, hs, rfl⟩ := hi
    obtain ⟨x, hx, _⟩ := get?_of_keys (hsk d hd hs)
    rcases hu with rfl | rfl
    · exact ⟨x * s.baseMVA, by
        show Dict.get? (soc.map fun e => (e.1, e.2 * s.baseMVA)) _ = _
        rw [get?_scale soc (fun y => y * s.baseMVA), hx]; rfl⟩
    · exact ⟨x, hx⟩
  case genPMax =>
    rcases hu with rfl | rfl <;> exact get?_isSome _ (fun d : Device K => Ident.node d.id) _ (hf _ hi)
  all_goals
    rcases hu with rfl | rfl <;> first
      | exact get?_isSome s.buses (fun d => Ident.node d.id) _ hi
      | exact get?_isSome s.devices (fun d => Ident.node d.id) _ hi
      | exact get?_isSome s.branches (fun b => Ident.br b.line.fBus b.line.tBus) _ hi

/-! ### C43: the arguments -/

theorem checkAux_ok {k : ℤ} {i : Ident} : checkAux k i = .ok () ↔ ∃ n : ℤ, i = .node n ∧ n < k := by
  cases i <;> simp [checkAux]

theorem located_aux {s : Sim K} {k : ℤ} {i : Ident} :
    Located s k .aux i ↔ ∃ n : ℤ, 0 ≤ n ∧ n < k ∧ i = .node n := by
  simp only [Located, reduceCtorEq, List.mem_cons, List.not_mem_nil, false_and, or_self, true_and, false_or]
  constructor
  · rintro ⟨n, h1, rfl⟩; exact ⟨n, by omega, h1, rfl⟩
  · rintro ⟨n, h1, h2, rfl⟩; exact ⟨n.toNat, by omega, by rw [Int.toNat_of_nonneg h1]⟩

/-- For plain items the checks of the nodes are right. -/
theorem checkNodes_ok {pi : K} {s : Sim K} {k : ℤ} {o : ObsItem} (hp : Plain (.item o))
    (hk : knownKey o.key = true) : checkNodes (s.stateSpace pi) k o = .ok () ↔
      (o.nodes = .all ∨ ∃ l, o.nodes = .list l ∧ ∀ i ∈ l, Located s k o.key i) := by
  unfold checkNodes
  obtain ⟨key, nodes, unit⟩ := o
  dsimp only at *
  cases nodes with
  | all => simp
  | other => dsimp only; split <;> simp
  | iter l =>
    by_cases ha : key = .aux
    · exact absurd rfl ((hp.1 ha).1 l)
    · simp [ha]
  | list l =>
    by_cases ha : key = .aux
    · subst ha
      have h0 := (hp.1 rfl).2 l rfl
      simp only [if_true, forE_ok, checkAux_ok, reduceCtorEq, Nodes.list.injEq, exists_eq_left', false_or,
        located_aux]
      constructor
      · intro h i hi
        obtain ⟨n, rfl, hn⟩ := h i hi
        exact ⟨n, h0 n hi, hn, rfl⟩
      · intro h i hi
        obtain ⟨n, _, hn, rfl⟩ := h i hi
        exact ⟨n, rfl, hn⟩
    · obtain ⟨d, hd, hkeys⟩ := bounds_keys (pi := pi) (s := s) (k := k) ha hk
      simp only [ha, if_false, hd, bind, Except.bind, forE_ok, guardE_ok, hkeys, reduceCtorEq,
        Nodes.list.injEq, exists_eq_left', false_or]

/-- For plain items the checks of the unit are right. -/
theorem checkUnit_ok {o : ObsItem} (hp : Plain (.item o)) :
    checkUnit o = .ok () ↔ ∀ u, o.unit = some u → HasUnit o.key u := by
  unfold checkUnit
  obtain ⟨key, nodes, unit⟩ := o
  dsimp only at *
  cases unit with
  | none => simp
  | some u =>
    simp only [bind_ok, guardE_ok, Option.some.injEq, forall_eq', hasUnit_iff]
    cases key
    case branchIMagn =>
      have := hp.2 rfl
      cases u <;> simp_all [unitOk, stateUnits]
    all_goals simp [unitOk, stateUnits]

theorem checkObs_ok {pi : K} {s : Sim K} {k : ℤ} {obs : ObsArg K} (hp : ∀ l, obs = .list l → ∀ o ∈ l, Plain o) :
    checkObs (s.stateSpace pi) k obs = .ok () ↔ SupportedObs s k obs := by
  cases obs with
  | state => simp [checkObs, SupportedObs]
  | callable f => simp [checkObs, SupportedObs]
  | other => simp [checkObs, SupportedObs]
  | list l =>
    simp only [checkObs, SupportedObs, forE_ok]
    refine forall₂_congr fun o ho => ?_
    have hpo := hp l rfl o ho
    cases o with
    | badLength => simp [checkEntry, Supported]
    | item o =>
      simp only [checkEntry, bind_ok, guardE_ok, Supported, hasUnit_known]
      constructor
      · rintro ⟨_, h1, ⟨⟩, h2, h3⟩
        exact ⟨h1, (checkUnit_ok hpo).1 h3, (checkNodes_ok hpo h1).1 h2⟩
      · rintro ⟨h1, h2, h3⟩
        exact ⟨(), h1, (), (checkNodes_ok hpo h1).2 h3, (checkUnit_ok hpo).2 h2⟩

/-- **C43 (for numbers that are not NaN and plain observation items).** The arguments are accepted exactly
when `K ≥ 0`, `delta_t > 0`, `lamb ≥ 0`, `0 ≤ gamma ≤ 1`, the observation is supported and `aux_bounds`, if
given, has length `K`.  Missing: NaN is accepted (`C43_counterexample_nan`), negative indices and other
iterables of indices of auxiliary variables are accepted (`C43_counterexample_aux`), and so are three
strings that are no unit (`C43_counterexample_unit`). -/
theorem C43_accepts_partial {pi : K} {s : Sim K} {k : ℤ} {dt lamb gamma : X K} {obs : ObsArg K}
    {aux : Option (List (X K × X K))} (h1 : X.NotNan dt) (h2 : X.NotNan lamb) (h3 : X.NotNan gamma)
    (hp : ∀ l, obs = .list l → ∀ o ∈ l, Plain o) :
    checkEnvArgs k dt lamb gamma obs aux (s.stateSpace pi) = .ok () ↔
      0 ≤ k ∧ 0 < dt ∧ 0 ≤ lamb ∧ (0 ≤ gamma ∧ gamma ≤ .fin 1) ∧ SupportedObs s k obs ∧
      ∀ l, aux = some l → (l.length : ℤ) = k := by
  have h0 : X.NotNan (0 : X K) := trivial
  have ha : checkAuxBounds k aux = .ok () ↔ ∀ l, aux = some l → (l.length : ℤ) = k := by
    cases aux <;> simp [checkAuxBounds]
  simp only [checkEnvArgs, bind_ok, guardE_ok, not_or, X.not_le_iff h1 h0, X.not_lt_iff h2 h0,
    X.not_lt_iff h3 h0, X.not_lt_iff (X.notNan_fin 1) h3, not_lt, exists_const]
  constructor
  · rintro ⟨a1, a2, a3, a4, ⟨⟩, a5, a6⟩
    exact ⟨a1, a2, a3, a4, (checkObs_ok hp).1 a5, ha.1 a6⟩
  · rintro ⟨a1, a2, a3, a4, a5, a6⟩
    exact ⟨a1, a2, a3, a4, (), (checkObs_ok hp).2 a5, ha.2 a6⟩

/-- **C43.** Numbers out of range are always refused with `ArgsError`, whatever the other arguments are,
and so are an observation of a wrong type and an `aux_bounds` of a wrong length. -/
theorem C43_refused {k : ℤ} {dt lamb gamma : X K} {obs : ObsArg K} {aux : Option (List (X K × X K))}
    {sb : StateBounds K} :
    (k < 0 ∨ dt ≤ 0 ∨ lamb < 0 ∨ gamma < 0 ∨ .fin 1 < gamma →
      checkEnvArgs k dt lamb gamma obs aux sb = .error .argsError) ∧
    (obs = .other → checkEnvArgs k dt lamb gamma obs aux sb = .error .argsError) ∧
    (∀ l, aux = some l → (l.length : ℤ) ≠ k → checkEnvArgs k dt lamb gamma obs aux sb ≠ .ok () ∧
      (checkObs sb k obs = .ok () → checkEnvArgs k dt lamb gamma obs aux sb = .error .argsError)) := by
  have key : ∀ {α : Type} (P : Prop) [Decidable P] (f : Unit → Except PyErr α) (e : PyErr),
      (guardE P e >>= f) = if P then f () else .error e := by
    intro α P _ f e
    by_cases h : P <;> simp [guardE, h, bind, Except.bind]
  refine ⟨fun h => ?_, fun h => ?_, fun l hl hne => ⟨fun h => ?_, fun ho => ?_⟩⟩
  · simp only [checkEnvArgs, key]
    by_cases a1 : k < 0
    · simp [a1]
    by_cases a2 : dt ≤ 0
    · simp [a1, a2]
    by_cases a3 : lamb < 0
    · simp [a1, a2, a3]
    have a4 : gamma < 0 ∨ .fin 1 < gamma := by tauto
    simp [a1, a2, a3, a4]
  · subst h
    simp only [checkEnvArgs, key]
    simp only [checkObs, bind, Except.bind]
    repeat' split
    all_goals rfl
  · simp only [checkEnvArgs, bind_ok, hl, checkAuxBounds, guardE_ok] at h
    obtain ⟨_, _, _, _, _, _, _, _, _, _, h⟩ := h
    exact hne h
  · simp only [checkEnvArgs, key]
    simp only [ho, bind, Except.bind, hl, checkAuxBounds, guardE, hne, if_false]
    repeat' split
    all_goals rfl

/-! ### C44: accepted observation lists can be observed -/

theorem branch_keys {l l' : List (Branch K)} (h : List.Forall₂ (fun b b' => b'.line = b.line) l l') :
    l'.map (fun b => (b.line.fBus, b.line.tBus)) = l.map (fun b => (b.line.fBus, b.line.tBus)) := by
  induction h with
  | nil => rfl
  | cons hh _ ih => simp only [List.map_cons, ih, hh]

theorem simOf_branch_nodup [FloorRing K] {n : Network K} {dt lam : X K} {s : Sim K} (h : SimOf n dt lam s) :
    (s.branches.map fun b => (b.line.fBus, b.line.tBus)).Nodup := by
  obtain ⟨s0, h0, h1⟩ := h
  obtain ⟨_, buses, branches, devices, bl, brl, dl, I, rfl⟩ := mkSim_ok.1 h0
  rw [branch_keys h1.branches]
  dsimp only
  rw [I.hbranches, List.map_map, List.map_map]
  have hd := dictOf_inv (fun l : Line K => (l.fBus, l.tBus)) brl
  have : (dictOf (fun l : Line K => (l.fBus, l.tBus)) brl).map (·.1) =
      (dictOf (fun l : Line K => (l.fBus, l.tBus)) brl).map (fun e => (e.2.fBus, e.2.tBus)) :=
    List.map_congr_left fun e he => hd.1 e he
  have h2 := hd.2
  rw [this] at h2
  exact h2

/-- What `"all"` stands for. -/
theorem idsOf_spec [IsStrictOrderedRing K] [FloorRing K] {n : Network K} {dt lam : X K} {s : Sim K} (h : SimOf n dt lam s) {k : ℕ}
    {key : Key} (hk : knownKey key = true) : ∃ ids, idsOf s k key = .ok ids ∧ ids.Nodup ∧
      ids.Pairwise (fun i j => ∀ m n, i = .node m → j = .node n → m < n) ∧ ∀ i, i ∈ ids ↔ Located s k key i := by
  have hb := simOf_bus_sorted h
  have hd := simOf_sorted h
  have hr := simOf_branch_nodup h
  have nodup : ∀ {ids : List Ident}, (∀ i ∈ ids, ∃ m, i = .node m) →
      ids.Pairwise (fun i j => ∀ m n, i = .node m → j = .node n → m < n) → ids.Nodup := by
    intro ids h1 h2
    refine List.Pairwise.imp_of_mem ?_ h2
    rintro i j hi hj h rfl
    obtain ⟨m, rfl⟩ := h1 i hi
    exact lt_irrefl m (h m m rfl rfl)
  have dev : ∀ P : Device K → Bool, ((s.devices.filter P).map fun d => Ident.node d.id).Pairwise
      (fun i j => ∀ m n, i = .node m → j = .node n → m < n) := by
    intro P
    rw [List.pairwise_map]
    refine (hd.filter P).imp ?_
    rintro a b hab m n h1 h2
    cases h1; cases h2; exact hab
  have bus : (s.buses.map fun b => Ident.node b.id).Pairwise
      (fun i j => ∀ m n, i = .node m → j = .node n → m < n) := by
    rw [List.pairwise_map]
    refine hb.imp ?_
    rintro a b hab m n h1 h2
    cases h1; cases h2; exact hab
  have all : (s.devices.map fun d => Ident.node d.id).Pairwise
      (fun i j => ∀ m n, i = .node m → j = .node n → m < n) := by
    rw [List.pairwise_map]
    refine hd.imp ?_
    rintro a b hab m n h1 h2
    cases h1; cases h2; exact hab
  have br : (s.branches.map fun b => Ident.br b.line.fBus b.line.tBus).Nodup := by
    have : (s.branches.map fun b => Ident.br b.line.fBus b.line.tBus) =
        (s.branches.map fun b => (b.line.fBus, b.line.tBus)).map fun p => Ident.br p.1 p.2 := by
      rw [List.map_map]; rfl
    rw [this]
    refine hr.map ?_
    rintro ⟨a, b⟩ ⟨a', b'⟩ h
    simp only [Ident.br.injEq] at h
    exact Prod.ext h.1 h.2
  have br' : (s.branches.map fun b => Ident.br b.line.fBus b.line.tBus).Pairwise
      (fun i j => ∀ m n, i = .node m → j = .node n → m < n) := by
    rw [List.pairwise_map]
    exact List.pairwise_of_forall (fun _ _ m n h => by cases h)
  have aux : ((List.range k).map fun i : ℕ => Ident.node i).Pairwise
      (fun i j => ∀ m n, i = .node m → j = .node n → m < n) := by
    rw [List.pairwise_map]
    refine List.pairwise_lt_range.imp ?_
    rintro a b hab m n h1 h2
    cases h1; cases h2; exact_mod_cast hab
  have node : ∀ {α : Type} (l : List α) (f : α → ℤ), ∀ i ∈ l.map (fun x => Ident.node (f x)), ∃ m, i = .node m := by
    intro α l f i hi
    obtain ⟨x, _, rfl⟩ := List.mem_map.1 hi
    exact ⟨_, rfl⟩
  have mem : ∀ {α : Type} {l : List α} {f : α → Ident} {i : Ident}, i ∈ l.map f ↔ ∃ x ∈ l, i = f x := by
    intro α l f i
    rw [List.mem_map]
    simp only [eq_comm]
  cases key <;> simp only [knownKey, Bool.false_eq_true] at hk <;> refine ⟨_, rfl, ?_⟩ <;>
    first
    | exact ⟨nodup (node s.buses _) bus, bus, fun i => by rw [mem]; simp [Located]⟩
    | exact ⟨nodup (node s.devices _) all, all, fun i => by rw [mem]; simp [Located]⟩
    | exact ⟨nodup (node _ _) (dev _), dev _, fun i => by rw [mem]; simp [Located, and_assoc]⟩
    | exact ⟨br, br', fun i => by rw [mem]; simp [Located]⟩
    | exact ⟨nodup (node _ _) aux, aux, fun i => by rw [mem]; simp [Located]⟩

theorem isDefault_default {key : Key} (h : key ≠ .branchIMagn) (hk : knownKey key = true) :
    IsDefault key (defaultUnit key) ∧ HasUnit key (defaultUnit key) := by
  rw [hasUnit_iff]
  cases key <;> simp_all [knownKey, IsDefault, quantities, defaultUnit, stateUnits]

/-- A supported item that names its unit where it must is resolved as the specification says. -/
theorem expandEntry_ok [IsStrictOrderedRing K] [FloorRing K] {n : Network K} {dt lam : X K} {s : Sim K} (h : SimOf n dt lam s) {k : ℕ}
    {o : ObsEntry} (ho : Supported s k o) (hu : NamesUnit o) : ∃ r, expandEntry s k o = .ok r ∧
      Resolves s k o r ∧ HasUnit r.1 r.2.2 ∧ ∀ i ∈ r.2.1, Located s k r.1 i := by
  cases o with
  | badLength => cases ho
  | item o =>
    obtain ⟨h1, h2, h3⟩ := ho
    obtain ⟨key, nodes, unit⟩ := o
    dsimp only at *
    have hk := hasUnit_known.1 h1
    have hunit : (unit = some (unit.getD (defaultUnit key)) ∨
        (unit = none ∧ IsDefault key (unit.getD (defaultUnit key)))) ∧ HasUnit key (unit.getD (defaultUnit key)) := by
      cases unit with
      | some u => exact ⟨.inl rfl, h2 u rfl⟩
      | none =>
        have hne : key ≠ .branchIMagn := fun h => hu h rfl
        exact ⟨.inr ⟨rfl, (isDefault_default hne hk).1⟩, (isDefault_default hne hk).2⟩
    rcases h3 with rfl | ⟨l, rfl, hl⟩
    · obtain ⟨ids, g1, g2, g3, g4⟩ := idsOf_spec h (k := k) hk
      refine ⟨(key, ids, unit.getD (defaultUnit key)), ?_, ⟨rfl, hunit.1, .inr ⟨rfl, g2, g3, g4⟩⟩, hunit.2,
        fun i hi => (g4 i).1 hi⟩
      simp [expandEntry, expandItem, g1, bind, Except.bind, pure, Except.pure]
    · exact ⟨(key, l, unit.getD (defaultUnit key)), rfl, ⟨rfl, hunit.1, .inl rfl⟩, hunit.2, hl⟩

theorem flatten_eq (vs : List Reading) : flatten vs = allVars vs := by
  simp [flatten, allVars, List.flatMap]

/-- **C44 (for plain items that name the unit of `branch_i_magn`).** If the arguments are accepted, then
the observation list is resolved item by item as written, the observation space can be built, with the
bounds of the listed variables in order, and every state that the simulator can report can be observed:
component by component, the observation is the listed variable.  Missing: `branch_i_magn` without unit
(`C44_counterexample_default_unit`) and negative auxiliary indices (`C44_counterexample_aux`). -/
theorem C44_observable_partial [IsStrictOrderedRing K] [FloorRing K] {n : Network K} {dt lam : X K} {s : Sim K} (h : SimOf n dt lam s)
    {pi : K} {k : ℤ} {dt' lamb gamma : X K} {l : List ObsEntry} {aux : Option (List (X K × X K))}
    (hc : checkEnvArgs k dt' lamb gamma (.list l) aux (s.stateSpace pi) = .ok ())
    (hp : ∀ o ∈ l, Plain o) (hu : ∀ o ∈ l, NamesUnit o) (sv : List Reading) :
    ∃ vs, obsValues s k.toNat sv (.list l) = .ok (some vs) ∧ List.Forall₂ (Resolves s k) l vs ∧
      (∃ bs, mapE (fun v => varBounds (s.stateSpace pi) aux v.1 v.2.1 v.2.2) (flatten vs) = .ok bs ∧
        List.Forall₂ (BoundedBy (s.stateSpace pi) aux) (allVars vs) bs) ∧
      ∀ s' st state, SameConfig s s' → s'.gatherState pi = .ok st → k ≤ state.length →
        ∃ xs, mapE (fun v => Env.readVar (some st) state k.toNat v.1 v.2.1 v.2.2) (flatten vs) = .ok xs ∧
          List.Forall₂ (ReadsAs st state k.toNat) (allVars vs) xs := by
  simp only [checkEnvArgs, bind_ok, guardE_ok, not_lt, exists_const] at hc
  obtain ⟨hk, _, _, _, ⟨⟩, hobs, haux⟩ := hc
  have hsup := (checkObs_ok (s := s) (fun l' hl' => by cases hl'; exact hp)).1 hobs
  have hkk : ((k.toNat : ℕ) : ℤ) = k := Int.toNat_of_nonneg hk
  have hex : ∀ o ∈ l, ∃ r, expandEntry s k.toNat o = .ok r ∧ Resolves s k o r ∧ HasUnit r.1 r.2.2 ∧
      ∀ i ∈ r.2.1, Located s k r.1 i := by
    intro o ho
    have := expandEntry_ok h (k := k.toNat) (o := o) (by rw [hkk]; exact hsup o ho) (hu o ho)
    rwa [hkk] at this
  obtain ⟨vs, hvs⟩ := mapE_total (f := expandEntry s k.toNat) (l := l) fun o ho => by
    obtain ⟨r, hr, _⟩ := hex o ho
    exact ⟨r, hr⟩
  have hres : List.Forall₂ (fun o r => Resolves s k o r ∧ HasUnit r.1 r.2.2 ∧ ∀ i ∈ r.2.1, Located s k r.1 i) l vs := by
    have hf := mapE_ok.1 hvs
    clear hvs
    clear hsup hobs hp hu
    induction hf with
    | nil => exact .nil
    | @cons o r l vs ho _ ih =>
      refine .cons ?_ (ih fun o ho => hex o (by simp [ho]))
      obtain ⟨r', hr', g⟩ := hex o (by simp)
      rw [ho] at hr'; cases hr'
      exact g
  have hv : ∀ v ∈ flatten vs, HasUnit v.1 v.2.1 ∧ Located s k v.1 v.2.2 := by
    intro v hv
    simp only [flatten, List.mem_flatMap, List.mem_map] at hv
    obtain ⟨r, hr, i, hi, rfl⟩ := hv
    obtain ⟨o, _, _, g1, g2⟩ := forall₂_mem_right hres hr
    exact ⟨g1, g2 i hi⟩
  refine ⟨vs, ?_, hres.imp fun _ _ h => h.1, ?_, ?_⟩
  · simp [obsValues, hvs, bind, Except.bind, pure, Except.pure]
  · have tot : ∀ v ∈ flatten vs, ∃ b, varBounds (s.stateSpace pi) aux v.1 v.2.1 v.2.2 = .ok b ∧
        BoundedBy (s.stateSpace pi) aux v b := by
      intro v hvv
      obtain ⟨g1, g2⟩ := hv v hvv
      by_cases ha : v.1 = .aux
      · rw [ha, located_aux] at g2
        obtain ⟨m, m0, mk, hm⟩ := g2
        cases aux with
        | none => exact ⟨(.ninf, .pinf), by simp [varBounds, ha], .inr ⟨ha, .inl ⟨rfl, rfl⟩⟩⟩
        | some bl =>
          simp only [checkAuxBounds, guardE_ok] at haux
          have hlt : m.toNat < bl.length := by omega
          refine ⟨bl[m.toNat], ?_, .inr ⟨ha, .inr ⟨bl, m.toNat, rfl, ?_, List.getElem?_eq_getElem hlt⟩⟩⟩
          · simp [varBounds, ha, hm, pyGet, m0, hlt]
          · rw [hm, Int.toNat_of_nonneg m0]
      · obtain ⟨d, e, b, h1, h2, h3⟩ := bounds_total (pi := pi) ha g1 g2
        refine ⟨b, ?_, .inl ⟨ha, ?_⟩⟩
        · simp [varBounds, ha, h1, h2, h3, bind, Except.bind]
        · rw [Dict.getE_ok] at h1 h2 h3
          simp [bound, h1, h2, h3]
    obtain ⟨bs, hbs⟩ := mapE_total (f := fun v : Key × QUnit × Ident => varBounds (s.stateSpace pi) aux v.1 v.2.1 v.2.2)
      (l := flatten vs) fun v hvv => by
        obtain ⟨b, hb, _⟩ := tot v hvv
        exact ⟨b, hb⟩
    refine ⟨bs, hbs, ?_⟩
    rw [← flatten_eq]
    have hf := mapE_ok.1 hbs
    rw [List.forall₂_iff_zip] at hf ⊢
    refine ⟨hf.1, fun {a b} hab => ?_⟩
    obtain ⟨b', hb', g⟩ := tot a (List.of_mem_zip hab).1
    have := hf.2 hab
    rw [hb'] at this; cases this
    exact g
  · intro s' st state hs hg hlen
    have h' : SimOf n dt lam s' := by
      obtain ⟨s0, g0, g1⟩ := h
      exact ⟨s0, g0, sameConfig_trans g1 hs⟩
    have hloc : ∀ key u i, HasUnit key u → Located s k key i → Located s' k key i := by
      intro key u i hu hi
      have hkn := hasUnit_known.1 ⟨u, hu⟩
      obtain ⟨ids, i1, _, _, i2⟩ := idsOf_spec h (k := k.toNat) hkn
      obtain ⟨ids', j1, _, _, j2⟩ := idsOf_spec h' (k := k.toNat) hkn
      rw [idsOf_same hs, i1] at j1
      cases j1
      rw [hkk] at i2 j2
      exact (j2 i).1 ((i2 i).2 hi)
    have tot : ∀ v ∈ flatten vs, ∃ x, Env.readVar (some st) state k.toNat v.1 v.2.1 v.2.2 = .ok x ∧
        ReadsAs st state k.toNat v x := by
      intro v hvv
      obtain ⟨g1, g2⟩ := hv v hvv
      by_cases ha : v.1 = .aux
      · rw [ha, located_aux] at g2
        obtain ⟨m, m0, mk, hm⟩ := g2
        obtain ⟨m, rfl⟩ := Int.eq_ofNat_of_zero_le m0
        have e1 : Env.readVar (some st) state k.toNat v.1 v.2.1 v.2.2 =
            .ok (state[state.length - k.toNat + m]'(by omega)) := by
          rw [ha, hm, readVar_aux (gather_aux hg), pyGet_neg (by omega) (by omega)]
        refine ⟨_, e1, .inr ⟨ha, m, hm, ?_⟩⟩
        rw [lastN, List.getElem?_drop, List.getElem?_eq_getElem]
      · obtain ⟨x, hx⟩ := reading_total hg ha g1 (hloc _ _ _ g1 g2)
        exact ⟨x, (readVar_reading ha).2 hx, .inl ⟨ha, hx⟩⟩
    obtain ⟨bs, hbs⟩ := mapE_total (f := fun v : Key × QUnit × Ident => Env.readVar (some st) state k.toNat v.1 v.2.1 v.2.2)
      (l := flatten vs) fun v hvv => by
        obtain ⟨b, hb, _⟩ := tot v hvv
        exact ⟨b, hb⟩
    refine ⟨bs, hbs, ?_⟩
    rw [← flatten_eq]
    have hf := mapE_ok.1 hbs
    rw [List.forall₂_iff_zip] at hf ⊢
    refine ⟨hf.1, fun {a b} hab => ?_⟩
    obtain ⟨b', hb', g⟩ := tot a (List.of_mem_zip hab).1
    have := hf.2 hab
    rw [hb'] at this; cases this
    exact g

/-! ### C51: observations and the observation space -/

/-- The spaces of an environment with a built-in observation. -/
theorem builtin_space [FloorRing K] {c : EnvCtx K ρ} {a : EnvArgs K} {e : Env K ρ} (he : EnvOf c a e)
    (hfn : a.observation.fn = none) : ∃ vs bs, e.obsFn = none ∧ e.obsValues = some vs ∧
      e.obsSpace = some { low := bs.map (·.1), high := bs.map (·.2) } ∧ bs.length = (flatten vs).length ∧
      ∃ s0 : Sim K, SameConfig s0 e.sim ∧
        mapE (fun v => varBounds (s0.stateSpace c.sim.pi) a.auxBounds v.1 v.2.1 v.2.2) (flatten vs) = .ok bs := by
  obtain ⟨e0, I, hs, -, hcfg⟩ := envOf_inv he
  have hv := I.obsValues
  have ho := I.obsSpace
  have : ∃ vs, e0.obsValues = some vs := by
    cases hao : a.observation with
    | callable f => rw [hao] at hfn; cases hfn
    | state => rw [hao, obsValues, Except.ok.injEq] at hv; exact ⟨_, hv.symm⟩
    | list l =>
      rw [hao] at hv
      simp only [obsValues, bind_ok, pure_ok] at hv
      obtain ⟨w, _, hv⟩ := hv
      exact ⟨w, hv.symm⟩
    | other => rw [hao] at hv; cases hv
  obtain ⟨vs, hvs⟩ := this
  rw [hvs] at ho
  simp only [observationBounds, mkBox, bind_ok, pure_ok] at ho
  obtain ⟨bs, hbs, b, ⟨_, _, rfl⟩, hb⟩ := ho
  exact ⟨vs, bs, by rw [hs.obsFn, I.obsFn, hfn], by rw [hs.obsValues, hvs], hs.obsSpace _ hb.symm,
    mapE_length hbs, e0.sim, hcfg, hbs⟩

theorem readVar_readsAs {st : SimState K} {pi : K} {s : Sim K} (hg : s.gatherState pi = .ok st)
    {state : List (X K)} {k : ℕ} (hk : k ≤ state.length) {v : Key × QUnit × Ident} {x y : X K}
    (h : Env.readVar (some st) state k v.1 v.2.1 v.2.2 = .ok y) (hr : ReadsAs st state k v x) : y = x := by
  rcases hr with ⟨h1, h2⟩ | ⟨h1, n, h2, h3⟩
  · rw [readVar_reading h1, h2] at h
    exact (Option.some.inj h).symm
  · rw [h1, h2, readVar_aux (gather_aux hg)] at h
    rw [lastN, List.getElem?_drop] at h3
    have hn : n < k := by
      by_contra hn
      rw [List.getElem?_eq_none (by omega)] at h3
      cases h3
    rw [pyGet_neg hn hk] at h
    rw [List.getElem?_eq_getElem (by omega)] at h3
    cases h; cases h3; rfl

/-- What a built-in observation is. -/
theorem observe_builtin {e : Env K ρ} {state obs : List (X K)} {narrow : Bool} {vs : List Reading}
    {bs : List (X K × X K)} (hfn : e.obsFn = none) (hv : e.obsValues = some vs)
    (hb : e.obsSpace = some { low := bs.map (·.1), high := bs.map (·.2) }) (hl : bs.length = (flatten vs).length)
    (h : e.observe state = .ok (obs, narrow)) : ∃ xs, e.extract state vs = .ok xs ∧ xs.length = bs.length ∧
      obs = List.zipWith (fun x b => X.clip x b.1 b.2) xs bs := by
  simp only [Env.observe, hfn, hv, hb, bind_ok, pure_ok, Prod.mk.injEq] at h
  obtain ⟨xs, h1, h2, _⟩ := h
  refine ⟨xs, h1, (mapE_length h1).trans hl.symm, ?_⟩
  rw [← h2, Env.clipVec, List.zip_map', List.map_id']

theorem clip_eq_hi {x lo hi : X K} (h1 : lo ≤ hi) (h2 : hi ≤ x) : X.clip x lo hi = hi := by
  have h3 := X.le_trans' h1 h2
  have ⟨hh, hx⟩ := X.le_notNan h2
  have ⟨hl, _⟩ := X.le_notNan h1
  simp only [X.clip, X.minimum, X.maximum, X.notNan_iff.1 hh, X.notNan_iff.1 hx, X.notNan_iff.1 hl, if_false, h3, if_true]
  split
  · exact X.le_antisymm' ‹_› h2
  · rfl

theorem clip_eq_lo {x lo hi : X K} (h1 : lo ≤ hi) (h2 : x ≤ lo) : X.clip x lo hi = lo := by
  have ⟨hx, hl⟩ := X.le_notNan h2
  have ⟨_, hh⟩ := X.le_notNan h1
  have : X.maximum x lo = lo := by
    simp only [X.maximum, X.notNan_iff.1 hx, X.notNan_iff.1 hl, if_false]
    split
    · exact X.le_antisymm' h2 ‹_›
    · rfl
  simp only [X.clip, this, X.minimum, X.notNan_iff.1 hh, X.notNan_iff.1 hl, if_false, h1, if_true]

/-- An observation of a built-in observation list: as long as the space, inside the bounds, and equal to
the listed variables wherever these are inside the bounds, to the violated bound elsewhere. -/
def Spec.Observed (e : Env K ρ) (obs : List (X K)) : Prop :=
  ∃ b vs st y, e.obsSpace = some b ∧ e.obsValues = some vs ∧ e.sim.state = some st ∧ e.dyn = some y ∧
    obs.length = b.low.length ∧ obs.length = b.high.length ∧ obs.length = (allVars vs).length ∧
    ∀ (j : ℕ) v o lo hi, (allVars vs)[j]? = some v → obs[j]? = some o → b.low[j]? = some lo → b.high[j]? = some hi →
      (lo ≤ o ∧ o ≤ hi) ∧ ∀ x, ReadsAs st y.state e.nAux v x →
        (lo ≤ x → x ≤ hi → o = x) ∧ (hi ≤ x → o = hi) ∧ (x ≤ lo → o = lo)

theorem forall₂_at {α β : Type} {R : α → β → Prop} {l : List α} {l' : List β} (h : List.Forall₂ R l l') {j : ℕ}
    {a : α} {b : β} (ha : l[j]? = some a) (hb : l'[j]? = some b) : R a b := by
  obtain ⟨a', ha', hr⟩ := forall₂_get h hb
  rw [ha] at ha'; cases ha'; exact hr

theorem observed_of {pi : K} {e : Env K ρ} {st : SimState K} {y : EnvDyn K} {obs : List (X K)} {narrow : Bool}
    {vs : List Reading} {bs : List (X K × X K)} (hfn : e.obsFn = none) (hv : e.obsValues = some vs)
    (hb : e.obsSpace = some { low := bs.map (·.1), high := bs.map (·.2) }) (hl : bs.length = (flatten vs).length)
    (hst : e.sim.state = some st) (hg : e.sim.gatherState pi = .ok st) (hy : e.dyn = some y)
    (hk : e.nAux ≤ y.state.length) (h : e.observe y.state = .ok (obs, narrow))
    (hc : (⟨bs.map (·.1), bs.map (·.2), false⟩ : Box K).contains obs narrow) : Observed e obs := by
  obtain ⟨xs, h1, h2, h3⟩ := observe_builtin hfn hv hb hl h
  have hlen : obs.length = bs.length := by rw [h3]; simp [h2]
  refine ⟨_, vs, st, y, hb, hv, hst, hy, by simp [hlen], by simp [hlen], by rw [← flatten_eq, hlen, hl], ?_⟩
  intro j v o lo hi hvj hoj hlo hhi
  obtain ⟨_, _, c1, c2⟩ := hc
  refine ⟨⟨forall₂_at c1 hlo hoj, forall₂_at c2 hhi hoj⟩, ?_⟩
  have hord := X.le_trans' (forall₂_at c1 hlo hoj) (forall₂_at c2 hhi hoj)
  intro x hx
  rw [← flatten_eq] at hvj
  obtain ⟨xj, hxj⟩ : ∃ xj, xs[j]? = some xj := by
    have : j < obs.length := (List.getElem?_eq_some_iff.1 hoj).1
    exact ⟨_, List.getElem?_eq_getElem (by omega)⟩
  have hr : Env.readVar e.sim.state y.state e.nAux v.1 v.2.1 v.2.2 = .ok xj := forall₂_at (mapE_ok.1 h1) hvj hxj
  rw [hst] at hr
  have := readVar_readsAs hg hk hr hx
  subst this
  obtain ⟨bj, hbj⟩ : ∃ bj, bs[j]? = some bj := by
    rw [List.getElem?_map] at hlo
    cases hh : bs[j]? with
    | none => rw [hh] at hlo; cases hlo
    | some b => exact ⟨b, rfl⟩
  rw [h3, List.getElem?_zipWith, hxj, hbj] at hoj
  rw [List.getElem?_map, hbj] at hlo hhi
  simp only [Option.map_some, Option.some.injEq] at hoj hlo hhi
  rw [← hoj]
  subst hlo hhi
  exact ⟨X.clip_eq_self, clip_eq_hi hord, clip_eq_lo hord⟩

/-- **C51 (for `reset` and non-terminal steps).** With a built-in observation, the observation returned by
`reset` and by every step that does not terminate is as long as the observation space, lies within its
bounds, and is equal to the listed variable wherever that is within bounds and to the violated bound
elsewhere.  Missing: the zero vector
returned by a terminating step need not lie in the space (`C51_counterexample_terminal`). -/
theorem C51_in_space_partial [FloorRing K] {c : EnvCtx K ρ} {a : EnvArgs K} {e e' : Env K ρ} (he : EnvOf c a e)
    (hfn : a.observation.fn = none) :
    (∀ seed obs, e.reset c seed = .ok (e', obs) → Observed e' obs) ∧
    (∀ act out, e.step c act = .ok (e', out) → out.terminated = false → Observed e' out.obs) := by
  constructor
  · intro seed obs h
    have he' := envOf_call he (.inl ⟨seed, obs, h⟩)
    have hs := sameEnv_call (.inl ⟨seed, obs, h⟩ : EnvCall c e e')
    obtain ⟨vs, bs, h1, h2, h3, h4, -⟩ := builtin_space he' hfn
    obtain ⟨vs', bs', g1, g2, g3, -, -⟩ := builtin_space he hfn
    have hob := hs.obsSpace _ g3
    obtain ⟨v, st, n, I⟩ := env_reset_ok h
    obtain ⟨r', k1, rfl⟩ := I.search
    obtain ⟨s1, r1, _, _, k3, k4⟩ := search_ok k1
    obtain ⟨full, f1, f2⟩ := call_state (.inr ⟨_, _, k4⟩ : Call c.sim s1 e'.sim)
    have hd : e'.dyn = some { terminated := false, timestep := 0, eLoss := 0, penalty := 0, state := st } := by
      rw [I.result]
    have hsz := (C49_state_layout he' hd).1
    have hobs : e'.observe st = .ok (obs, n) := by
      rw [← I.observe, Env.observe, Env.observe, h1, h2, h3]
      rw [h3] at hob
      simp only [Option.some.injEq] at hob
      simp only [g1, g3, ← hob]
      rw [show e.obsValues = some vs from hs.obsValues.symm.trans h2]
      simp only [Env.extract, hs.nAux]
    refine observed_of h1 h2 h3 h4 f1 f2 hd (by rw [hsz]; omega) hobs ?_
    have := I.contains
    rw [g3] at this
    rw [h3] at hob
    simp only [Option.some.injEq] at hob
    rw [hob]
    exact this
  · intro act out h ht
    have he' := envOf_call he (.inr (.inl ⟨act, out, h⟩))
    have hs := sameEnv_call (.inr (.inl ⟨act, out, h⟩) : EnvCall c e e')
    obtain ⟨vs, bs, h1, h2, h3, h4, -⟩ := builtin_space he' hfn
    obtain ⟨vs', bs', g1, g2, g3, -, -⟩ := builtin_space he hfn
    have hob := hs.obsSpace _ g3
    obtain ⟨_, y, hy, ⟨_, rfl, rfl⟩ | ⟨hf, h⟩⟩ := step_ok h
    · cases ht
    obtain ⟨vars, args, o, y', I⟩ := advance_ok h
    have ho : o.converged = true := by have := I.flag; rw [ht] at this; simpa using this.symm
    obtain ⟨full, f1, f2⟩ := call_state (.inl ⟨_, _, I.trans⟩ : Call c.sim e.sim e'.sim)
    have hd : e'.dyn = some y' := by rw [I.result]
    have hsz := (C49_state_layout he' hd).1
    have hv := I.vectors
    rw [ho] at hv
    simp only [Env.vectors, if_true, Env.observeStep, bind_ok] at hv
    obtain ⟨w, _, st, _, ⟨obs, narrow⟩, k3, k4⟩ := hv
    rw [h3] at hob
    simp only [Option.some.injEq] at hob
    rw [g3] at k4
    simp only [bind_ok, guardE_ok, pure_ok, Prod.mk.injEq] at k4
    obtain ⟨_, k5, rfl, rfl⟩ := k4
    have hobs : e'.observe y'.state = .ok (out.obs, narrow) := by
      rw [← k3, Env.observe, Env.observe, h1, h2, h3]
      simp only [g1, g3, ← hob]
      rw [show e.obsValues = some vs from hs.obsValues.symm.trans h2]
      simp only [Env.extract, hs.nAux]
    refine observed_of h1 h2 h3 h4 f1 f2 hd (by rw [hsz]; omega) hobs ?_
    rw [hob]
    exact k5

/-- **C51.** The assertion on the observation cannot fail: if the bounds of a built-in observation are
ordered and the listed variables are not NaN, the clipped observation is in the observation space. -/
theorem C51_assertion [FloorRing K] {c : EnvCtx K ρ} {a : EnvArgs K} {e : Env K ρ} (he : EnvOf c a e)
    (hfn : a.observation.fn = none) {b : Box K} (hb : e.obsSpace = some b)
    (hord : List.Forall₂ (fun l h => l ≤ h) b.low b.high) {state obs : List (X K)} {narrow : Bool}
    (h : e.observe state = .ok (obs, narrow))
    (hn : ∀ vs xs, e.obsValues = some vs → e.extract state vs = .ok xs → ∀ x ∈ xs, X.NotNan x) :
    b.contains obs narrow := by
  obtain ⟨vs, bs, h1, h2, h3, h4, -⟩ := builtin_space he hfn
  rw [hb] at h3
  cases h3
  obtain ⟨xs, g1, g2, rfl⟩ := observe_builtin h1 h2 hb h4 h
  have hnan := hn vs xs h2 g1
  clear h hn g1 hb h4 he
  refine ⟨by simp, by simp [g2], ?_, ?_⟩ <;> dsimp only at hord ⊢
  all_goals
    induction bs generalizing xs with
    | nil => cases xs <;> simp_all
    | cons p bs ih =>
      cases xs with
      | nil => simp at g2
      | cons x xs =>
        simp only [List.map_cons, List.forall₂_cons] at hord
        simp only [List.map_cons, List.zipWith_cons_cons, List.forall₂_cons]
        have := X.clip_mem (hnan x (by simp)) hord.1
        exact ⟨by first | exact this.1 | exact this.2,
          ih hord.2 xs (by simpa using g2) (fun y hy => hnan y (by simp [hy]))⟩

/-! ### C75: callables that return double precision vectors -/

/-- **C75.** In an environment whose observation is a callable (with the default observation bounds), the
space is created with single precision: if the callable returns a vector that cannot be cast safely to
single precision, such as a `float64` array, no call of `reset` ever succeeds. -/
theorem C75_float64_callable [FloorRing K] {c : EnvCtx K ρ} {a : EnvArgs K} {e : Env K ρ} (he : EnvOf c a e)
    {f : List (X K) → List (X K) × Bool} (hf : a.observation = .callable f) (h64 : ∀ v, (f v).2 = false)
    (seed : Option ℤ) (r : Env K ρ × List (X K)) : e.reset c seed ≠ .ok r := by
  have hinv : ∀ e1, EnvOf c a e1 → e1.obsFn = some f ∧ ∀ b, e1.obsSpace = some b → b.f32 = true := by
    rintro e1 ⟨e0, h0, hh⟩
    have I := mkEnv_ok h0
    induction hh with
    | refl =>
      refine ⟨by rw [I.obsFn, hf]; rfl, fun b hb => ?_⟩
      have hv := I.obsValues
      have ho := I.obsSpace
      rw [hf, obsValues, Except.ok.injEq] at hv
      rw [← hv, observationBounds, Except.ok.injEq] at ho
      rw [← ho] at hb; cases hb
    | @tail e1 e2 _ hc ih =>
      obtain ⟨i1, i2⟩ := ih
      refine ⟨(sameEnv_call hc).obsFn.trans i1, ?_⟩
      rcases hc with ⟨seed, obs, h⟩ | ⟨act, out, h⟩ | ⟨r, rfl⟩
      · obtain ⟨v, st, n, R⟩ := env_reset_ok h
        intro b hb
        rw [R.result] at hb
        simp only [Option.some.injEq] at hb
        subst hb
        cases hs : e1.obsSpace with
        | none => rfl
        | some b => exact i2 b hs
      · obtain ⟨_, y, _, ⟨_, rfl, _⟩ | ⟨_, h⟩⟩ := step_ok h
        · exact i2
        · obtain ⟨vars, args, o, y', R⟩ := advance_ok h
          rw [R.result]
          exact i2
      · exact i2
  obtain ⟨h1, h2⟩ := hinv e he
  intro h
  obtain ⟨e', obs⟩ := r
  obtain ⟨v, st, n, R⟩ := env_reset_ok h
  have ho := R.observe
  simp only [Env.observe, h1, Except.ok.injEq] at ho
  have hn : n = false := by rw [← h64 st, ho]
  have hc := R.contains.1
  rw [hn] at hc
  have : (Env.fixSpace e.obsSpace obs.length).f32 = true := by
    cases hs : e.obsSpace with
    | none => rfl
    | some b => exact h2 b hs
  exact absurd (hc this) (by simp)

end

end Anm
