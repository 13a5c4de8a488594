import Verif.Props.Renaming
import Verif.Props.EnvObs

/-! # C134, environments: a renumbering of the devices that keeps their order cannot be noticed -/

set_option linter.unusedSectionVars false

namespace Anm

open Spec

namespace Spec
variable {K ρ : Type} [Field K] [LinearOrder K]

/-- The nodes of an observation item under the new names. -/
def nodesRenamed (f : ℤ → ℤ) (key : Key) : Nodes → Nodes
  | .all => .all
  | .list l => .list (l.map (entryName f key))
  | .iter l => .iter (l.map (entryName f key))
  | .other => .other

/-- An element of the observation list under the new names. -/
def itemRenamed (f : ℤ → ℤ) : ObsEntry → ObsEntry
  | .item o => .item { o with nodes := nodesRenamed f o.key o.nodes }
  | .badLength => .badLength

/-- The observation argument under the new names. -/
def obsRenamed (f : ℤ → ℤ) : ObsArg K → ObsArg K
  | .list l => .list (l.map (itemRenamed f))
  | o => o

/-- The arguments of an environment under the new names. -/
def envArgsRenamed [FloorRing K] (f : ℤ → ℤ) (a : EnvArgs K) : EnvArgs K :=
  { a with network := renamed f a.network, observation := obsRenamed f a.observation }

/-- What is read from the state, under the new names. -/
def readingsRenamed (f : ℤ → ℤ) (vs : List Reading) : List Reading := vs.map fun v => (v.1, v.2.1.map (entryName f v.1), v.2.2)

/-- Two environments that differ in the names of the devices only. -/
structure SameEnvBut (f : ℤ → ℤ) (e e' : Env K ρ) : Prop where
  sim : SameBut f e.sim e'.sim
  state : Option.Rel (StateRenamed f) e.sim.state e'.sim.state
  nAux : e'.nAux = e.nAux
  gamma : e'.gamma = e.gamma
  c1 : e'.c1 = e.c1
  c2 : e'.c2 = e.c2
  stateValues : e'.stateValues = readingsRenamed f e.stateValues
  stateN : e'.stateN = e.stateN
  actionSpace : e'.actionSpace = e.actionSpace
  obsValues : e'.obsValues = e.obsValues.map (readingsRenamed f)
  obsFn : e'.obsFn = e.obsFn
  obsSpace : e'.obsSpace = e.obsSpace
  rng : e'.rng = e.rng
  dyn : e'.dyn = e.dyn

end Spec

section
variable {K ρ : Type} [Field K] [LinearOrder K] [IsStrictOrderedRing K] [FloorRing K] {f : ℤ → ℤ}

/-! ### Reading the state -/

theorem entryName_inj (hf : Function.Injective f) (key : Key) : Function.Injective (entryName f key) := by
  intro a b hab
  by_cases h : key ∈ [Key.devP, .devQ, .desSoc, .genPMax]
  · cases a <;> cases b <;> simp only [entryName, if_pos h] at hab
    · cases hf (Ident.node.inj hab); rfl
    all_goals first | exact hab | cases hab
  · rwa [entryName_other key h, entryName_other key h] at hab

theorem flatten_renamed (vs : List Reading) :
    flatten (readingsRenamed f vs) = (flatten vs).map fun v => (v.1, v.2.1, entryName f v.1 v.2.2) := by
  unfold flatten readingsRenamed
  rw [List.flatMap_map, List.map_flatMap]
  congr 1
  funext v
  simp [Function.comp_def]

theorem get?_none_of_keys {α β β' : Type} [DecidableEq α] {d : Dict α β} {d' : Dict α β'} (h : d'.map (·.1) = d.map (·.1)) {k : α}
    (hn : d.get? k = none) : d'.get? k = none := by
  unfold Dict.get? at *
  rw [Option.map_eq_none_iff, List.find?_eq_none] at *
  intro x hx
  have : x.1 ∈ d.map (·.1) := h ▸ List.mem_map_of_mem hx
  obtain ⟨y, hy, e⟩ := List.mem_map.1 this
  rw [← e]
  exact hn y hy

theorem readVar_renamed {o o' : Option (SimState K)} (h : Option.Rel (StateRenamed f) o o') (state : List (X K)) (k : ℕ) (key : Key) (u : QUnit) (i : Ident)
    {x : X K} (hx : Env.readVar o state k key u i = .ok x) : Env.readVar o' state k key u (entryName f key i) = .ok x := by
  cases h with
  | none => cases hx
  | @some st st' h =>
    unfold Env.readVar at hx ⊢
    dsimp only at hx ⊢
    cases hg : st.get? key with
    | none =>
      rw [hg] at hx
      rw [get?_none_of_keys h.1 hg]
      dsimp only at hx ⊢
      split at hx
      · rename_i hk
        rw [if_pos hk, hk, entryName_other .aux (by decide)]
        exact hx
      · cases hx
    | some d =>
      rw [hg] at hx
      simp only [bind_ok, Dict.getE_ok] at hx
      obtain ⟨d2, h1, h2⟩ := hx
      have hr : reading st key u i = some x := by simp [reading, hg, h1, h2]
      rw [← h.2] at hr
      unfold reading at hr
      cases hg' : st'.get? key with
      | none => rw [hg'] at hr; cases hr
      | some d' =>
        rw [hg'] at hr
        simp only [Option.bind_some] at hr
        cases hu : d'.get? u with
        | none => rw [hu] at hr; cases hr
        | some d2' =>
          rw [hu] at hr
          simp only [bind_ok, Dict.getE_ok]
          exact ⟨d2', hu, hr⟩

theorem extract_renamed {e e' : Env K ρ} (hst : Option.Rel (StateRenamed f) e.sim.state e'.sim.state) (hk : e'.nAux = e.nAux) {v : List (X K)}
    {vs : List Reading} {x : List (X K)} (h : e.extract v vs = .ok x) : e'.extract v (readingsRenamed f vs) = .ok x := by
  unfold Env.extract at h ⊢
  rw [flatten_renamed, hk]
  rw [mapE_ok] at h ⊢
  rw [List.forall₂_map_left_iff]
  exact h.imp fun r y hy => readVar_renamed hst v e.nAux r.1 r.2.1 r.2.2 hy

theorem observe_renamed {e e' : Env K ρ} (hst : Option.Rel (StateRenamed f) e.sim.state e'.sim.state) (hk : e'.nAux = e.nAux)
    (hov : e'.obsValues = e.obsValues.map (readingsRenamed f)) (hfn : e'.obsFn = e.obsFn) (hsp : e'.obsSpace = e.obsSpace) {v : List (X K)}
    {x : List (X K) × Bool} (h : e.observe v = .ok x) : e'.observe v = .ok x := by
  unfold Env.observe at h ⊢
  rw [hfn, hov, hsp]
  cases h1 : e.obsFn with
  | some g => rw [h1] at h; exact h
  | none =>
    rw [h1] at h
    dsimp only at h ⊢
    cases h2 : e.obsValues with
    | none => rw [h2] at h; cases h
    | some vs =>
      cases h3 : e.obsSpace with
      | none => rw [h2, h3] at h; cases h
      | some b =>
        rw [h2, h3] at h
        simp only [Option.map_some, bind_ok] at h ⊢
        obtain ⟨y, hy, e⟩ := h
        exact ⟨y, extract_renamed hst hk hy, e⟩

/-! ### Reset -/

theorem search_renamed (hf : StrictMono f) (c : EnvCtx K ρ) {n : ℕ} : ∀ (left : ℕ) {s s' t : Sim K} {r r' : ρ} {v : List (X K)}, SameBut f s s' →
    2 * s.nDevice + s.nDes + s.nNonSlackGen ≤ n → Env.search c n left s r = .ok (t, v, r') →
    ∃ t', Env.search c n left s' r = .ok (t', v, r') ∧ SameBut f t t' ∧ Option.Rel (StateRenamed f) t.state t'.state
  | 0, _, _, _, _, _, _, _, _, h => by cases h
  | left + 1, s, s', t, r, r', v, hs, hn, h => by
    unfold Env.search at h ⊢
    simp only [bind_ok] at h ⊢
    obtain ⟨⟨w, r1⟩, h1, _, h2, ⟨s1, ok⟩, h3, h4⟩ := h
    have hw : w.length = n := by simpa [guardE_ok] using h2
    obtain ⟨s1', st, st', e1, e2, e3, e4, e5⟩ := C134_reset hf.injective hs (C134_order hf hs (v := w) (by omega)) h3
    have hc := counts_same (sameConfig_reset h3)
    dsimp only at h4
    split at h4
    · cases h4
    · rename_i hl
      split at h4
      · rename_i hok
        cases h4
        refine ⟨s1', ⟨(v, r'), h1, (), h2, (s1', ok), e1, ?_⟩, e2, ?_⟩
        · dsimp only; rw [if_neg hl, if_pos hok]; rfl
        · rw [e3, e4]; exact .some e5
      · rename_i hok
        obtain ⟨t', g1, g2, g3⟩ := search_renamed hf c left e2 (by rw [hc.1, hc.2.2.1, hc.2.2.2]; exact hn) h4
        refine ⟨t', ⟨(w, r1), h1, (), h2, (s1', ok), e1, ?_⟩, g2, g3⟩
        dsimp only; rw [if_neg hl, if_neg hok]; exact g1

/-- **C134.** `reset`: the same observation, whatever the numbering. -/
theorem C134_env_reset (hf : StrictMono f) {c : EnvCtx K ρ} {e e' e1 : Env K ρ} {seed : Option ℤ} {obs : List (X K)} (he : SameEnvBut f e e')
    (h : e.reset c seed = .ok (e1, obs)) : ∃ e1', e'.reset c seed = .ok (e1', obs) ∧ SameEnvBut f e1 e1' := by
  unfold Env.reset at h ⊢
  simp only [bind_ok] at h ⊢
  obtain ⟨⟨s, v, r⟩, h1, st, h2, ⟨o, nar⟩, h3, _, h4, h5⟩ := h
  cases h5
  obtain ⟨n1, n2, n3⟩ := counts_rename he.sim
  have hsz : e'.initSize = e.initSize := by unfold Env.initSize; rw [n1, n2, n3, he.nAux]
  obtain ⟨s', g1, g2, g3⟩ := search_renamed hf c (n := e.initSize) 100 he.sim (by unfold Env.initSize; omega) h1
  refine ⟨_, ⟨(s', v, r), by rw [hsz, he.rng]; exact g1, st, ?_, (o, nar), ?_, (), ?_, rfl⟩, ?_⟩
  · rw [he.stateValues]
    exact extract_renamed (e := { e with sim := s, rng := r }) (e' := { e' with sim := s', rng := r }) g3 he.nAux h2
  · exact observe_renamed (e := { e with sim := s, rng := r }) (e' := { e' with sim := s', rng := r }) g3 he.nAux he.obsValues he.obsFn he.obsSpace h3
  · dsimp only; rw [he.obsSpace]; exact h4
  · exact ⟨g2, g3, he.nAux, he.gamma, he.c1, he.c2, he.stateValues, he.stateN, he.actionSpace, he.obsValues, he.obsFn, by dsimp only; rw [he.obsSpace], rfl, rfl⟩

/-! ### Step -/

theorem devices_renamed (hf : StrictMono f) {s s' : Sim K} (hs : SameBut f s s') : s'.devices = s.devices.map (rename f) := by
  refine (sorted_perm_eq Device.id ?_ hs.sorted' hs.devices).symm
  exact List.pairwise_map.2 (hs.sorted.imp fun h => hf h)

theorem get?_set_renamed (hf : Function.Injective f) {d d' : Dict ℤ (X K)} (h : ∀ i, d'.get? (f i) = d.get? i) (j : ℤ) (x : X K) (i : ℤ) :
    (d'.set (f j) x).get? (f i) = (d.set j x).get? i := by
  rw [Dict.get?_set, Dict.get?_set, h]
  simp only [hf.eq_iff]

theorem varDicts_renamed (hf : Function.Injective f) (pl pp : List (X K)) : ∀ (ds : List (Device K)) (l g : ℕ) {a a' x : Dict ℤ (X K) × Dict ℤ (X K)},
    (∀ i, a'.1.get? (f i) = a.1.get? i) → (∀ i, a'.2.get? (f i) = a.2.get? i) → Env.varDicts pl pp ds l g a = .ok x →
    ∃ x', Env.varDicts pl pp (ds.map (rename f)) l g a' = .ok x' ∧ (∀ i, x'.1.get? (f i) = x.1.get? i) ∧ ∀ i, x'.2.get? (f i) = x.2.get? i
  | [], _, _, a, a', x, h1, h2, h => by cases h; exact ⟨a', rfl, h1, h2⟩
  | d :: ds, l, g, a, a', x, h1, h2, h => by
    rw [List.map_cons]
    unfold Env.varDicts at h ⊢
    have k1 : (rename f d).isLoad = d.isLoad := rfl
    have k2 : (rename f d).isNonSlackGen = d.isNonSlackGen := rfl
    rw [k1, k2]
    split at h
    · rename_i hl
      simp only [bind_ok] at h
      obtain ⟨y, hy, h⟩ := h
      obtain ⟨x', e1, e2⟩ := varDicts_renamed hf pl pp ds (l + 1) g (a := (a.1.set d.id y, a.2)) (a' := (a'.1.set (f d.id) y, a'.2)) (get?_set_renamed hf h1 d.id y) h2 h
      refine ⟨x', ?_, e2⟩
      rw [if_pos hl]
      simp only [bind_ok]
      exact ⟨y, hy, e1⟩
    · rename_i hl
      rw [if_neg hl]
      split at h
      · rename_i hg
        simp only [bind_ok] at h
        obtain ⟨y, hy, h⟩ := h
        obtain ⟨x', e1, e2⟩ := varDicts_renamed hf pl pp ds l (g + 1) (a := (a.1, a.2.set d.id y)) (a' := (a'.1, a'.2.set (f d.id) y)) h1 (get?_set_renamed hf h2 d.id y) h
        refine ⟨x', ?_, e2⟩
        rw [if_pos hg]
        simp only [bind_ok]
        exact ⟨y, hy, e1⟩
      · rename_i hg
        rw [if_neg hg]
        exact varDicts_renamed hf pl pp ds l g h1 h2 h

theorem assign_renamed (hf : Function.Injective f) : ∀ (v : List (X K)) (ids : List ℤ) {d d' : Dict ℤ (X K)}, (∀ i, d'.get? (f i) = d.get? i) →
    ∀ i, (Env.assign d' v (ids.map f)).get? (f i) = (Env.assign d v ids).get? i
  | [], _, _, _, h, i => by simpa [Env.assign] using h i
  | _ :: _, [], _, _, h, i => by simpa [Env.assign] using h i
  | x :: v, j :: ids, d, d', h, i => by
    have := assign_renamed hf v ids (get?_set_renamed hf h j x) i
    simpa [Env.assign] using this

theorem decode_renamed (hf : StrictMono f) {s s' : Sim K} (hs : SameBut f s s') (a : List (X K)) :
    (∀ i, (Env.decode s' a).1.get? (f i) = (Env.decode s a).1.get? i) ∧ ∀ i, (Env.decode s' a).2.get? (f i) = (Env.decode s a).2.get? i := by
  have hk : ∀ q : Device K → Bool, (∀ d, q (rename f d) = q d) → (s'.devices.filter q).map Device.id = ((s.devices.filter q).map Device.id).map f := by
    intro q hq
    rw [devices_renamed hf hs, List.filter_map, List.map_map, List.map_map]
    congr 1
    exact List.filter_congr fun d _ => hq d
  unfold Env.decode
  dsimp only
  rw [hk _ fun _ => rfl, hk _ fun _ => rfl]
  simp only [List.length_map]
  exact ⟨fun i => assign_renamed hf.injective _ _ (assign_renamed hf.injective _ _ fun _ => rfl) i,
    fun i => assign_renamed hf.injective _ _ (assign_renamed hf.injective _ _ fun _ => rfl) i⟩

theorem vectors_renamed {e e' : Env K ρ} (h : SameEnvBut f e e') {conv : Bool} {state aux : List (X K)} {x : List (X K) × List (X K)}
    (hx : e.vectors conv state aux = .ok x) : e'.vectors conv state aux = .ok x := by
  unfold Env.vectors at hx ⊢
  cases conv with
  | false =>
    simp only [Bool.false_eq_true, if_false] at hx ⊢
    rw [h.stateN]
    unfold Env.obsN at hx ⊢
    rw [h.obsSpace]
    exact hx
  | true =>
    simp only [if_true] at hx ⊢
    unfold Env.observeStep at hx ⊢
    simp only [bind_ok] at hx ⊢
    obtain ⟨st, h1, st2, h2, ⟨obs, nar⟩, h3, h4⟩ := hx
    refine ⟨st, by rw [h.nAux]; exact h1, st2, ?_, (obs, nar), ?_, ?_⟩
    · rw [h.stateValues]; exact extract_renamed h.state h.nAux h2
    · exact observe_renamed h.state h.nAux h.obsValues h.obsFn h.obsSpace h3
    · dsimp only at h4 ⊢; rw [h.obsSpace]; exact h4

/-- **C134.** `step`: the same observation, reward and termination, whatever the numbering. -/
theorem C134_env_step (hf : StrictMono f) {c : EnvCtx K ρ} {e e' e1 : Env K ρ} {action : List (X K)} {out : Env.StepOut K} (he : SameEnvBut f e e')
    (h : e.step c action = .ok (e1, out)) : ∃ e1', e'.step c action = .ok (e1', out) ∧ SameEnvBut f e1 e1' := by
  unfold Env.step at h ⊢
  rw [he.actionSpace, he.dyn]
  simp only [bind_ok] at h ⊢
  obtain ⟨_, h0, h⟩ := h
  cases hd : e.dyn with
  | none => rw [hd] at h; cases h
  | some y =>
    rw [hd] at h
    dsimp only at h ⊢
    split at h
    · rename_i ht
      cases h
      refine ⟨e', ⟨(), h0, ?_⟩, he⟩
      rw [if_pos ht]
      unfold Env.obsN
      rw [he.obsSpace]
    · rename_i ht
      simp only [if_neg ht]
      unfold Env.advance at h ⊢
      simp only [bind_ok] at h ⊢
      obtain ⟨⟨vars, r⟩, h1, _, h2, ⟨pl, pp⟩, h3, ⟨s, o⟩, h4, ⟨rw', el, p⟩, h5, ⟨st, obs⟩, h6, h7⟩ := h
      cases h7
      obtain ⟨n1, n2, n3⟩ := counts_rename he.sim
      have nl : e'.sim.nLoad = e.sim.nLoad := by
        unfold Sim.nLoad
        rw [devices_renamed hf he.sim, List.filter_map, List.length_map]
        rfl
      dsimp only at h2 h3 h4 h5 h6
      obtain ⟨⟨pl', pp'⟩, v1, v2, v3⟩ := varDicts_renamed hf.injective _ _ e.sim.devices 0 0 (a' := ([], [])) (fun _ => rfl) (fun _ => rfl) h3
      obtain ⟨d1, d2⟩ := decode_renamed hf he.sim action
      obtain ⟨t', w, w', t1, t2, t3, t4, t5⟩ := C134_transition hf.injective
        (a' := { pLoad := pl', pPot := pp', pSet := (Env.decode e'.sim action).1, qSet := (Env.decode e'.sim action).2 }) he.sim ⟨v2, v3, d1, d2⟩ h4
      have hE : SameEnvBut f { e with sim := s, rng := r } { e' with sim := t', rng := r } :=
        ⟨t2, by rw [t3, t4]; exact .some t5, he.nAux, he.gamma, he.c1, he.c2, he.stateValues, he.stateN, he.actionSpace, he.obsValues, he.obsFn,
          he.obsSpace, rfl, he.dyn⟩
      refine ⟨_, ⟨(), h0, (vars, r), by rw [he.rng]; exact h1, (), ?_, (pl', pp'), ?_, (t', o), t1, (rw', el, p), ?_, (st, obs), ?_, rfl⟩, ?_⟩
      · dsimp only; rw [nl, n3, he.nAux]; exact h2
      · dsimp only; rw [nl, n3, devices_renamed hf he.sim]; exact v1
      · unfold Env.rewardOf at h5 ⊢
        dsimp only at h5 ⊢
        rw [he.gamma, he.c1, he.c2]
        exact h5
      · dsimp only; rw [nl, n3]; exact vectors_renamed hE h6
      · exact ⟨t2, hE.state, he.nAux, he.gamma, he.c1, he.c2, he.stateValues, he.stateN, he.actionSpace, he.obsValues, he.obsFn, he.obsSpace, rfl, rfl⟩

/-! ### Construction -/

theorem filter_renamed (hf : StrictMono f) {s s' : Sim K} (hs : SameBut f s s') (q : Device K → Bool) (hq : ∀ d, q (rename f d) = q d) :
    s'.devices.filter q = (s.devices.filter q).map (rename f) := by
  rw [devices_renamed hf hs, List.filter_map]
  congr 1
  exact List.filter_congr fun d _ => hq d

theorem get?_keyed {α β : Type} [DecidableEq α] (g : α → β → β) (k : α) : ∀ d : Dict α β, Dict.get? (d.map fun x => (x.1, g x.1 x.2)) k = (d.get? k).map (g k)
  | [] => rfl
  | x :: d => by
    have ih := get?_keyed g k d
    unfold Dict.get? at ih ⊢
    rw [List.map_cons, List.find?_cons, List.find?_cons]
    by_cases h : x.1 = k
    · subst h; simp
    · simp only [h, decide_false]
      exact ih

theorem get?_injective {α β : Type} [DecidableEq α] {g : α → α} (hg : Function.Injective g) (k : α) : ∀ d : Dict α β,
    Dict.get? (d.map fun x => (g x.1, x.2)) (g k) = d.get? k
  | [] => rfl
  | x :: d => by
    have ih := get?_injective hg k d
    unfold Dict.get? at ih ⊢
    rw [List.map_cons, List.find?_cons, List.find?_cons]
    by_cases h : x.1 = k
    · subst h; simp
    · simp only [h, hg.ne h, decide_false]
      exact ih

theorem stateSpace_renamed (hf : StrictMono f) {s s' : Sim K} (hs : SameBut f s s') (pi : K) :
    s'.stateSpace pi = (s.stateSpace pi).map fun x => (x.1, x.2.map fun y => (entryName f x.1 y.1, y.2)) := by
  have hk := filter_renamed hf hs
  unfold Sim.stateSpace
  dsimp only
  rw [hs.base, hs.buses, hs.branches, hk _ fun _ => rfl, hk _ fun _ => rfl, devices_renamed hf hs]
  simp only [List.map_cons, List.map_nil, List.map_map, Function.comp_def]
  rfl

theorem space_renamed (hf : StrictMono f) {s s' : Sim K} (hs : SameBut f s s') (pi : K) (key : Key) :
    (s'.stateSpace pi).get? key = ((s.stateSpace pi).get? key).map fun d => d.map fun y => (entryName f key y.1, y.2) := by
  rw [stateSpace_renamed hf hs]
  exact get?_keyed (fun k (d : Dict Ident (Dict QUnit (X K × X K))) => d.map fun y => (entryName f k y.1, y.2)) key _

theorem checkAux_renamed (k : ℤ) {l : List Ident} : l.map (entryName f .aux) = l := by
  have : entryName f .aux = id := funext fun i => entryName_other .aux (by decide) i
  rw [this, List.map_id]

theorem checkNodes_renamed (hf : StrictMono f) {s s' : Sim K} (hs : SameBut f s s') (pi : K) (k : ℤ) (o : ObsItem)
    (h : checkNodes (s.stateSpace pi) k o = .ok ()) : checkNodes (s'.stateSpace pi) k { o with nodes := nodesRenamed f o.key o.nodes } = .ok () := by
  obtain ⟨key, nodes, u⟩ := o
  cases nodes with
  | all => rfl
  | other => exact h
  | iter l =>
    simp only [checkNodes, nodesRenamed] at h ⊢
    by_cases hk : key = .aux
    · subst hk; rw [checkAux_renamed k]; exact h
    · rw [if_neg hk] at h; cases h
  | list l =>
    simp only [checkNodes, nodesRenamed] at h ⊢
    by_cases hk : key = .aux
    · subst hk; rw [checkAux_renamed k]; exact h
    · rw [if_neg hk] at h ⊢
      simp only [bind_ok, Dict.getE_ok, forE_ok, guardE_ok] at h ⊢
      obtain ⟨d, h1, h2⟩ := h
      refine ⟨d.map fun y => (entryName f key y.1, y.2), by rw [space_renamed hf hs, h1]; rfl, ?_⟩
      intro i hi
      obtain ⟨j, hj, rfl⟩ := List.mem_map.1 hi
      obtain ⟨y, hy, e⟩ := List.mem_map.1 (h2 j hj)
      exact List.mem_map.2 ⟨(entryName f key y.1, y.2), List.mem_map.2 ⟨y, hy, rfl⟩, by rw [← e]⟩

theorem checkObs_renamed (hf : StrictMono f) {s s' : Sim K} (hs : SameBut f s s') (pi : K) (k : ℤ) (o : ObsArg K)
    (h : checkObs (s.stateSpace pi) k o = .ok ()) : checkObs (s'.stateSpace pi) k (obsRenamed f o) = .ok () := by
  cases o with
  | state => rfl
  | callable g => rfl
  | other => exact h
  | list l =>
    simp only [checkObs, obsRenamed, forE_ok] at h ⊢
    intro o' ho
    obtain ⟨o, hm, rfl⟩ := List.mem_map.1 ho
    have := h o hm
    cases o with
    | badLength => exact this
    | item o =>
      simp only [checkEntry, itemRenamed, bind_ok] at this ⊢
      obtain ⟨_, h1, _, h2, h3⟩ := this
      exact ⟨(), h1, (), checkNodes_renamed hf hs pi k o h2, h3⟩

theorem idsOf_renamed (hf : StrictMono f) {s s' : Sim K} (hs : SameBut f s s') (k : ℕ) (key : Key) :
    idsOf s' k key = (idsOf s k key).map fun l => l.map (entryName f key) := by
  have hk := filter_renamed hf hs
  have h1 := hk Device.isStorage fun _ => rfl
  have h2 := hk Device.isNonSlackGen fun _ => rfl
  have h3 := devices_renamed hf hs
  cases key <;> simp only [idsOf, hs.buses, hs.branches, h1, h2, List.map_map, Function.comp_def, Except.map] <;> first
    | rfl
    | (simp only [h3, List.map_map, Function.comp_def]; rfl)

theorem expandItem_renamed (hf : StrictMono f) {s s' : Sim K} (hs : SameBut f s s') (k : ℕ) (o : ObsItem) :
    expandItem s' k { o with nodes := nodesRenamed f o.key o.nodes } = (expandItem s k o).map fun v => (v.1, v.2.1.map (entryName f v.1), v.2.2) := by
  obtain ⟨key, nodes, u⟩ := o
  cases nodes with
  | all =>
    simp only [expandItem, nodesRenamed]
    rw [idsOf_renamed hf hs]
    cases idsOf s k key <;> rfl
  | list l => rfl
  | iter l => rfl
  | other => rfl

theorem mapE_named {α α' β β' : Type} {g : α → Except PyErr β} {g' : α' → Except PyErr β'} {m : α → α'} {h : β → β'} (hg : ∀ a, g' (m a) = (g a).map h) :
    ∀ l : List α, mapE g' (l.map m) = (mapE g l).map (List.map h)
  | [] => rfl
  | a :: l => by
    have ih := mapE_named hg l
    rw [List.map_cons]
    unfold mapE
    rw [hg a, ih]
    cases g a <;> cases mapE g l <;> rfl

theorem getE_congr {α α' β : Type} [DecidableEq α] [DecidableEq α'] {d : Dict α β} {d' : Dict α' β} {i : α} {j : α'} (h : d'.get? j = d.get? i) :
    d'.getE j = d.getE i := by
  unfold Dict.getE; rw [h]

theorem varBounds_renamed (hf : StrictMono f) {s s' : Sim K} (hs : SameBut f s s') (pi : K) (aux : Option (List (X K × X K))) (key : Key) (u : QUnit) (i : Ident) :
    varBounds (s'.stateSpace pi) aux key u (entryName f key i) = varBounds (s.stateSpace pi) aux key u i := by
  unfold varBounds
  by_cases hk : key = .aux
  · subst hk; rw [entryName_other .aux (by decide), if_pos rfl, if_pos rfl]
  · rw [if_neg hk, if_neg hk]
    have h := space_renamed hf hs pi key
    cases hg : (s.stateSpace pi).get? key with
    | none =>
      rw [hg] at h
      rw [getE_congr (h.trans hg.symm : _ = (s.stateSpace pi).get? key)]
      unfold Dict.getE
      rw [hg]
      rfl
    | some d =>
      rw [hg] at h
      rw [Dict.getE_ok.2 hg, Dict.getE_ok.2 h]
      exact congrArg (· >>= fun e : Dict QUnit (X K × X K) => e.getE u) (getE_congr (get?_injective (entryName_inj hf.injective key) i d))

theorem observationBounds_renamed (hf : StrictMono f) {s s' : Sim K} (hs : SameBut f s s') (box : List (X K) → List (X K) → Except PyErr Unit) (pi : K)
    (aux : Option (List (X K × X K))) (ov : Option (List Reading)) :
    observationBounds box (s'.stateSpace pi) aux (ov.map (readingsRenamed f)) = observationBounds box (s.stateSpace pi) aux ov := by
  cases ov with
  | none => rfl
  | some vs =>
    simp only [observationBounds, Option.map_some]
    rw [flatten_renamed, mapE_named (g := fun v => varBounds (s.stateSpace pi) aux v.1 v.2.1 v.2.2) (h := id)
      fun v => (varBounds_renamed hf hs pi aux v.1 v.2.1 v.2.2).trans (except_map_id _)]
    cases mapE (fun v => varBounds (s.stateSpace pi) aux v.1 v.2.1 v.2.2) (flatten vs) with
    | error e => rfl
    | ok bs => simp only [Except.map, List.map_id]

theorem actionBounds_renamed (hf : StrictMono f) {s s' : Sim K} (hs : SameBut f s s') : actionBounds s' = actionBounds s := by
  have hk := filter_renamed hf hs
  have hsort : ∀ {t : Sim K} (q : Device K → Bool) (g : Device K → X K × X K), (t.devices.Pairwise fun a b => a.id < b.id) →
      sortDict ((t.devices.filter q).map fun x => (x.id, g x)) = (t.devices.filter q).map fun x => (x.id, g x) := by
    intro t q g ht
    refine List.Pairwise.insertionSort_eq (List.pairwise_map.2 ?_)
    exact (ht.filter q).imp fun h => h.le
  unfold actionBounds Sim.actionSpace
  dsimp only
  rw [hsort _ _ hs.sorted', hsort _ _ hs.sorted', hsort _ _ hs.sorted', hsort _ _ hs.sorted', hsort _ _ hs.sorted, hsort _ _ hs.sorted,
    hsort _ _ hs.sorted, hsort _ _ hs.sorted, hk _ fun _ => rfl, hk _ fun _ => rfl, hs.base]
  simp only [List.map_map, Function.comp_def]
  rfl

/-- **C134.** Making the environment from the renamed network file: it is accepted, with the same action space and the same observation space. -/
theorem C134_env_make (hf : StrictMono f) {c : EnvCtx K ρ} {a : EnvArgs K} {e : Env K ρ} (hb : a.network.baseMVA ≠ .nan) (hi : IntegralIds a.network)
    (h : mkEnv c a = .ok e) : ∃ e', mkEnv c (envArgsRenamed f a) = .ok e' ∧ SameEnvBut f e e' := by
  unfold mkEnv at h ⊢
  simp only [bind_ok] at h ⊢
  obtain ⟨s, h1, _, h2, sv, h3, act, h4, ov, h5, os, h6, h7⟩ := h
  cases h7
  obtain ⟨s', e1, hs⟩ := C134_construct hf.injective hb hi h1
  have hsv : mapE (expandItem s' a.nAux.toNat) stateItems = .ok (readingsRenamed f sv) := by
    have : stateItems = stateItems.map fun o => { o with nodes := nodesRenamed f o.key o.nodes } := rfl
    rw [this, mapE_named fun o => expandItem_renamed hf hs a.nAux.toNat o, h3]
    rfl
  have hov : obsValues s' a.nAux.toNat (readingsRenamed f sv) (obsRenamed f a.observation) = .ok (ov.map (readingsRenamed f)) := by
    cases ho : a.observation with
    | state => rw [ho] at h5; cases h5; rfl
    | callable g => rw [ho] at h5; cases h5; rfl
    | other => rw [ho] at h5; cases h5
    | list l =>
      rw [ho] at h5
      simp only [obsValues, obsRenamed, bind_ok] at h5 ⊢
      obtain ⟨r, h5, e⟩ := h5
      cases e
      refine ⟨readingsRenamed f r, ?_, rfl⟩
      rw [mapE_named (g := expandEntry s a.nAux.toNat) (h := fun v => (v.1, v.2.1.map (entryName f v.1), v.2.2)), h5]
      · rfl
      · intro o
        cases o with
        | badLength => rfl
        | item o => exact expandItem_renamed hf hs _ o
  refine ⟨_, ⟨s', e1, (), ?_, readingsRenamed f sv, hsv, act, ?_, ov.map (readingsRenamed f), hov, os, ?_, rfl⟩, ?_⟩
  · unfold checkEnvArgs at h2 ⊢
    simp only [bind_ok] at h2 ⊢
    obtain ⟨_, g1, _, g2, _, g3, _, g4, _, g5, g6⟩ := h2
    exact ⟨(), g1, (), g2, (), g3, (), g4, (), checkObs_renamed hf hs _ _ _ g5, g6⟩
  · rw [actionBounds_renamed hf hs]; exact h4
  · rw [observationBounds_renamed hf hs]; exact h6
  · refine ⟨hs, ?_, rfl, rfl, rfl, rfl, rfl, ?_, rfl, rfl, ?_, rfl, rfl, rfl⟩
    · obtain ⟨_, _, _, _, _, _, _, _, rfl⟩ := mkSim_ok.1 h1
      obtain ⟨_, _, _, _, _, _, _, _, rfl⟩ := mkSim_ok.1 e1
      exact .none
    · unfold readingsRenamed; simp [Function.comp_def]
    · show (obsRenamed f a.observation).fn = a.observation.fn
      cases a.observation <;> rfl

namespace Spec

/-- What an agent gets back for a sequence of actions. -/
def answers {K ρ : Type} [Field K] [LinearOrder K] (c : EnvCtx K ρ) : Env K ρ → List (List (X K)) → Except PyErr (List (Env.StepOut K))
  | _, [] => .ok []
  | e, a :: as => do
    let (e, o) ← e.step c a
    let os ← answers c e as
    pure (o :: os)

end Spec

theorem answers_renamed (hf : StrictMono f) {c : EnvCtx K ρ} : ∀ (as : List (List (X K))) {e e' : Env K ρ} {os : List (Env.StepOut K)}, SameEnvBut f e e' →
    answers c e as = .ok os → answers c e' as = .ok os
  | [], _, _, _, _, h => h
  | a :: as, e, e', os, he, h => by
    simp only [answers, bind_ok] at h ⊢
    obtain ⟨⟨e1, o⟩, h1, os', h2, h3⟩ := h
    obtain ⟨e1', g1, g2⟩ := C134_env_step hf he h1
    exact ⟨(e1', o), g1, os', answers_renamed hf as g2 h2, h3⟩

/-- **C134.** A whole episode: an agent sees no difference between the environments of the two files — the same action and observation space,
the same first observation, and the same observations, rewards and end of the episode for the same actions. -/
theorem C134_episode (hf : StrictMono f) {c : EnvCtx K ρ} {a : EnvArgs K} {e e1 : Env K ρ} {seed : Option ℤ} {obs : List (X K)} {as : List (List (X K))}
    {os : List (Env.StepOut K)} (hb : a.network.baseMVA ≠ .nan) (hi : IntegralIds a.network) (h : mkEnv c a = .ok e) (hr : e.reset c seed = .ok (e1, obs))
    (ho : answers c e1 as = .ok os) :
    ∃ e' e1', mkEnv c (envArgsRenamed f a) = .ok e' ∧ e'.actionSpace = e.actionSpace ∧ e'.obsSpace = e.obsSpace ∧
      e'.reset c seed = .ok (e1', obs) ∧ e1'.obsSpace = e1.obsSpace ∧ answers c e1' as = .ok os := by
  obtain ⟨e', g1, g2⟩ := C134_env_make hf hb hi h
  obtain ⟨e1', g3, g4⟩ := C134_env_reset hf g2 hr
  exact ⟨e', e1', g1, g2.actionSpace, g2.obsSpace, g3, g4.obsSpace, answers_renamed hf as g4 ho⟩

end

end Anm
