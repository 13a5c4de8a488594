import Verif.Spec.Env

/-! # Inversion lemmas and invariants for environments -/

set_option linter.unusedSectionVars false

namespace Anm

open Spec

theorem mapE_append_ok {α β : Type} {f : α → Except PyErr β} {l1 l2 : List α} {r : List β} :
    mapE f (l1 ++ l2) = .ok r ↔ ∃ r1 r2, mapE f l1 = .ok r1 ∧ mapE f l2 = .ok r2 ∧ r = r1 ++ r2 := by
  induction l1 generalizing r with
  | nil => simp [mapE]
  | cons a l1 ih =>
    simp only [List.cons_append, mapE, bind_ok, pure_ok, ih]
    constructor
    · rintro ⟨b, hb, _, ⟨r1, r2, h1, h2, rfl⟩, rfl⟩
      exact ⟨_, r2, ⟨b, hb, r1, h1, rfl⟩, h2, rfl⟩
    · rintro ⟨_, r2, ⟨b, hb, r1, h1, rfl⟩, h2, rfl⟩
      exact ⟨b, hb, _, ⟨r1, r2, h1, h2, rfl⟩, rfl⟩

section
variable {K ρ : Type} [Field K] [LinearOrder K]

/-! ### Inversions -/

theorem search_ok {c : EnvCtx K ρ} {size n : ℕ} {s s' : Sim K} {r r' : ρ} {v : List (X K)}
    (h : Env.search c size n s r = .ok (s', v, r')) :
    ∃ s1 r1, History c.sim s s1 ∧ c.initState r1 = .ok (v, r') ∧ v.length = size ∧
      s1.reset c.sim v = .ok (s', true) := by
  induction n generalizing s r with
  | zero => simp [Env.search] at h
  | succ n ih =>
    simp only [Env.search, bind_ok, guardE_ok] at h
    obtain ⟨⟨v1, r1⟩, h1, _, h2, ⟨s1, ok⟩, h3, h4⟩ := h
    dsimp only at h1 h2 h3 h4
    split at h4
    · cases h4
    · split at h4
      · rename_i hok
        simp only [pure_ok, Prod.mk.injEq] at h4
        obtain ⟨rfl, rfl, rfl⟩ := h4
        subst hok
        exact ⟨s, r, .refl, h1, h2, h3⟩
      · obtain ⟨s2, r2, g1, g2⟩ := ih h4
        exact ⟨s2, r2, .head (.inr ⟨_, _, h3⟩) g1, g2⟩

/-- What a successful `reset` does. -/
structure EnvResetInv (c : EnvCtx K ρ) (e : Env K ρ) (seed : Option ℤ) (e' : Env K ρ) (obs : List (X K))
    (v st : List (X K)) (narrow : Bool) : Prop where
  search : ∃ r', Env.search c e.initSize 100 e.sim ((seed.map c.seeded).getD e.rng) = .ok (e'.sim, v, r') ∧
    e'.rng = r'
  state : e'.extract v e.stateValues = .ok st
  observe : ({ e with sim := e'.sim, rng := e'.rng } : Env K ρ).observe st = .ok (obs, narrow)
  contains : (Env.fixSpace e.obsSpace obs.length).contains obs narrow
  result : e' = { e with sim := e'.sim, rng := e'.rng, obsSpace := some (Env.fixSpace e.obsSpace obs.length),
                         dyn := some { terminated := false, timestep := 0, eLoss := 0, penalty := 0, state := st } }

theorem env_reset_ok {c : EnvCtx K ρ} {e e' : Env K ρ} {seed : Option ℤ} {obs : List (X K)}
    (h : e.reset c seed = .ok (e', obs)) : ∃ v st narrow, EnvResetInv c e seed e' obs v st narrow := by
  simp only [Env.reset, bind_ok, guardE_ok, pure_ok, Prod.mk.injEq] at h
  obtain ⟨⟨s, v, r⟩, h1, st, h2, ⟨obs', narrow⟩, h3, _, h4, rfl, rfl⟩ := h
  exact ⟨v, st, narrow, ⟨r, h1, rfl⟩, h2, h3, h4, rfl⟩

/-- What a successful step from a non-terminal state does. -/
structure AdvInv (c : EnvCtx K ρ) (e : Env K ρ) (y : EnvDyn K) (action : List (X K)) (e' : Env K ρ)
    (out : Env.StepOut K) (vars : List (X K)) (args : Sim.Args K) (o : Sim.TransOut K) (y' : EnvDyn K) : Prop where
  next : c.nextVars y.state e.rng = .ok (vars, e'.rng)
  size : vars.length = e.sim.nLoad + e.sim.nNonSlackGen + e.nAux
  dicts : Env.varDicts (vars.take e.sim.nLoad) (Sim.slice vars e.sim.nLoad (e.sim.nLoad + e.sim.nNonSlackGen))
    e.sim.devices 0 0 ([], []) = .ok (args.pLoad, args.pPot)
  decode : Env.decode e.sim action = (args.pSet, args.qSet)
  trans : e.sim.transition c.sim args = .ok (e'.sim, o)
  reward : e.rewardOf o.converged o.eLoss o.penalty = .ok (out.reward, y'.eLoss, y'.penalty)
  vectors : ({ e with sim := e'.sim, rng := e'.rng } : Env K ρ).vectors o.converged y.state
    (vars.drop (e.sim.nLoad + e.sim.nNonSlackGen)) = .ok (y'.state, out.obs)
  result : e' = { e with sim := e'.sim, rng := e'.rng, dyn := some y' }
  terminated : y'.terminated = !o.converged
  timestep : y'.timestep = y.timestep + 1
  flag : out.terminated = !o.converged

theorem advance_ok {c : EnvCtx K ρ} {e e' : Env K ρ} {y : EnvDyn K} {action : List (X K)} {out : Env.StepOut K}
    (h : e.advance c y action = .ok (e', out)) :
    ∃ vars args o y', AdvInv c e y action e' out vars args o y' := by
  simp only [Env.advance, bind_ok, guardE_ok, pure_ok, Prod.mk.injEq] at h
  obtain ⟨⟨vars, r⟩, h1, _, h2, ⟨pl, pp⟩, h3, ⟨s, o⟩, h4, ⟨rw, el, p⟩, h5, ⟨st, obs⟩, h6, rfl, rfl⟩ := h
  exact ⟨vars, ⟨pl, pp, (Env.decode e.sim action).1, (Env.decode e.sim action).2⟩, o,
    ⟨!o.converged, y.timestep + 1, el, p, st⟩, h1, h2, h3, rfl, h4, h5,
    h6, rfl, rfl, rfl, rfl⟩

theorem step_ok {c : EnvCtx K ρ} {e e' : Env K ρ} {action : List (X K)} {out : Env.StepOut K}
    (h : e.step c action = .ok (e', out)) : e.actionSpace.contains action true ∧ ∃ y, e.dyn = some y ∧
      ((y.terminated = true ∧ e' = e ∧ out = { obs := Env.zeros e.obsN, reward := 0, terminated := true }) ∨
       (y.terminated = false ∧ e.advance c y action = .ok (e', out))) := by
  simp only [Env.step, bind_ok, guardE_ok] at h
  obtain ⟨_, h1, h2⟩ := h
  refine ⟨h1, ?_⟩
  split at h2
  · cases h2
  · rename_i y hy
    refine ⟨y, hy, ?_⟩
    split at h2
    · rename_i ht
      simp only [Except.ok.injEq, Prod.mk.injEq] at h2
      exact .inl ⟨ht, h2.1.symm, h2.2.symm⟩
    · rename_i ht
      exact .inr ⟨by simpa using ht, h2⟩

/-! ### What never changes -/

/-- Two environment objects of the same construction. -/
structure SameEnv (e e' : Env K ρ) : Prop where
  nAux : e'.nAux = e.nAux
  gamma : e'.gamma = e.gamma
  c1 : e'.c1 = e.c1
  c2 : e'.c2 = e.c2
  auxBounds : e'.auxBounds = e.auxBounds
  stateValues : e'.stateValues = e.stateValues
  stateN : e'.stateN = e.stateN
  actionSpace : e'.actionSpace = e.actionSpace
  obsValues : e'.obsValues = e.obsValues
  obsFn : e'.obsFn = e.obsFn
  obsSpace : ∀ b, e.obsSpace = some b → e'.obsSpace = some b

theorem SameEnv.refl (e : Env K ρ) : SameEnv e e := ⟨rfl, rfl, rfl, rfl, rfl, rfl, rfl, rfl, rfl, rfl, fun _ h => h⟩

theorem SameEnv.trans {e e' e'' : Env K ρ} (h : SameEnv e e') (h' : SameEnv e' e'') : SameEnv e e'' :=
  ⟨h'.nAux.trans h.nAux, h'.gamma.trans h.gamma, h'.c1.trans h.c1, h'.c2.trans h.c2,
   h'.auxBounds.trans h.auxBounds, h'.stateValues.trans h.stateValues, h'.stateN.trans h.stateN,
   h'.actionSpace.trans h.actionSpace, h'.obsValues.trans h.obsValues, h'.obsFn.trans h.obsFn,
   fun b hb => h'.obsSpace b (h.obsSpace b hb)⟩

theorem sameEnv_call {c : EnvCtx K ρ} {e e' : Env K ρ} (h : EnvCall c e e') : SameEnv e e' := by
  rcases h with ⟨seed, obs, h⟩ | ⟨a, out, h⟩ | ⟨r, rfl⟩
  · obtain ⟨v, st, n, I⟩ := env_reset_ok h
    rw [I.result]
    exact ⟨rfl, rfl, rfl, rfl, rfl, rfl, rfl, rfl, rfl, rfl, fun b hb => by simp [hb, Env.fixSpace]⟩
  · obtain ⟨_, y, hy, ⟨_, rfl, _⟩ | ⟨_, h⟩⟩ := step_ok h
    · exact .refl _
    · obtain ⟨vars, args, o, y', I⟩ := advance_ok h
      rw [I.result]
      exact ⟨rfl, rfl, rfl, rfl, rfl, rfl, rfl, rfl, rfl, rfl, fun b hb => hb⟩
  · exact ⟨rfl, rfl, rfl, rfl, rfl, rfl, rfl, rfl, rfl, rfl, fun b hb => hb⟩

theorem sameEnv_history {c : EnvCtx K ρ} {e e' : Env K ρ} (h : EnvHistory c e e') : SameEnv e e' := by
  induction h with
  | refl => exact .refl _
  | tail _ h ih => exact ih.trans (sameEnv_call h)

/-- The simulator inside an environment goes through a history of its own. -/
theorem simHistory_call {c : EnvCtx K ρ} {e e' : Env K ρ} (h : EnvCall c e e') : History c.sim e.sim e'.sim := by
  rcases h with ⟨seed, obs, h⟩ | ⟨a, out, h⟩ | ⟨r, rfl⟩
  · obtain ⟨v, st, n, I⟩ := env_reset_ok h
    obtain ⟨r', h1, _⟩ := I.search
    obtain ⟨s1, r1, g1, _, _, g2⟩ := search_ok h1
    exact g1.tail (.inr ⟨_, _, g2⟩)
  · obtain ⟨_, y, hy, ⟨_, rfl, _⟩ | ⟨_, h⟩⟩ := step_ok h
    · exact .refl
    · obtain ⟨vars, args, o, y', I⟩ := advance_ok h
      exact .single (.inl ⟨_, _, I.trans⟩)
  · exact .refl

theorem simHistory {c : EnvCtx K ρ} {e e' : Env K ρ} (h : EnvHistory c e e') : History c.sim e.sim e'.sim := by
  induction h with
  | refl => exact .refl
  | tail _ h ih => exact Relation.ReflTransGen.trans ih (simHistory_call h)

theorem sameConfig_call {c : Ctx K} {s s' : Sim K} (h : Call c s s') : SameConfig s s' := by
  rcases h with ⟨a, out, h⟩ | ⟨v, b, h⟩
  · exact sameConfig_transition h
  · exact sameConfig_reset h

theorem sameConfig_history {c : Ctx K} {s s' : Sim K} (h : History c s s') : SameConfig s s' := by
  induction h with
  | refl => exact sameConfig_refl _
  | tail _ h ih => exact sameConfig_trans ih (sameConfig_call h)

/-- Two simulators of the same network have the same identifiers. -/
theorem idsOf_same {s s' : Sim K} (h : SameConfig s s') (k : ℕ) (key : Key) : idsOf s' k key = idsOf s k key := by
  have hb : s'.buses.map (fun b => Ident.node b.id) = s.buses.map (fun b => Ident.node b.id) := by
    have := h.buses
    generalize s.buses = l at *
    generalize s'.buses = l' at *
    induction this with
    | nil => rfl
    | cons hh _ ih => simp only [List.map_cons, ih]; rw [hh]
  have hd : s'.devices.map (fun d => Ident.node d.id) = s.devices.map (fun d => Ident.node d.id) := by
    have := h.devices
    generalize s.devices = l at *
    generalize s'.devices = l' at *
    induction this with
    | nil => rfl
    | cons hh _ ih => simp only [List.map_cons, ih]; rw [hh]
  have hf (P : Device K → Bool) (hP : ∀ d d', SameMachine d d' → P d' = P d) :
      (s'.devices.filter P).map (fun d => Ident.node d.id) = (s.devices.filter P).map (fun d => Ident.node d.id) := by
    have := h.devices
    try clear hd
    generalize s.devices = l at *
    generalize s'.devices = l' at *
    induction this with
    | nil => rfl
    | @cons a b _ _ hh _ ih =>
      simp only [List.filter_cons, hP a b hh]
      split
      · simp only [List.map_cons, ih]; rw [hh]
      · exact ih
  have hr : s'.branches.map (fun b => Ident.br b.line.fBus b.line.tBus) =
      s.branches.map (fun b => Ident.br b.line.fBus b.line.tBus) := by
    have := h.branches
    generalize s.branches = l at *
    generalize s'.branches = l' at *
    induction this with
    | nil => rfl
    | cons hh _ ih => simp only [List.map_cons, ih]; rw [hh]
  have h1 := hf Device.isStorage (fun d d' hh => by rw [hh]; rfl)
  have h2 := hf Device.isNonSlackGen (fun d d' hh => by rw [hh]; rfl)
  cases key <;> simp only [idsOf, hb, hd, hr, h1, h2]

theorem counts_same {s s' : Sim K} (h : SameConfig s s') : s'.nDevice = s.nDevice ∧ s'.nLoad = s.nLoad ∧
    s'.nNonSlackGen = s.nNonSlackGen ∧ s'.nDes = s.nDes := by
  have hf (P : Device K → Bool) (hP : ∀ d d', SameMachine d d' → P d' = P d) :
      (s'.devices.filter P).length = (s.devices.filter P).length := by
    have := h.devices
    try clear hd
    generalize s.devices = l at *
    generalize s'.devices = l' at *
    induction this with
    | nil => rfl
    | @cons a b _ _ hh _ ih =>
      simp only [List.filter_cons, hP a b hh]
      split
      · simp only [List.length_cons, ih]
      · exact ih
  exact ⟨h.devices.length_eq.symm, hf _ (fun d d' hh => by rw [hh]; rfl), hf _ (fun d d' hh => by rw [hh]; rfl),
    hf _ (fun d d' hh => by rw [hh]; rfl)⟩

end

end Anm

namespace Anm

open Spec

section
variable {K ρ : Type} [Field K] [LinearOrder K]

/-! ### State vectors -/

/-- The resolved state variables. -/
def stateReadings (s : Sim K) (k : ℕ) : List Reading :=
  [(.devP, s.devices.map fun d => .node d.id, .mw), (.devQ, s.devices.map fun d => .node d.id, .mvar),
   (.desSoc, (s.devices.filter Device.isStorage).map fun d => .node d.id, .mwh),
   (.genPMax, (s.devices.filter Device.isNonSlackGen).map fun d => .node d.id, .mw),
   (.aux, (List.range k).map fun i : ℕ => .node i, .none)]

theorem expand_state (s : Sim K) (k : ℕ) : mapE (expandItem s k) stateItems = .ok (stateReadings s k) := rfl

theorem stateReadings_same {s s' : Sim K} (h : SameConfig s s') (k : ℕ) : stateReadings s' k = stateReadings s k := by
  have h1 := idsOf_same h k .devP
  have h2 := idsOf_same h k .desSoc
  have h3 := idsOf_same h k .genPMax
  simp only [idsOf, Except.ok.injEq] at h1 h2 h3
  simp only [stateReadings, h1, h2, h3]

/-- What the constructor does. -/
structure MkEnvInv [FloorRing K] (c : EnvCtx K ρ) (a : EnvArgs K) (e : Env K ρ) : Prop where
  sim : mkSim a.network a.deltaT a.lamb = .ok e.sim
  args : checkEnvArgs a.nAux a.deltaT a.lamb a.gamma a.observation a.auxBounds (e.sim.stateSpace c.sim.pi) = .ok ()
  nAux : e.nAux = a.nAux.toNat
  gamma : e.gamma = a.gamma
  c1 : e.c1 = clipValue (a.clipping.bind (·.1))
  c2 : e.c2 = clipValue (a.clipping.bind (·.2))
  auxBounds : e.auxBounds = a.auxBounds
  stateValues : e.stateValues = stateReadings e.sim e.nAux
  stateN : e.stateN = (e.stateValues.map (·.2.1.length)).sum
  action : mkBox c.box (actionBounds e.sim) = .ok e.actionSpace
  obsValues : Anm.obsValues e.sim e.nAux e.stateValues a.observation = .ok e.obsValues
  obsFn : e.obsFn = a.observation.fn
  obsSpace : observationBounds c.box (e.sim.stateSpace c.sim.pi) a.auxBounds e.obsValues = .ok e.obsSpace
  dyn : e.dyn = none

theorem mkEnv_ok [FloorRing K] {c : EnvCtx K ρ} {a : EnvArgs K} {e : Env K ρ} (h : mkEnv c a = .ok e) :
    MkEnvInv c a e := by
  simp only [mkEnv, bind_ok, pure_ok] at h
  obtain ⟨s, h1, ⟨⟩, h2, sv, h3, act, h4, ov, h5, os, h6, rfl⟩ := h
  rw [expand_state] at h3
  cases h3
  exact ⟨h1, h2, rfl, rfl, rfl, rfl, rfl, rfl, rfl, h4, h5, rfl, h6, rfl⟩

theorem readVar_reading {full : SimState K} {state : List (X K)} {k : ℕ} {key : Key} {u : QUnit} {i : Ident}
    {x : X K} (hk : key ≠ .aux) :
    Env.readVar (some full) state k key u i = .ok x ↔ reading full key u i = some x := by
  unfold Env.readVar reading
  dsimp only
  split
  · rename_i d h1
    simp only [h1, bind_ok, Dict.getE_ok, Option.bind_some]
    cases h2 : Dict.get? d u <;> simp
  · rename_i h1
    simp [h1, hk]

theorem gather_aux {pi : K} {s : Sim K} {st : SimState K} (h : s.gatherState pi = .ok st) :
    Dict.get? st .aux = none := by
  simp only [Sim.gatherState, bind_ok, pure_ok] at h
  obtain ⟨soc, hsoc, rfl⟩ := h
  simp [Dict.get?]

theorem readVar_aux {full : SimState K} {state : List (X K)} {k : ℕ} {u : QUnit} {i : ℤ}
    (h : Dict.get? full .aux = none) : Env.readVar (some full) state k .aux u (.node i) = pyGet state (i - k) := by
  simp [Env.readVar, h]

theorem pyGet_neg {α : Type} {v : List α} {i k : ℕ} (hi : i < k) (hk : k ≤ v.length) :
    pyGet v ((i : ℤ) - k) = .ok (v[v.length - k + i]'(by omega)) := by
  have e : ((i : ℤ) - k + v.length).toNat = v.length - k + i := by omega
  unfold pyGet
  rw [if_neg (by omega), if_pos (by omega), e, List.getElem?_eq_getElem (by omega)]

/-- The auxiliary variables read from a vector are its last elements. -/
theorem read_aux {α : Type} {v : List α} {k : ℕ} (hk : k ≤ v.length) :
    mapE (fun i : ℕ => pyGet v ((i : ℤ) - k)) (List.range k) = .ok (lastN k v) := by
  rw [mapE_ok]
  have : lastN k v = (List.range k).attach.map (fun i => v[v.length - k + i.1]'(by
      have := List.mem_range.1 i.2; omega)) := by
    apply List.ext_getElem
    · simp [lastN]; omega
    · intro j h1 h2
      simp [lastN]
  rw [this]
  rw [List.forall₂_map_right_iff]
  have h2 : ∀ (l : List ℕ) (hl : ∀ i ∈ l, i < k), List.Forall₂ (fun (i : ℕ) (c : {x // x ∈ l}) => pyGet v ((i : ℤ) - k) =
      .ok (v[v.length - k + c.1]'(by have := hl _ c.2; omega))) l l.attach := by
    intro l hl
    have : List.Forall₂ (fun i (c : {x // x ∈ l}) => i = c.1) l l.attach := by
      rw [List.forall₂_iff_get]
      simp
    refine this.imp ?_
    rintro i c rfl
    exact pyGet_neg (hl _ c.2) hk
  exact h2 _ (fun i hi => List.mem_range.1 hi)

/-- A vector read with the resolved state variables. -/
theorem extract_layout {pi : K} {e : Env K ρ} {v w : List (X K)} {st : SimState K}
    (hst : e.sim.state = some st) (hg : e.sim.gatherState pi = .ok st) (hk : e.nAux ≤ v.length)
    (h : e.extract v (stateReadings e.sim e.nAux) = .ok w) : StateLayout e.sim w (lastN e.nAux v) := by
  have haux := gather_aux hg
  have fl : flatten (stateReadings e.sim e.nAux) =
      ((((e.sim.devices.map fun d => (Key.devP, QUnit.mw, Ident.node d.id)) ++
        (e.sim.devices.map fun d => (Key.devQ, QUnit.mvar, Ident.node d.id))) ++
        ((e.sim.devices.filter Device.isStorage).map fun d => (Key.desSoc, QUnit.mwh, Ident.node d.id))) ++
        ((e.sim.devices.filter Device.isNonSlackGen).map fun d => (Key.genPMax, QUnit.mw, Ident.node d.id))) ++
        ((List.range e.nAux).map fun i : ℕ => (Key.aux, QUnit.none, Ident.node i)) := by
    simp [flatten, stateReadings, List.map_map, Function.comp_def]
  rw [Env.extract, fl, mapE_append_ok] at h
  obtain ⟨w4, x, h, hx, rfl⟩ := h
  rw [mapE_append_ok] at h
  obtain ⟨w3, g, h, hgen, rfl⟩ := h
  rw [mapE_append_ok] at h
  obtain ⟨w2, soc, h, hsoc, rfl⟩ := h
  rw [mapE_append_ok] at h
  obtain ⟨p, q, hp, hq, rfl⟩ := h
  rw [mapE_map] at hp hq hsoc hgen hx
  rw [hst] at hp hq hsoc hgen hx
  simp only [readVar_aux haux] at hx
  rw [read_aux hk] at hx
  cases hx
  refine ⟨st, p, q, soc, g, hst, rfl, ?_, ?_, ?_, ?_⟩
  · exact (mapE_ok.1 hp).imp fun d x h => (readVar_reading (by simp)).1 h
  · exact (mapE_ok.1 hq).imp fun d x h => (readVar_reading (by simp)).1 h
  · exact (mapE_ok.1 hsoc).imp fun d x h => (readVar_reading (by simp)).1 h
  · exact (mapE_ok.1 hgen).imp fun d x h => (readVar_reading (by simp)).1 h

/-! ### Invariants of constructed environments -/

theorem envOf_inv [FloorRing K] {c : EnvCtx K ρ} {a : EnvArgs K} {e : Env K ρ} (h : EnvOf c a e) :
    ∃ e0, MkEnvInv c a e0 ∧ SameEnv e0 e ∧ History c.sim e0.sim e.sim ∧ SameConfig e0.sim e.sim := by
  obtain ⟨e0, h0, h1⟩ := h
  exact ⟨e0, mkEnv_ok h0, sameEnv_history h1, simHistory h1, sameConfig_history (simHistory h1)⟩

theorem envOf_simOf [FloorRing K] {c : EnvCtx K ρ} {a : EnvArgs K} {e : Env K ρ} (h : EnvOf c a e) :
    SimOf a.network a.deltaT a.lamb e.sim := by
  obtain ⟨e0, I, -, -, h⟩ := envOf_inv h
  exact ⟨e0.sim, I.sim, h⟩

theorem envOf_stateValues [FloorRing K] {c : EnvCtx K ρ} {a : EnvArgs K} {e : Env K ρ} (h : EnvOf c a e) :
    e.stateValues = stateReadings e.sim e.nAux := by
  obtain ⟨e0, I, hs, -, hc⟩ := envOf_inv h
  rw [hs.stateValues, I.stateValues, hs.nAux, stateReadings_same hc]

theorem envOf_stateN [FloorRing K] {c : EnvCtx K ρ} {a : EnvArgs K} {e : Env K ρ} (h : EnvOf c a e) :
    e.stateN = 2 * e.sim.nDevice + e.sim.nDes + e.sim.nNonSlackGen + e.nAux := by
  obtain ⟨e0, I, hs, -, hc⟩ := envOf_inv h
  obtain ⟨h1, h2, h3, h4⟩ := counts_same hc
  rw [hs.stateN, I.stateN, I.stateValues, h1, h3, h4, hs.nAux]
  simp [stateReadings, Sim.nDevice, Sim.nDes, Sim.nNonSlackGen]
  omega

theorem envOf_call [FloorRing K] {c : EnvCtx K ρ} {a : EnvArgs K} {e e' : Env K ρ} (h : EnvOf c a e)
    (hc : EnvCall c e e') : EnvOf c a e' := by
  obtain ⟨e0, h0, h1⟩ := h
  exact ⟨e0, h0, h1.tail hc⟩

theorem pyPut_ok {α : Type} {v w : List α} {i : ℤ} {x : α} (h : pyPut v i x = .ok w) :
    ∃ j : ℕ, (j : ℤ) = (if 0 ≤ i then i else i + v.length) ∧ j < v.length ∧ w = v.set j x := by
  unfold pyPut at h
  dsimp only at h
  generalize (if 0 ≤ i then i else i + v.length) = j at h ⊢
  split at h
  · rename_i hj
    simp only [Except.ok.injEq] at h
    exact ⟨_, Int.toNat_of_nonneg hj.1, by omega, h.symm⟩
  · cases h

/-- What `setAux` does: the last `k` elements are overwritten one by one. -/
theorem setAux_ok {aux st st' : List (X K)} {k n : ℕ} (hn : n ≤ k) (h : Env.setAux aux k n st = .ok st') :
    st'.length = st.length ∧ (0 < n → k ≤ st.length) ∧
    ∀ j, st'[j]? = if st.length - k ≤ j ∧ j < st.length - k + n then aux[j - (st.length - k)]? else st[j]? := by
  induction n generalizing st' with
  | zero =>
    simp only [Env.setAux, Except.ok.injEq] at h
    subst h
    refine ⟨rfl, by omega, fun j => ?_⟩
    rw [if_neg (by omega)]
  | succ n ih =>
    simp only [Env.setAux, bind_ok] at h
    obtain ⟨s1, h1, x, hx, h2⟩ := h
    obtain ⟨g1, g2, g3⟩ := ih (by omega) h1
    obtain ⟨j0, hj0, hlt, rfl⟩ := pyPut_ok h2
    rw [if_neg (by omega)] at hj0
    have hk : k ≤ st.length := by
      rcases Nat.eq_zero_or_pos n with h | h
      · omega
      · exact g2 h
    have hj : j0 = st.length - k + n := by omega
    refine ⟨by simp [g1], fun _ => hk, fun j => ?_⟩
    rw [List.getElem?_set, g3]
    by_cases h : j0 = j
    · subst h
      rw [if_pos rfl, if_pos hlt, if_pos (by omega)]
      have := idx_ok.1 hx
      rw [← this]
      congr 1
      omega
    · rw [if_neg h]
      by_cases h' : st.length - k ≤ j ∧ j < st.length - k + n
      · rw [if_pos h', if_pos (by omega)]
      · rw [if_neg h', if_neg (by omega)]

theorem setAux_last {aux st st' : List (X K)} {k : ℕ} (ha : aux.length = k)
    (h : Env.setAux aux k k st = .ok st') : k ≤ st'.length ∧ lastN k st' = aux := by
  obtain ⟨h1, h2, h3⟩ := setAux_ok le_rfl h
  have hk : k ≤ st.length := by
    rcases Nat.eq_zero_or_pos k with h | h
    · omega
    · exact h2 h
  refine ⟨by omega, ?_⟩
  apply List.ext_getElem?
  intro j
  rw [lastN, List.getElem?_drop, h1, h3]
  split
  · congr 1; omega
  · rename_i hj
    rw [List.getElem?_eq_none (by omega), List.getElem?_eq_none (by omega)]

/-- The state vector after a successful reset. -/
theorem reset_layout [FloorRing K] {c : EnvCtx K ρ} {a : EnvArgs K} {e e' : Env K ρ} {seed : Option ℤ}
    {obs : List (X K)} (he : EnvOf c a e) (h : e.reset c seed = .ok (e', obs)) :
    ∃ y v r, e'.dyn = some y ∧ y.terminated = false ∧ y.timestep = 0 ∧ c.initState r = .ok (v, e'.rng) ∧
      v.length = e.initSize ∧ StateLayout e'.sim y.state (lastN e.nAux v) := by
  obtain ⟨v, st, n, I⟩ := env_reset_ok h
  obtain ⟨r', h1, rfl⟩ := I.search
  obtain ⟨s1, r1, g1, g2, g3, g4⟩ := search_ok h1
  obtain ⟨full, f1, f2⟩ := call_state (.inr ⟨_, _, g4⟩ : Call c.sim s1 e'.sim)
  have he' := envOf_call he (.inl ⟨seed, obs, h⟩)
  have hs := sameEnv_call (.inl ⟨seed, obs, h⟩ : EnvCall c e e')
  have hst := I.state
  rw [← hs.stateValues, envOf_stateValues he'] at hst
  have := extract_layout f1 f2 (by rw [g3, hs.nAux, Env.initSize]; omega) hst
  rw [hs.nAux] at this
  refine ⟨_, v, r1, by rw [I.result], rfl, rfl, g2, g3, this⟩

/-- The state vector after a successful non-terminal step. -/
theorem advance_layout [FloorRing K] {c : EnvCtx K ρ} {a : EnvArgs K} {e e' : Env K ρ} {y y' : EnvDyn K}
    {action vars : List (X K)} {out : Env.StepOut K} {args : Sim.Args K} {o : Sim.TransOut K}
    (he : EnvOf c a e') (hk : e'.nAux = e.nAux) (I : AdvInv c e y action e' out vars args o y')
    (ho : o.converged = true) : StateLayout e'.sim y'.state (lastN e.nAux vars) := by
  obtain ⟨full, f1, f2⟩ := call_state (.inl ⟨_, _, I.trans⟩ : Call c.sim e.sim e'.sim)
  have hv := I.vectors
  rw [ho] at hv
  simp only [Env.vectors, if_true, Env.observeStep, bind_ok] at hv
  obtain ⟨w, h1, st, h2, ⟨obs, narrow⟩, h3, h4⟩ := hv
  split at h4
  · cases h4
  simp only [bind_ok, guardE_ok, pure_ok, Prod.mk.injEq] at h4
  obtain ⟨_, _, rfl, _⟩ := h4
  have haux : vars.drop (e.sim.nLoad + e.sim.nNonSlackGen) = lastN e.nAux vars := by
    rw [lastN, I.size]; congr 1; omega
  have hl : (vars.drop (e.sim.nLoad + e.sim.nNonSlackGen)).length = e.nAux := by
    rw [List.length_drop, I.size]; omega
  obtain ⟨hw1, hw2⟩ := setAux_last hl h1
  have hsv : e'.stateValues = e.stateValues := by rw [I.result]
  have h2' : e'.extract w (stateReadings e'.sim e'.nAux) = .ok y'.state := by
    rw [← envOf_stateValues he, hsv]
    rw [Env.extract, hk]
    exact h2
  have := extract_layout f1 f2 (by rw [hk]; exact hw1) h2'
  rwa [hk, hw2, haux] at this

theorem StateLayout.length {s : Sim K} {v aux : List (X K)} (h : StateLayout s v aux) :
    v.length = 2 * s.nDevice + s.nDes + s.nNonSlackGen + aux.length := by
  obtain ⟨st, p, q, soc, g, -, rfl, h1, h2, h3, h4⟩ := h
  have e1 := h1.length_eq
  have e2 := h2.length_eq
  have e3 := h3.length_eq
  have e4 := h4.length_eq
  simp only [List.length_append, Sim.nDevice, Sim.nDes, Sim.nNonSlackGen]
  omega

end

end Anm
