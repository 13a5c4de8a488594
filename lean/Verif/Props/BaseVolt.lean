import Verif.Props.SoftLimits

/-! # C145: the base voltages of the buses are only units -/

set_option linter.unusedSectionVars false

namespace Anm
open Spec

namespace Spec
section
variable {K ρ : Type} [Field K] [LinearOrder K]

/-- A bus without its base voltage. -/
def plainBus (b : Bus K) : Bus K := { b with baseKV := 1 }

/-- The values of a state other than those in kV and kA. -/
def plainState (st : SimState K) : SimState K := st.map fun e => (e.1, e.2.filter fun x => decide (x.1 ≠ .kv ∧ x.1 ≠ .ka))

/-- A simulator without its base voltages. -/
def plainSim (s : Sim K) : Sim K := { s with buses := s.buses.map plainBus, state := s.state.map plainState }

/-- The simulators differ only in the base voltages of the buses, and in the values of the state in kV and kA. -/
def UpToVolts (s s' : Sim K) : Prop := plainSim s = plainSim s'

/-- The readings are not in kV or kA. -/
def NoVolts (vs : List Reading) : Prop := ∀ r ∈ vs, r.2.2 ≠ .kv ∧ r.2.2 ≠ .ka

/-- The environments differ only in the base voltages. -/
structure EnvUpToVolts (e e' : Env K ρ) : Prop where
  sim : UpToVolts e.sim e'.sim
  rest : e' = { e with sim := e'.sim }

/-- The environment observes nothing in kV or kA. -/
structure SeesNoVolts (e : Env K ρ) : Prop where
  state : NoVolts e.stateValues
  obs : ∀ vs, e.obsValues = some vs → NoVolts vs

end
end Spec

section
variable {K ρ : Type} [Field K] [LinearOrder K] {q : Ctx K} {s s' : Sim K}

theorem plain_gather (pi : K) (s : Sim K) :
    Alike (fun x y => plainState x = plainState y) (s.gatherState pi) ((plainSim s).gatherState pi) := by
  unfold Sim.gatherState
  refine alike_same (x := mapE _ (s.devices.filter Device.isStorage)) fun soc => ?_
  simp only [Alike, pure, Except.pure, plainState, plainSim, List.map_map, List.map_cons, List.map_nil, List.filter_cons, List.filter_nil]
  rfl

theorem plain_apply (s : Sim K) (o : PFOut K) : Alike (fun x y => plainSim x = y) (s.applyPF o) ((plainSim s).applyPF o) := by
  have e : ((plainSim s).buses.mapIdx fun k b =>
        ({ b with v := o.v k, i := o.i k, p := if b.isSlack then Sim.nanToInf o.slackP else b.p,
                  q := if b.isSlack then Sim.nanToInf o.slackQ else b.q } : Bus K)) =
      (s.buses.mapIdx fun k b =>
        ({ b with v := o.v k, i := o.i k, p := if b.isSlack then Sim.nanToInf o.slackP else b.p,
                  q := if b.isSlack then Sim.nanToInf o.slackQ else b.q } : Bus K)).map plainBus := by
    show (s.buses.map plainBus).mapIdx _ = _
    rw [mapIdx_units, map_mapIdx_units]
    rfl
  unfold Sim.applyPF
  simp only [e]
  generalize (s.buses.mapIdx fun k b =>
        ({ b with v := o.v k, i := o.i k, p := if b.isSlack then Sim.nanToInf o.slackP else b.p,
                  q := if b.isSlack then Sim.nanToInf o.slackQ else b.q } : Bus K)) = bs
  have same : ∀ {α β : Type} (f g : α → Except PyErr β) (l : List α), (∀ a, f a = g a) → Alike (· = ·) (mapE f l) (mapE g l) := by
    intro α β f g l h
    rw [show f = g from funext h]
    cases mapE g l <;> simp [Alike]
  refine alike_bind (same _ _ s.devices fun d => ?_) fun ds ds' h => ?_
  · have e3 : (bs.map plainBus).find? (fun b => decide (b.id = d.busId)) = (bs.find? fun b => decide (b.id = d.busId)).map plainBus := by
      rw [List.find?_map]
      rfl
    rw [e3]
    cases bs.find? (fun b => decide (b.id = d.busId)) <;> rfl
  · subst h
    simp only [Alike, pure, Except.pure]
    rfl

theorem plain_solve (s : Sim K) (a : Sim.Args K) :
    Alike (fun x y => plainSim x = y) (s.solveStep q a) ((plainSim s).solveStep q a) := by
  unfold Sim.solveStep
  refine alike_same (x := mapE (Sim.stepDevice q.qp s.baseMVA s.deltaT a) s.devices) fun ds => ?_
  have e : (({ plainSim s with devices := ds, buses := (plainSim s).buses.map (Sim.busInjections ds) } : Sim K)) =
      plainSim { s with devices := ds, buses := s.buses.map (Sim.busInjections ds) } := by
    unfold plainSim
    simp only [List.map_map]
    rfl
  have e2 : ∀ s : Sim K, (plainSim s).pfIn = s.pfIn := by
    intro s
    unfold Sim.pfIn plainSim
    simp only [List.map_map]
    rfl
  dsimp only
  rw [e, e2]
  refine alike_same fun o => ?_
  refine alike_bind (plain_apply _ o) fun x y h => ?_
  subst h
  rfl

theorem plain_reward (x : Sim K) (st st' : Option (SimState K)) :
    Sim.computeReward ({ plainSim x with state := st' } : Sim K) = Sim.computeReward { x with state := st } := by
  unfold Sim.computeReward
  have e : mapE Sim.busPenalty (x.buses.map plainBus) = mapE Sim.busPenalty x.buses := by
    rw [mapE_units (f := Sim.busPenalty) (h := id) x.buses fun b _ => ?_]
    · cases mapE Sim.busPenalty x.buses <;> simp [Except.map]
    · show Sim.busPenalty (plainBus b) = _
      unfold Sim.busPenalty plainBus
      cases b.vMin <;> rfl
  dsimp only [plainSim]
  rw [e]

theorem plain_transition (s : Sim K) (a : Sim.Args K) :
    Alike (fun x y => UpToVolts x.1 y.1 ∧ x.2 = y.2) (s.transition q a) ((plainSim s).transition q a) := by
  unfold Sim.transition
  refine alike_bind (plain_solve s a) fun x y h => ?_
  subst h
  refine alike_bind (plain_gather q.pi x) fun st st' hst => ?_
  dsimp only
  rw [plain_reward x (some st) (some st')]
  refine alike_same fun r => ?_
  simp only [Alike, pure, Except.pure]
  refine ⟨?_, rfl⟩
  simp only [UpToVolts, plainSim, List.map_map, Option.map_some, hst]
  rfl

/-- **C145.** Transitions: the same reward, energy loss, penalty and convergence, or the same exception, whatever the base voltages are; the new
states differ at most in values in kV and kA. -/
theorem C145_transition (h : UpToVolts s s') (a : Sim.Args K) :
    Alike (fun x y => UpToVolts x.1 y.1 ∧ x.2 = y.2) (s.transition q a) (s'.transition q a) := by
  have h1 := plain_transition (q := q) s a
  have h2 := plain_transition (q := q) s' a
  rw [← h] at h2
  exact alike_trans h1 (alike_swap (S := fun y x => UpToVolts x.1 y.1 ∧ x.2 = y.2) h2 fun _ _ h => h)
    fun x y z k1 k2 => ⟨k1.1.trans k2.1.symm, k1.2.trans k2.2.symm⟩

theorem upToVolts_iff : UpToVolts s s' ↔ s' = { s with buses := s'.buses, state := s'.state } ∧
    s.buses.map plainBus = s'.buses.map plainBus ∧ s.state.map plainState = s'.state.map plainState := by
  cases s
  cases s'
  simp only [UpToVolts, plainSim, Sim.mk.injEq]
  constructor
  · rintro ⟨rfl, rfl, rfl, h1, rfl, rfl, h2, rfl⟩
    exact ⟨⟨rfl, rfl, rfl, trivial, rfl, rfl, trivial, rfl⟩, h1, h2⟩
  · rintro ⟨⟨rfl, rfl, rfl, -, rfl, rfl, -, rfl⟩, h1, h2⟩
    exact ⟨rfl, rfl, rfl, h1, rfl, rfl, h2, rfl⟩

theorem upToVolts_devices (h : UpToVolts s s') : s'.devices = s.devices ∧ s'.baseMVA = s.baseMVA := by
  obtain ⟨h, -, -⟩ := upToVolts_iff.1 h
  exact ⟨by rw [h], by rw [h]⟩

theorem upToVolts_set (h : UpToVolts s s') (ds : List (Device K)) {st st' : Option (SimState K)} (hst : st.map plainState = st'.map plainState) :
    UpToVolts ({ s with devices := ds, state := st } : Sim K) { s' with devices := ds, state := st' } := by
  obtain ⟨h1, h2, h3⟩ := upToVolts_iff.1 h
  refine upToVolts_iff.2 ⟨?_, h2, hst⟩
  rw [h1]

theorem volts_gather (h : UpToVolts s s') (pi : K) :
    Alike (fun x y => plainState x = plainState y) (s.gatherState pi) (s'.gatherState pi) := by
  have h1 := plain_gather pi s
  have h2 := plain_gather pi s'
  rw [← h] at h2
  exact alike_trans h1 (alike_swap (S := fun y x => plainState x = plainState y) h2 fun _ _ h => h) fun x y z k1 k2 => k1.trans k2.symm

/-- **C145.** The same for resets. -/
theorem C145_reset (h : UpToVolts s s') (v : List (X K)) :
    Alike (fun x y => UpToVolts x.1 y.1 ∧ x.2 = y.2) (s.reset q v) (s'.reset q v) := by
  obtain ⟨e1, e2⟩ := upToVolts_devices h
  unfold Sim.reset
  simp only [Sim.nDevice, Sim.nDes, Sim.nNonSlackGen, e1]
  refine alike_same fun a => alike_same fun ds => ?_
  refine alike_bind (C145_transition (upToVolts_set h ds (st := none) (st' := none) rfl) a) ?_
  rintro ⟨s1, o⟩ ⟨s1', o'⟩ ⟨h1, h2⟩
  dsimp only at h1 h2 ⊢
  subst h2
  obtain ⟨f1, f2⟩ := upToVolts_devices h1
  rw [f1, f2]
  refine alike_same (x := Sim.assignSoc s1.baseMVA _ s1.devices 0) fun ds => ?_
  obtain ⟨k1, k2, k3⟩ := upToVolts_iff.1 h1
  have h3 : ∀ {st st' : Option (SimState K)}, st.map plainState = st'.map plainState →
      UpToVolts ({ s1 with devices := ds, state := st } : Sim K) { s1' with baseMVA := s1.baseMVA, devices := ds, state := st' } :=
    fun hst => upToVolts_iff.2 ⟨by rw [k1], k2, hst⟩
  refine alike_bind (volts_gather (h3 k3) q.pi) fun st st' hst => ?_
  simp only [Alike, pure, Except.pure, and_true]
  exact h3 (by simp [hst])

/-! ### Values that are not in kV or kA -/

theorem plainState_get? (st : SimState K) (key : Key) :
    (plainState st).get? key = (st.get? key).map fun d => d.filter fun x => decide (x.1 ≠ .kv ∧ x.1 ≠ .ka) := by
  unfold plainState Dict.get?
  rw [List.find?_map]
  cases h : List.find? (fun p => decide (p.1 = key)) st with
  | none =>
    rw [show List.find? ((fun p : Key × Dict QUnit (Dict Ident (X K)) => decide (p.1 = key)) ∘ fun e => (e.1, e.2.filter fun x =>
      decide (x.1 ≠ .kv ∧ x.1 ≠ .ka))) st = none from h]
    rfl
  | some a =>
    rw [show List.find? ((fun p : Key × Dict QUnit (Dict Ident (X K)) => decide (p.1 = key)) ∘ fun e => (e.1, e.2.filter fun x =>
      decide (x.1 ≠ .kv ∧ x.1 ≠ .ka))) st = some a from h]
    rfl

theorem filter_getE {β : Type} (d : Dict QUnit β) {u : QUnit} (hu : u ≠ .kv ∧ u ≠ .ka) :
    Dict.getE (d.filter fun x => decide (x.1 ≠ .kv ∧ x.1 ≠ .ka)) u = d.getE u := by
  unfold Dict.getE Dict.get?
  rw [List.find?_filter]
  congr 1
  induction d with
  | nil => rfl
  | cons x d ih =>
    rw [List.find?_cons, List.find?_cons]
    by_cases h : x.1 = u
    · simp only [h]
      simp [hu]
    · simp only [h, decide_false]
      simpa using ih

theorem volts_readVar {st st' : Option (SimState K)} (h : st.map plainState = st'.map plainState) (w : List (X K)) (k : ℕ) (key : Key) {u : QUnit}
    (hu : u ≠ .kv ∧ u ≠ .ka) (i : Ident) : Env.readVar st w k key u i = Env.readVar st' w k key u i := by
  cases st <;> cases st' <;> simp only [Option.map_none, Option.map_some, reduceCtorEq, Option.some.injEq] at h
  · rfl
  · rename_i a b
    have hk := congrArg (fun s => Dict.get? s key) h
    simp only [plainState_get?] at hk
    unfold Env.readVar
    dsimp only
    cases ha : a.get? key <;> cases hb : b.get? key <;> simp only [ha, hb, Option.map_none, Option.map_some, reduceCtorEq, Option.some.injEq] at hk
    · rfl
    · rename_i d d'
      have := filter_getE d hu
      rw [hk, filter_getE d' hu] at this
      dsimp only
      rw [this]

theorem mapE_same {α β : Type} {f g : α → Except PyErr β} : ∀ {l : List α}, (∀ x ∈ l, f x = g x) → mapE f l = mapE g l
  | [], _ => rfl
  | x :: l, h => by
    unfold mapE
    rw [h x (.head _), mapE_same fun y hy => h y (.tail _ hy)]

theorem volts_extract {e : Env K ρ} {s' : Sim K} (h : UpToVolts e.sim s') (w : List (X K)) {vs : List Reading} (hv : NoVolts vs) :
    Env.extract ({ e with sim := s' } : Env K ρ) w vs = e.extract w vs := by
  unfold Env.extract
  refine mapE_same fun v hvm => ?_
  obtain ⟨r, hr, hv'⟩ := List.mem_flatMap.1 hvm
  obtain ⟨i, -, rfl⟩ := List.mem_map.1 hv'
  exact (volts_readVar (upToVolts_iff.1 h).2.2 w e.nAux _ (hv r hr) i).symm

theorem volts_observe {e : Env K ρ} {s' : Sim K} (h : UpToVolts e.sim s') (hv : SeesNoVolts e) (w : List (X K)) :
    Env.observe ({ e with sim := s' } : Env K ρ) w = e.observe w := by
  unfold Env.observe
  dsimp only
  cases e.obsFn with
  | some f => rfl
  | none =>
    dsimp only
    cases ho : e.obsValues with
    | none => rfl
    | some vs =>
      cases e.obsSpace with
      | none => rfl
      | some b =>
        show (Env.extract ({ e with sim := s' } : Env K ρ) w vs >>= fun x => pure (Env.clipVec x b.low b.high, false)) = _
        rw [volts_extract h w (hv.obs vs ho)]

/-! ### Environments -/

variable {c : EnvCtx K ρ} {e e' : Env K ρ}

theorem volts_search (n : ℕ) : ∀ (k : ℕ) {s s' : Sim K} (r : ρ), UpToVolts s s' →
    Alike (fun x y => UpToVolts x.1 y.1 ∧ x.2 = y.2) (Env.search c n k s r) (Env.search c n k s' r)
  | 0, _, _, _, _ => by simp [Env.search, Alike]
  | k + 1, s, s', r, h => by
    unfold Env.search
    refine alike_same fun ⟨v, r⟩ => alike_same fun _ => alike_bind (C145_reset h v) ?_
    rintro ⟨s1, o⟩ ⟨s1', o'⟩ ⟨h1, h2⟩
    simp only at h1 h2
    subst h2
    by_cases hk : k = 0
    · simp [hk, Alike]
    · cases o
      · simpa [hk] using volts_search n k r h1
      · simpa [hk, Alike, pure, Except.pure] using h1

theorem volts_env_reset (h : EnvUpToVolts e e') (hv : SeesNoVolts e) (seed : Option ℤ) :
    Alike (fun x y => EnvUpToVolts x.1 y.1 ∧ SeesNoVolts x.1 ∧ x.2 = y.2) (e.reset c seed) (e'.reset c seed) := by
  obtain ⟨hs, he⟩ := h
  generalize e'.sim = s' at hs he
  subst he
  obtain ⟨d1, -⟩ := upToVolts_devices hs
  unfold Env.reset
  have hi : Env.initSize ({ e with sim := s' } : Env K ρ) = e.initSize := by
    simp only [Env.initSize, Sim.nDevice, Sim.nDes, Sim.nNonSlackGen, d1]
  rw [hi]
  refine alike_bind (volts_search e.initSize 100 _ hs) ?_
  rintro ⟨s1, v, r⟩ ⟨s1', v', r'⟩ ⟨h1, h2⟩
  simp only [Prod.mk.injEq] at h1 h2
  obtain ⟨rfl, rfl⟩ := h2
  have hv1 : SeesNoVolts ({ e with sim := s1, rng := r } : Env K ρ) := ⟨hv.state, hv.obs⟩
  have hex := fun w => volts_extract (e := ({ e with sim := s1, rng := r } : Env K ρ)) h1 w hv.state
  have hob := volts_observe (e := ({ e with sim := s1, rng := r } : Env K ρ)) h1 hv1
  dsimp only at hex hob ⊢
  rw [hex]
  refine alike_same (x := ({ e with sim := s1, rng := r } : Env K ρ).extract v e.stateValues) fun st => ?_
  rw [hob]
  refine alike_same (x := ({ e with sim := s1, rng := r } : Env K ρ).observe st) fun ⟨obs, nr⟩ => ?_
  refine alike_same fun _ => ?_
  simp only [Alike, pure, Except.pure, and_true]
  exact ⟨⟨h1, rfl⟩, hv.state, hv.obs⟩

theorem volts_env_step (h : EnvUpToVolts e e') (hv : SeesNoVolts e) (act : List (X K)) :
    Alike (fun x y => EnvUpToVolts x.1 y.1 ∧ SeesNoVolts x.1 ∧ x.2 = y.2) (e.step c act) (e'.step c act) := by
  obtain ⟨hs, he⟩ := h
  generalize e'.sim = s' at hs he
  subst he
  obtain ⟨d1, -⟩ := upToVolts_devices hs
  unfold Env.step
  refine alike_same fun _ => ?_
  dsimp only
  rcases hd : e.dyn with _ | z
  · simp [Alike]
  dsimp only
  by_cases ht : z.terminated = true
  · rw [if_pos ht, if_pos ht]
    refine ⟨⟨hs, ?_⟩, hv, rfl⟩
    dsimp only
    rw [← hd]
  rw [if_neg ht, if_neg ht]
  unfold Env.advance
  simp only [Sim.nLoad, Sim.nNonSlackGen, Env.decode, d1]
  refine alike_same fun ⟨vars, r⟩ => alike_same fun _ => alike_same fun ⟨pl, pp⟩ => ?_
  refine alike_bind (C145_transition hs _) ?_
  rintro ⟨s1, o⟩ ⟨s1', o'⟩ ⟨h1, h2⟩
  dsimp only at h1 h2 ⊢
  subst h2
  refine alike_same (x := Env.rewardOf ({ e with sim := s1, rng := r } : Env K ρ) o.converged o.eLoss o.penalty) fun ⟨w, el, p⟩ => ?_
  have hv1 : SeesNoVolts ({ e with sim := s1, rng := r } : Env K ρ) := ⟨hv.state, hv.obs⟩
  have hex := fun w => volts_extract (e := ({ e with sim := s1, rng := r } : Env K ρ)) h1 w hv.state
  have hob := volts_observe (e := ({ e with sim := s1, rng := r } : Env K ρ)) h1 hv1
  have hvec : ∀ b st aux, Env.vectors ({ e with sim := s1', rng := r, dyn := some z } : Env K ρ) b st aux =
      Env.vectors { e with sim := s1, rng := r } b st aux := by
    intro b st aux
    rw [← hd]
    unfold Env.vectors Env.observeStep
    dsimp only at hex hob ⊢
    simp only [hex, hob]
    rfl
  dsimp only
  rw [hvec]
  refine alike_same (x := ({ e with sim := s1, rng := r } : Env K ρ).vectors o.converged z.state _) fun ⟨st, obs⟩ => ?_
  simp only [Alike, pure, Except.pure, and_true]
  exact ⟨⟨h1, rfl⟩, hv.state, hv.obs⟩

/-- **C145.** A session of an environment that observes nothing in kV or kA shows the same observations, rewards and terminal flags, or ends with
the same exception, whatever the base voltages are. -/
theorem C145_session : ∀ (l : List (Command K)) {e e' : Env K ρ}, EnvUpToVolts e e' → SeesNoVolts e →
    showRewards c e l = showRewards c e' l
  | [], e, e', _, _ => rfl
  | .reset seed :: l, e, e', h, hv => by
    have := volts_env_reset (c := c) h hv seed
    unfold showRewards
    cases h1 : e.reset c seed <;> cases h2 : e'.reset c seed <;> simp only [h1, h2, Alike] at this
    · rw [this]
    · rename_i x y
      obtain ⟨x1, x2⟩ := x
      obtain ⟨y1, y2⟩ := y
      obtain ⟨k1, k2, k3⟩ := this
      dsimp only at k1 k2 k3
      subst k3
      simp only [bind, Except.bind]
      rw [C145_session l k1 k2]
  | .step act :: l, e, e', h, hv => by
    have := volts_env_step (c := c) h hv act
    unfold showRewards
    cases h1 : e.step c act <;> cases h2 : e'.step c act <;> simp only [h1, h2, Alike] at this
    · rw [this]
    · rename_i x y
      obtain ⟨x1, x2⟩ := x
      obtain ⟨y1, y2⟩ := y
      obtain ⟨k1, k2, k3⟩ := this
      dsimp only at k1 k2 k3
      subst k3
      simp only [bind, Except.bind]
      rw [C145_session l k1 k2]

end

/-! ### Network files -/

section
variable {K ρ : Type} [Field K] [LinearOrder K] [FloorRing K] {c : EnvCtx K ρ} {s s' : Sim K}

namespace Spec

/-- The files differ only in the base voltages of the buses. -/
structure SameButVolts (n n' : Network K) : Prop where
  base : n'.baseMVA = n.baseMVA
  device : n'.device = n.device
  branch : n'.branch = n.branch
  bus : List.Forall₂ (fun r r' : BusRow K => ∀ c, c ≠ .baseKV → r' c = r c) n.bus n'.bus

end Spec

theorem plain_bus {r r' : BusRow K} {b b' : Bus K} (h1 : ∀ c, c ≠ .baseKV → r' c = r c) (h : mkBus r = .ok b) (h' : mkBus r' = .ok b') :
    plainBus b = plainBus b' := by
  unfold mkBus at h h'
  rw [h1 .busId (by decide), h1 .busType (by decide), h1 .vmax (by decide), h1 .vmin (by decide)] at h'
  simp only [bind_ok] at h h'
  obtain ⟨i, a1, ty, a2, _, a3, kv, a4, vM, a5, vm, a6, _, a7, h⟩ := h
  obtain ⟨i', b1, ty', b2, _, b3, kv', b4, vM', b5, vm', b6, _, b7, h'⟩ := h'
  obtain rfl : i = i' := by rw [a1] at b1; cases b1; rfl
  obtain rfl : ty = ty' := by rw [a2] at b2; cases b2; rfl
  obtain rfl : vM = vM' := by rw [a5] at b5; cases b5; rfl
  obtain rfl : vm = vm' := by rw [a6] at b6; cases b6; rfl
  cases h
  cases h'
  rfl

/-- **C145.** Two accepted files that differ only in the base voltages give simulators that differ only in the base voltages. -/
theorem C145_files {n n' : Network K} (hn : SameButVolts n n') {dt lam : X K} (h : mkSim n dt lam = .ok s)
    (h' : mkSim n' dt lam = .ok s') : UpToVolts s s' := by
  unfold mkSim loadCase at h h'
  rw [hn.base, hn.device, hn.branch] at h'
  simp only [bind_ok, pure_ok] at h h'
  obtain ⟨_, -, ⟨bs, brs, ds⟩, ⟨bl, a1, brl, a2, dl, a3, a4⟩, _, -, rfl⟩ := h
  obtain ⟨_, -, ⟨bs', brs', ds'⟩, ⟨bl', b1, brl', b2, dl', b3, b4⟩, _, -, rfl⟩ := h'
  simp only [Prod.mk.injEq] at a4 b4
  obtain ⟨rfl, rfl, rfl⟩ := a4
  obtain ⟨rfl, rfl, rfl⟩ := b4
  have e1 : bl.map plainBus = bl'.map plainBus := bare_rows hn.bus a1 b1 fun a a' b b' hr x y => plain_bus hr x y
  have e2 : ((sortDict (dictOf Bus.id bl)).map (·.2)).map plainBus = ((sortDict (dictOf Bus.id bl')).map (·.2)).map plainBus := by
    have key : ∀ l : List (Bus K), ((sortDict (dictOf Bus.id l)).map (·.2)).map plainBus = (sortDict (dictOf Bus.id (l.map plainBus))).map (·.2) := by
      intro l
      rw [dictOf_units plainBus Bus.id Bus.id (fun _ => rfl)]
      unfold sortDict
      rw [← List.map_insertionSort (r := fun a b : ℤ × Bus K => a.1 ≤ b.1) (s := fun a b : ℤ × Bus K => a.1 ≤ b.1)
        (fun e : ℤ × Bus K => (e.1, plainBus e.2)) _ (fun _ _ _ _ => Iff.rfl)]
      simp only [List.map_map]; rfl
    rw [key, key, e1]
  generalize (sortDict (dictOf Bus.id bl)).map (·.2) = bs at a2 a3 e2 ⊢
  generalize (sortDict (dictOf Bus.id bl')).map (·.2) = bs' at b2 b3 e2 ⊢
  have e3 : bs'.map Bus.id = bs.map Bus.id := by
    have := congrArg (List.map Bus.id) e2
    simp only [List.map_map] at this
    exact this.symm
  rw [e3] at b2 b3
  obtain rfl : dl = dl' := by rw [a3] at b3; cases b3; rfl
  obtain rfl : brl = brl' := by rw [a2] at b2; cases b2; rfl
  refine upToVolts_iff.2 ⟨rfl, ?_, rfl⟩
  have := congrArg (List.map (busBounds ((sortDict (dictOf Device.id dl)).map (·.2)))) e2
  simp only [List.map_map] at this ⊢
  exact this

theorem volts_expand (h : UpToVolts s s') (k : ℕ) (key : Key) : idsOf s' k key = idsOf s k key := by
  have key2 : ∀ t : Sim K, idsOf (plainSim t) k key = idsOf t k key := by
    intro t
    cases key <;> simp only [idsOf, plainSim, List.map_map] <;> rfl
  rw [← key2, ← key2 s, show plainSim s = plainSim s' from h]

theorem getE_map {α : Type} (l : List (Bus K)) (F G : Bus K → α) (i : Ident) :
    Alike (fun x y => ∃ b ∈ l, x = F b ∧ y = G b) (Dict.getE (l.map fun b => (Ident.node b.id, F b)) i) (Dict.getE (l.map fun b => (Ident.node b.id, G b)) i) := by
  unfold Dict.getE Dict.get?
  rw [List.find?_map, List.find?_map]
  have e : ∀ H : Bus K → α, List.find? ((fun p : Ident × α => decide (p.1 = i)) ∘ fun b => (Ident.node b.id, H b)) l =
      l.find? fun b => decide (Ident.node b.id = i) := fun _ => rfl
  rw [e, e]
  cases hb : l.find? fun b => decide (Ident.node b.id = i) with
  | none => simp [Alike]
  | some b => exact ⟨b, List.mem_of_find?_eq_some hb, rfl, rfl⟩

theorem plain_bounds (pi : K) (s : Sim K) (aux : Option (List (X K × X K))) (key : Key) {u : QUnit} (hu : u ≠ .kv ∧ u ≠ .ka) (i : Ident) :
    varBounds ((plainSim s).stateSpace pi) aux key u i = varBounds (s.stateSpace pi) aux key u i := by
  unfold varBounds
  by_cases ha : key = .aux
  · rw [if_pos ha, if_pos ha]
  rw [if_neg ha, if_neg ha]
  by_cases hk : key = .busVMagn
  · subst hk
    have e : ∀ t : Sim K, Dict.getE (t.stateSpace pi) .busVMagn = .ok (t.buses.map fun b => (Ident.node b.id,
        if b.isSlack then [(QUnit.pu, (b.vMax, b.vMax)), (.kv, (b.vMax * b.baseKV, b.vMax * b.baseKV))] else [(.pu, (.ninf, .pinf)), (.kv, (.ninf, .pinf))])) :=
      fun _ => rfl
    rw [e, e]
    simp only [bind, Except.bind]
    have e1 : ((plainSim s).buses.map fun b => (Ident.node b.id,
        if b.isSlack then [(QUnit.pu, (b.vMax, b.vMax)), (QUnit.kv, (b.vMax * b.baseKV, b.vMax * b.baseKV))]
        else [(.pu, ((.ninf, .pinf) : X K × X K)), (.kv, (.ninf, .pinf))])) = s.buses.map fun b => (Ident.node b.id,
        if b.isSlack then [(QUnit.pu, (b.vMax, b.vMax)), (QUnit.kv, (b.vMax * 1, b.vMax * 1))] else [(.pu, (.ninf, .pinf)), (.kv, (.ninf, .pinf))]) := by
      simp only [plainSim, List.map_map]
      rfl
    rw [e1]
    have := getE_map s.buses (fun b => if b.isSlack then [(QUnit.pu, (b.vMax, b.vMax)), (QUnit.kv, (b.vMax * 1, b.vMax * 1))]
        else [(.pu, ((.ninf, .pinf) : X K × X K)), (.kv, (.ninf, .pinf))])
      (fun b => if b.isSlack then [(QUnit.pu, (b.vMax, b.vMax)), (QUnit.kv, (b.vMax * b.baseKV, b.vMax * b.baseKV))]
        else [(.pu, ((.ninf, .pinf) : X K × X K)), (.kv, (.ninf, .pinf))]) i
    revert this
    generalize Dict.getE (s.buses.map fun b => (Ident.node b.id, if b.isSlack then [(QUnit.pu, (b.vMax, b.vMax)), (QUnit.kv, (b.vMax * 1, b.vMax * 1))]
        else [(.pu, ((.ninf, .pinf) : X K × X K)), (.kv, (.ninf, .pinf))])) i = x
    generalize Dict.getE (s.buses.map fun b => (Ident.node b.id, if b.isSlack then [(QUnit.pu, (b.vMax, b.vMax)),
        (QUnit.kv, (b.vMax * b.baseKV, b.vMax * b.baseKV))] else [(.pu, ((.ninf, .pinf) : X K × X K)), (.kv, (.ninf, .pinf))])) i = y
    intro this
    cases x <;> cases y <;> simp only [Alike] at this
    · rw [this]
    · obtain ⟨b, -, rfl, rfl⟩ := this
      dsimp only
      cases b.isSlack
      · rfl
      · simp only [if_true, Dict.getE, Dict.get?, List.find?_cons]
        by_cases hp : QUnit.pu = u
        · simp [hp]
        · simp [hp, hu.1.symm]
  · have e : Dict.getE ((plainSim s).stateSpace pi) key = Dict.getE (s.stateSpace pi) key := by
      cases key <;> first
        | exact absurd rfl hk
        | rfl
        | (unfold Sim.stateSpace plainSim
           simp only [List.map_map]
           rfl)
    rw [e]

/-- **C145.** Environments made from such files differ only in the base voltages, and have the same spaces, if they observe nothing in kV or kA. -/
theorem C145_env {a : EnvArgs K} {n' : Network K} (hn : SameButVolts a.network n') {e e' : Env K ρ} (h : mkEnv c a = .ok e)
    (h' : mkEnv c { a with network := n' } = .ok e') (hv : ∀ vs, e.obsValues = some vs → NoVolts vs) :
    EnvUpToVolts e e' ∧ SeesNoVolts e := by
  have hst : NoVolts e.stateValues := by
    rw [(mkEnv_ok h).stateValues]
    intro r hr
    simp only [stateReadings, List.mem_cons, List.not_mem_nil, or_false] at hr
    rcases hr with rfl | rfl | rfl | rfl | rfl <;> constructor <;> intro h <;> cases h
  refine ⟨?_, hst, hv⟩
  unfold mkEnv at h h'
  simp only [bind_ok] at h h'
  obtain ⟨s, h1, _, -, sv, h3, act, h4, ov, h5, os, h6, h7⟩ := h
  obtain ⟨s', h1', _, -, sv', h3', act', h4', ov', h5', os', h6', h7'⟩ := h'
  have hs := C145_files hn h1 h1'
  have hd := upToVolts_devices hs
  have e2 : ∀ k, expandItem s' k = expandItem s k := by
    intro k
    funext o
    unfold expandItem
    simp only [volts_expand hs]
  obtain rfl : sv = sv' := by rw [e2] at h3'; rw [h3] at h3'; cases h3'; rfl
  obtain rfl : act = act' := by
    have e3 : actionBounds s' = actionBounds s := by
      unfold actionBounds Sim.actionSpace
      rw [hd.1, hd.2]
    rw [e3, h4] at h4'
    cases h4'
    rfl
  obtain rfl : ov = ov' := by
    have e4 : ∀ k sv o, obsValues s' k sv o = obsValues s k sv o := by
      intro k sv o
      unfold obsValues
      have : expandEntry s' k = expandEntry s k := by
        funext x
        cases x <;> simp only [expandEntry, e2]
      simp only [this]
    rw [e4] at h5'
    rw [h5] at h5'
    cases h5'
    rfl
  cases h7
  cases h7'
  obtain rfl : os = os' := by
    have e5 : observationBounds c.box (s'.stateSpace c.sim.pi) a.auxBounds ov = observationBounds c.box (s.stateSpace c.sim.pi) a.auxBounds ov := by
      cases ov with
      | none => rfl
      | some vs =>
        unfold observationBounds
        dsimp only
        congr 1
        refine mapE_same fun v hvm => ?_
        obtain ⟨r, hr, hv'⟩ := List.mem_flatMap.1 hvm
        obtain ⟨i, -, rfl⟩ := List.mem_map.1 hv'
        have hu := hv vs rfl r hr
        dsimp only
        rw [← plain_bounds _ s _ _ hu, ← plain_bounds _ s' _ _ hu, show plainSim s = plainSim s' from hs]
    have h6' : observationBounds c.box (s'.stateSpace c.sim.pi) a.auxBounds ov = .ok os' := h6'
    rw [e5, h6] at h6'
    cases h6'
    rfl
  exact ⟨hs, rfl⟩

end

/-! ### A case that meets the hypotheses -/

/-- The demonstration network with buses 1 and 2 at 11 kV instead of 33 kV. -/
def lowNet : Network ℚ := Network.ofLists (.fin 100)
  [[num 0, num 0, num 132, num 1, num 1], [num 1, num 1, num 11, num (11/10), num (9/10)],
   [num 2, num 1, num 11, num (11/10), num (9/10)]]
  [[num 0, num 1, num (1/100), num (1/10), num 0, num 32, num 1, num 0],
   [num 1, num 2, num (1/50), num (3/10), none, num 25, none, none]]
  [[num 0, num 0, num 0, none, num 200, num (-200), num 200, num (-200), none, none, none, none, none, none, none],
   [num 1, num 1, num (-1), num (1/5), num 0, num (-10), none, none, none, none, none, none, none, none, none],
   [num 2, num 1, num 2, none, num 30, num 0, num 30, num (-30), num 20, none, num 15, num (-15), none, none, none],
   [num 3, num 2, num 3, none, num 50, num (-50), num 50, num (-50), num 30, num (-30), num 25, num (-25), num 100, num 0,
    num (9/10)]]

theorem low_rows : SameButVolts demoNet lowNet := by
  refine ⟨rfl, rfl, rfl, .cons ?_ (.cons ?_ (.cons ?_ .nil))⟩ <;> intro c h <;> cases c <;> first | rfl | exact absurd rfl h

def voltRun : Except PyErr (Env ℚ ℕ × Env ℚ ℕ × List (List (X ℚ) × Option (X ℚ) × Bool)) := do
  let e ← mkEnv (envCtx load1) (envArgs (.list demoObs) (1/2))
  let e' ← mkEnv (envCtx load1) { envArgs (.list demoObs) (1/2) with network := lowNet }
  let l ← showRewards (envCtx load1) e demoCalls
  pure (e, e', l)

/-- The hypotheses are met: both environments are made, and a session with three steps shows the same. -/
example : ∃ e e' l, mkEnv (envCtx load1) (envArgs (.list demoObs) (1/2)) = .ok e ∧
    mkEnv (envCtx load1) { envArgs (.list demoObs) (1/2) with network := lowNet } = .ok e' ∧
    EnvUpToVolts e e' ∧ SeesNoVolts e ∧ (∃ b b', e.sim.buses[1]? = some b ∧ e'.sim.buses[1]? = some b' ∧ b.baseKV = .fin 33 ∧ b'.baseKV = .fin 11) ∧
    showRewards (envCtx load1) e demoCalls = .ok l ∧ showRewards (envCtx load1) e' demoCalls = .ok l ∧
    l.map (·.2.1) = [none, some (.fin (-1/16)), some (.fin (-200)), some 0, none] := by
  have h : OkAnd voltRun fun r => (r.1.obsValues.all fun vs => vs.all fun x => decide (x.2.2 ≠ .kv ∧ x.2.2 ≠ .ka)) = true ∧
      (r.1.sim.buses[1]?.map Bus.baseKV = some (.fin 33)) ∧ (r.2.1.sim.buses[1]?.map Bus.baseKV = some (.fin 11)) ∧
      r.2.2.map (·.2.1) = [none, some (.fin (-1/16)), some (.fin (-200)), some 0, none] := by decide +kernel
  obtain ⟨⟨e, e', l⟩, h, h1, h2, h3, h4⟩ := exOk h
  simp only [voltRun, bind_ok, pure_ok, Prod.mk.injEq] at h
  obtain ⟨_, k1, _, k2, _, k3, rfl, rfl, rfl⟩ := h
  obtain ⟨g1, g2⟩ := C145_env (a := envArgs (.list demoObs) (1/2)) low_rows k1 k2 (by
    intro vs hvs r hr
    rw [hvs] at h1
    simp only [Option.all_some, List.all_eq_true, decide_eq_true_eq] at h1
    exact h1 r hr)
  simp only [Option.map_eq_some_iff] at h2 h3
  obtain ⟨b, x1, x2⟩ := h2
  obtain ⟨b', y1, y2⟩ := h3
  exact ⟨_, _, _, k1, k2, g1, g2, ⟨b, b', x1, y1, x2, y2⟩, k3, by rw [← C145_session demoCalls g1 g2]; exact k3, h4⟩

end Anm
