import Verif.Props.VarsFlow
import Verif.Props.History
import Verif.Props.RenderView
import Verif.Props.Anm6Total

/-!
# C104: the state vector is all that matters

Two environments made with the same arguments, whatever happened to them before, that have the same state
vector (and the same generator and flag) cannot be told apart by any sequence of actions: the process is
Markovian in the state vector (`anm_env.py:333-453`).
-/

namespace Anm
open Spec

section
variable {K ρ : Type} [Field K] [LinearOrder K] [IsStrictOrderedRing K] [FloorRing K]

/-- Two environments in the same situation: same state vector, same generator, both or none in a terminal
state.  Nothing is said about the simulators, the number of steps or the costs. -/
def Spec.SameSituation (e1 e2 : Env K ρ) : Prop :=
  ∃ y1 y2, e1.dyn = some y1 ∧ e2.dyn = some y2 ∧ y1.state = y2.state ∧ y1.terminated = y2.terminated ∧ e1.rng = e2.rng

theorem soc_reading {s : Sim K} {pi : K} {st : SimState K} (hg : s.gatherState pi = .ok st)
    (hs : s.devices.Pairwise fun d d' => d.id < d'.id) {d : Device K} (hd : d ∈ s.devices) (hn : d.isStorage = true) :
    ∃ z, d.soc = some z ∧ reading st .desSoc .mwh (.node d.id) = some (z * s.baseMVA) := by
  have hdi : ∀ x ∈ s.devices, ∀ y ∈ s.devices, x.id = y.id → x = y := fun x hx y hy e => sorted_id_inj hs hx hy e
  have hfi : ∀ x ∈ s.devices.filter Device.isStorage, ∀ y ∈ s.devices.filter Device.isStorage, x.id = y.id → x = y :=
    fun x hx y hy e => hdi x (List.mem_filter.1 hx).1 y (List.mem_filter.1 hy).1 e
  rw [C38_power_units (k := .desSoc) (u := .mwh) hg (by simp [powerUnits])]
  simp only [Sim.gatherState, bind_ok, pure_ok] at hg
  obtain ⟨soc, hsoc, hste⟩ := hg
  have R3 : ∀ i, reading st .desSoc .pu i = Dict.get? soc i := by
    rw [← hste]; intro; rfl
  have hsoc' : soc = (s.devices.filter Device.isStorage).map fun d => (Ident.node d.id, d.soc.getD .nan) := by
    rw [← List.forall₂_eq_eq_eq, List.forall₂_map_right_iff]
    refine (mapE_ok.1 hsoc).flip.imp fun e d hd => ?_
    split at hd
    · cases hd
    · rename_i y hy
      cases hd
      rw [hy]; rfl
  obtain ⟨p, -, hp⟩ := forall₂_mem_left (mapE_ok.1 hsoc) (List.mem_filter.2 ⟨hd, hn⟩)
  split at hp
  · cases hp
  · rename_i z hz
    refine ⟨z, hz, ?_⟩
    rw [R3, hsoc', get?_of_mem hfi (List.mem_filter.2 ⟨hd, hn⟩), hz]; rfl

theorem X.mul_pos_inj {b : K} (hb : 0 < b) {x y : X K} (h : x * .fin b = y * .fin b) : x = y := by
  rw [X.mul_fin_cases hb, X.mul_fin_cases hb] at h
  cases x <;> cases y <;> simp_all [hb.ne']

theorem forget_isStorage (d : Device K) : d.forget.isStorage = d.isStorage := rfl

theorem soc_of_filter {b : K} (hb : 0 < b) {l1 l2 : List (Device K)} (hf : l1.map Device.forget = l2.map Device.forget)
    (h1 : ∀ d ∈ l1, d.isStorage = true → ∃ z, d.soc = some z) (h2 : ∀ d ∈ l2, d.isStorage = true → ∃ z, d.soc = some z)
    (h : (l1.filter Device.isStorage).map (fun d => d.soc.getD .nan * .fin b) =
      (l2.filter Device.isStorage).map fun d => d.soc.getD .nan * .fin b) : l1.map Device.soc = l2.map Device.soc := by
  induction l1 generalizing l2 with
  | nil => cases l2 <;> simp_all
  | cons x l1 ih =>
    cases l2 with
    | nil => simp at hf
    | cons y l2 =>
      simp only [List.map_cons, List.cons.injEq] at hf ⊢
      have hs : x.isStorage = y.isStorage := by rw [← forget_isStorage x, hf.1, forget_isStorage]
      rw [List.forall_mem_cons] at h1 h2
      cases hx : x.isStorage with
      | true =>
        have hy := hs ▸ hx
        simp only [List.filter_cons, hx, hy, if_true, List.map_cons, List.cons.injEq] at h
        obtain ⟨z1, hz1⟩ := h1.1 hx
        obtain ⟨z2, hz2⟩ := h2.1 hy
        refine ⟨?_, ih hf.2 h1.2 h2.2 h.2⟩
        have := h.1
        rw [hz1, hz2] at this
        rw [hz1, hz2, show z1 = z2 from X.mul_pos_inj hb this]
      | false =>
        have hy := hs ▸ hx
        simp only [List.filter_cons, hx, hy, Bool.false_eq_true, if_false] at h
        refine ⟨?_, ih hf.2 h1.2 h2.2 h⟩
        have e1 : x.forget.soc = x.soc := by simp [Device.forget, Device.wipe, hx]
        have e2 : y.forget.soc = y.soc := by simp [Device.forget, Device.wipe, hy]
        rw [← e1, ← e2, hf.1]

/-- The states of charge are determined by the state vector. -/
theorem state_soc {c : EnvCtx K ρ} {a : EnvArgs K} {e0 e1 e2 : Env K ρ} {base : K} (h0 : mkEnv c a = .ok e0)
    (h1 : EnvHistory c e0 e1) (h2 : EnvHistory c e0 e2) (hn : CleanFile a.network base) {y1 y2 : EnvDyn K}
    (hy1 : e1.dyn = some y1) (hy2 : e2.dyn = some y2) (t1 : y1.terminated = false) (t2 : y2.terminated = false)
    (hst : y1.state = y2.state) : e1.sim.devices.map Device.soc = e2.sim.devices.map Device.soc := by
  have hf : e1.sim.forget = e2.sim.forget := (forget_history (simHistory h1)).trans (forget_history (simHistory h2)).symm
  have hd : e1.sim.devices.map Device.forget = e2.sim.devices.map Device.forget := congrArg Sim.devices hf
  have he1 : EnvOf c a e1 := ⟨e0, h0, h1⟩
  have he2 : EnvOf c a e2 := ⟨e0, h0, h2⟩
  have hb := basePos_of_simOf hn (envOf_simOf he1)
  have b1 : e1.sim.baseMVA = .fin base := (simOf_base (envOf_simOf he1)).1.trans hn.base
  have b2 : e2.sim.baseMVA = .fin base := (simOf_base (envOf_simOf he2)).1.trans hn.base
  obtain ⟨-, -, -, sort1, lay1, -⟩ := C49_state_layout he1 hy1
  obtain ⟨aux, -, st, p, q, soc, g, g1, g2, g3, g4, g5, g6⟩ := lay1 t1
  obtain ⟨st', g1', hst1⟩ := env_state he1 hy1
  rw [g1] at g1'
  cases g1'
  obtain ⟨-, -, -, sort2, lay2, -⟩ := C49_state_layout he2 hy2
  obtain ⟨aux', -, st', p', q', soc', g', k1, k2, k3, k4, k5, k6⟩ := lay2 t2
  obtain ⟨st'', k1', hst2⟩ := env_state he2 hy2
  rw [k1] at k1'
  cases k1'
  have c1 := counts_same (sameConfig_history (simHistory h1))
  have c2 := counts_same (sameConfig_history (simHistory h2))
  have hl : e1.sim.devices.length = e2.sim.devices.length := by simpa using congrArg List.length hd
  have hls : (e1.sim.devices.filter Device.isStorage).length = (e2.sim.devices.filter Device.isStorage).length :=
    c1.2.2.2.trans c2.2.2.2.symm
  rw [g2, k2] at hst
  have hsoc : soc = soc' := by
    have l1 := g3.length_eq
    have l2 := g4.length_eq
    have l3 := g5.length_eq
    have l1' := k3.length_eq
    have l2' := k4.length_eq
    have l3' := k5.length_eq
    simp only [List.append_assoc] at hst
    have := List.append_inj hst (by omega)
    have := List.append_inj this.2 (by omega)
    exact (List.append_inj this.2 (by omega)).1
  subst hsoc
  have key : ∀ {e : Env K ρ} {st : SimState K}, e.sim.baseMVA = .fin base → e.sim.gatherState c.sim.pi = .ok st →
      e.sim.devices.Pairwise (fun d d' => d.id < d'.id) →
      List.Forall₂ (fun d x => reading st .desSoc .mwh (.node d.id) = some x) (e.sim.devices.filter Device.isStorage) soc →
      soc = (e.sim.devices.filter Device.isStorage).map (fun d => d.soc.getD .nan * .fin base) := by
    intro e st hbase hst hsort hf
    rw [← List.forall₂_eq_eq_eq, List.forall₂_map_right_iff]
    refine (forall₂_imp_mem hf fun d x hd hx => ?_).flip
    obtain ⟨hd1, hd2⟩ := List.mem_filter.1 hd
    obtain ⟨z, hz, hr⟩ := soc_reading hst hsort hd1 hd2
    rw [hx, Option.some.injEq, hbase] at hr
    change x = _
    rw [hr, hz]; rfl
  have hsome : ∀ {e : Env K ρ} {st : SimState K}, e.sim.gatherState c.sim.pi = .ok st →
      e.sim.devices.Pairwise (fun d d' => d.id < d'.id) → ∀ d ∈ e.sim.devices, d.isStorage = true → ∃ z, d.soc = some z := by
    intro e st hst hsort d hd hds
    obtain ⟨z, hz, -⟩ := soc_reading hst hsort hd hds
    exact ⟨z, hz⟩
  refine soc_of_filter hb hd (hsome hst1 sort1) (hsome hst2 sort2) ((key b1 hst1 sort1 g5).symm.trans (key b2 hst2 sort2 k5))

/-- After a reset there is an observation space. -/
theorem obsSpace_of_dyn {c : EnvCtx K ρ} {e0 e : Env K ρ} (h0 : e0.dyn = none) (h : EnvHistory c e0 e) :
    ∀ {y : EnvDyn K}, e.dyn = some y → ∃ b, e.obsSpace = some b := by
  induction h with
  | refl => intro y hy; rw [h0] at hy; cases hy
  | tail hh hc ih =>
    intro y hy
    rcases hc with ⟨seed, obs, h⟩ | ⟨act, out, h⟩ | ⟨r, rfl⟩
    · obtain ⟨v, st, n, I⟩ := env_reset_ok h
      exact ⟨_, by rw [I.result]⟩
    · obtain ⟨_, y0, hy0, _⟩ := step_ok h
      obtain ⟨b, hb⟩ := ih hy0
      exact ⟨b, (sameEnv_call (.inr (.inl ⟨_, _, h⟩))).obsSpace b hb⟩
    · exact ih hy

theorem obsSpace_eq {c : EnvCtx K ρ} {a : EnvArgs K} {e0 e1 e2 : Env K ρ} (h0 : mkEnv c a = .ok e0)
    (h1 : EnvHistory c e0 e1) (h2 : EnvHistory c e0 e2) (hobs : FixedLength a.observation.fn) {y1 y2 : EnvDyn K}
    (hy1 : e1.dyn = some y1) (hy2 : e2.dyn = some y2) : e1.obsSpace = e2.obsSpace := by
  have I := mkEnv_ok h0
  obtain ⟨b1, hb1⟩ := obsSpace_of_dyn I.dyn h1 hy1
  obtain ⟨b2, hb2⟩ := obsSpace_of_dyn I.dyn h2 hy2
  cases hos : e0.obsSpace with
  | some b => rw [(sameEnv_history h1).obsSpace b hos, (sameEnv_history h2).obsSpace b hos]
  | none =>
    have hfn : ∃ f, a.observation.fn = some f := by
      have hv := I.obsValues
      have ho := I.obsSpace
      rw [hos] at ho
      cases hao : a.observation with
      | callable f => exact ⟨_, rfl⟩
      | state => rw [hao, obsValues, Except.ok.injEq] at hv
                 rw [← hv] at ho
                 simp only [observationBounds, bind_ok, pure_ok] at ho
                 obtain ⟨_, _, b, _, hb⟩ := ho
                 cases hb
      | list l => rw [hao] at hv
                  simp only [obsValues, bind_ok, pure_ok] at hv
                  obtain ⟨w, _, hv⟩ := hv
                  rw [← hv] at ho
                  simp only [observationBounds, bind_ok, pure_ok] at ho
                  obtain ⟨_, _, b, _, hb⟩ := ho
                  cases hb
      | other => rw [hao] at hv; cases hv
    obtain ⟨f, hf⟩ := hfn
    obtain ⟨n, hn⟩ := hobs f hf
    have hf0 : e0.obsFn = some f := I.obsFn.trans hf
    rcases obsSpace_history h1 hf0 hn (.inl hos) with h | h <;> rcases obsSpace_history h2 hf0 hn (.inl hos) with h' | h'
    · rw [h, h']
    · rw [hb1] at h; cases h
    · rw [hb2] at h'; cases h'
    · rw [h, h']

/-- What remains is the same after histories that end with the same states of charge. -/
theorem wipe_eq {c : Ctx K} {s0 s1 s2 : Sim K} (h1 : History c s0 s1) (h2 : History c s0 s2)
    (hsoc : s1.devices.map Device.soc = s2.devices.map Device.soc) : s1.wipe = s2.wipe := by
  have hf : s1.forget = s2.forget := (forget_history h1).trans (forget_history h2).symm
  have hd : s1.devices.map Device.forget = s2.devices.map Device.forget := congrArg Sim.devices hf
  have hd' : s1.devices.map Device.wipe = s2.devices.map Device.wipe := by
    clear h1 h2 hf
    generalize s1.devices = l1 at *
    generalize s2.devices = l2 at *
    induction l1 generalizing l2 with
    | nil => cases l2 <;> simp_all
    | cons x l1 ih =>
      cases l2 with
      | nil => simp at hd
      | cons y l2 =>
        simp only [List.map_cons, List.cons.injEq] at hd hsoc ⊢
        refine ⟨?_, ih l2 hsoc.2 hd.2⟩
        have e : ∀ d : Device K, d.wipe = { d.forget with soc := d.soc } := fun _ => rfl
        rw [e x, e y, hd.1, hsoc.1]
  have e : ∀ s : Sim K, s.wipe = { s.forget with devices := s.devices.map Device.wipe } := fun _ => rfl
  rw [e s1, e s2, hf, hd']

theorem varDicts_wipe (pl pp : List (X K)) (ds : List (Device K)) (l g : ℕ) (acc : Dict ℤ (X K) × Dict ℤ (X K)) :
    Env.varDicts pl pp (ds.map Device.wipe) l g acc = Env.varDicts pl pp ds l g acc := by
  induction ds generalizing l g acc with
  | nil => rfl
  | cons d ds ih =>
    simp only [List.map_cons, Env.varDicts, ih]
    rfl

theorem filter_wipe (ds : List (Device K)) (P : Device K → Bool) (hP : ∀ d, P d.wipe = P d) :
    (ds.map Device.wipe).filter P = (ds.filter P).map Device.wipe := by
  rw [List.filter_map]
  congr 1
  exact List.filter_congr fun d _ => hP d

theorem wipe_classes (d : Device K) : d.wipe.isLoad = d.isLoad ∧ d.wipe.isNonSlackGen = d.isNonSlackGen ∧
    d.wipe.isStorage = d.isStorage := ⟨rfl, rfl, rfl⟩

/-- An environment without what a step from the state vector ignores. -/
def Env.core (e : Env K ρ) : Env K ρ := { e with sim := e.sim.wipe, dyn := none }

theorem advance_core (c : EnvCtx K ρ) (e : Env K ρ) (y : EnvDyn K) (act : List (X K)) :
    e.core.advance c y act = e.advance c y act := by
  have h1 : e.core.sim.nLoad = e.sim.nLoad := by
    change ((e.sim.devices.map Device.wipe).filter Device.isLoad).length = _
    rw [filter_wipe _ _ fun _ => rfl, List.length_map]; rfl
  have h2 : e.core.sim.nNonSlackGen = e.sim.nNonSlackGen := by
    change ((e.sim.devices.map Device.wipe).filter Device.isNonSlackGen).length = _
    rw [filter_wipe _ _ fun _ => rfl, List.length_map]; rfl
  have h3 : ∀ l g acc pl pp, Env.varDicts pl pp e.core.sim.devices l g acc = Env.varDicts pl pp e.sim.devices l g acc :=
    fun _ _ _ _ _ => varDicts_wipe _ _ _ _ _ _
  have h4 : Env.decode e.core.sim act = Env.decode e.sim act := by
    have a1 : (e.core.sim.devices.filter Device.isNonSlackGen).map Device.id =
        (e.sim.devices.filter Device.isNonSlackGen).map Device.id := by
      change ((e.sim.devices.map Device.wipe).filter Device.isNonSlackGen).map Device.id = _
      rw [filter_wipe _ _ fun _ => rfl, List.map_map]; rfl
    have a2 : (e.core.sim.devices.filter Device.isStorage).map Device.id =
        (e.sim.devices.filter Device.isStorage).map Device.id := by
      change ((e.sim.devices.map Device.wipe).filter Device.isStorage).map Device.id = _
      rw [filter_wipe _ _ fun _ => rfl, List.map_map]; rfl
    simp only [Env.decode, a1, a2]
  have h5 : ∀ args, e.core.sim.transition c.sim args = e.sim.transition c.sim args := fun _ => transition_wipe _ _ _
  unfold Env.advance
  simp only [h1, h2, h3, h4, h5]
  rfl

/-- The number of steps only shows in the number of steps. -/
theorem advance_time (c : EnvCtx K ρ) (e : Env K ρ) {y1 y2 : EnvDyn K} (h : y1.state = y2.state) (act : List (X K)) :
    e.advance c y2 act = (e.advance c y1 act).map fun z =>
      ({ z.1 with dyn := z.1.dyn.map fun y => { y with timestep := y2.timestep + 1 } }, z.2) := by
  unfold Env.advance
  rw [h]
  cases c.nextVars y2.state e.rng with
  | error x => rfl
  | ok z =>
    obtain ⟨vars, r⟩ := z
    simp only [bind, Except.bind]
    cases guardE (vars.length = e.sim.nLoad + e.sim.nNonSlackGen + e.nAux) .envNextVars with
    | error x => rfl
    | ok _ =>
      dsimp only
      cases Env.varDicts (vars.take e.sim.nLoad) (Sim.slice vars e.sim.nLoad (e.sim.nLoad + e.sim.nNonSlackGen))
        e.sim.devices 0 0 ([], []) with
      | error x => rfl
      | ok d =>
        dsimp only
        split
        · rfl
        · split
          · rfl
          · split
            · rfl
            · rfl

theorem step_reject {c : EnvCtx K ρ} {e : Env K ρ} {act : List (X K)} (h : ¬ e.actionSpace.contains act true) :
    e.step c act = .error .assertionError := by
  simp only [Env.step, guardE, if_neg h, bind, Except.bind]

theorem step_live {c : EnvCtx K ρ} {e : Env K ρ} {act : List (X K)} {y : EnvDyn K} (h : e.actionSpace.contains act true)
    (hy : e.dyn = some y) (ht : y.terminated = false) : e.step c act = e.advance c y act := by
  simp only [Env.step, guardE, if_pos h, bind, Except.bind, hy, ht, Bool.false_eq_true, if_false]

theorem step_dead {c : EnvCtx K ρ} {e : Env K ρ} {act : List (X K)} {y : EnvDyn K} (h : e.actionSpace.contains act true)
    (hy : e.dyn = some y) (ht : y.terminated = true) :
    e.step c act = .ok (e, { obs := Env.zeros e.obsN, reward := 0, terminated := true }) := by
  simp only [Env.step, guardE, if_pos h, bind, Except.bind, hy, ht, if_true]

theorem core_eq {c : EnvCtx K ρ} {a : EnvArgs K} {e0 e1 e2 : Env K ρ} {base : K} (h0 : mkEnv c a = .ok e0)
    (h1 : EnvHistory c e0 e1) (h2 : EnvHistory c e0 e2) (hn : CleanFile a.network base)
    (hobs : FixedLength a.observation.fn) {y1 y2 : EnvDyn K}
    (hy1 : e1.dyn = some y1) (hy2 : e2.dyn = some y2) (t1 : y1.terminated = false) (t2 : y2.terminated = false)
    (hst : y1.state = y2.state) (hr : e1.rng = e2.rng) : e1.core = e2.core := by
  have s1 := sameEnv_history h1
  have s2 := sameEnv_history h2
  have hsp := obsSpace_eq h0 h1 h2 hobs hy1 hy2
  have hw := wipe_eq (simHistory h1) (simHistory h2) (state_soc h0 h1 h2 hn hy1 hy2 t1 t2 hst)
  have hmk : ∀ e : Env K ρ, e.core = ⟨e.sim.wipe, e.nAux, e.gamma, e.c1, e.c2, e.auxBounds, e.stateValues, e.stateN,
      e.actionSpace, e.obsValues, e.obsFn, e.obsSpace, e.rng, none⟩ := fun _ => rfl
  rw [hmk, hmk, hw, hsp, hr, s1.nAux, s2.nAux, s1.gamma, s2.gamma, s1.c1, s2.c1, s1.c2, s2.c2, s1.auxBounds, s2.auxBounds,
    s1.stateValues, s2.stateValues, s1.stateN, s2.stateN, s1.actionSpace, s2.actionSpace, s1.obsValues, s2.obsValues,
    s1.obsFn, s2.obsFn]

/-- **C104.** Two environments made with the same arguments that are in the same situation, whatever their pasts,
answer an action with the same exception, or with the same observation, reward and flag and are in the same
situation again. -/
theorem C104_step {c : EnvCtx K ρ} {a : EnvArgs K} {e1 e2 : Env K ρ} {base : K} (h1 : EnvOf c a e1) (h2 : EnvOf c a e2)
    (hn : CleanFile a.network base) (hobs : FixedLength a.observation.fn) (hs : SameSituation e1 e2) (act : List (X K)) :
    (∀ x, e1.step c act = .error x ↔ e2.step c act = .error x) ∧
      ∀ e1' o, e1.step c act = .ok (e1', o) → ∃ e2', e2.step c act = .ok (e2', o) ∧ SameSituation e1' e2' := by
  obtain ⟨y1, y2, hy1, hy2, hst, ht, hr⟩ := hs
  obtain ⟨e0, h0, p1⟩ := h1
  obtain ⟨e0', h0', p2⟩ := h2
  rw [h0] at h0'
  cases h0'
  have s1 := sameEnv_history p1
  have s2 := sameEnv_history p2
  have hact : e2.actionSpace = e1.actionSpace := s2.actionSpace.trans s1.actionSpace.symm
  by_cases hc : e1.actionSpace.contains act true
  · have hc2 : e2.actionSpace.contains act true := hact ▸ hc
    cases hx : y2.terminated with
    | true =>
      have hsp := obsSpace_eq h0 p1 p2 hobs hy1 hy2
      rw [step_dead hc hy1 (ht.trans hx), step_dead hc2 hy2 hx]
      refine ⟨fun x => ⟨nofun, nofun⟩, fun e1' o h => ?_⟩
      simp only [Except.ok.injEq, Prod.mk.injEq] at h
      obtain ⟨rfl, rfl⟩ := h
      exact ⟨e2, by simp only [Env.obsN, hsp], y1, y2, hy1, hy2, hst, ht, hr⟩
    | false =>
      have hx1 := ht.trans hx
      rw [step_live hc hy1 hx1, step_live hc2 hy2 hx]
      rw [← advance_core c e1, ← advance_core c e2, core_eq h0 p1 p2 hn hobs hy1 hy2 hx1 hx hst hr,
        advance_time c e2.core hst]
      cases hz : e2.core.advance c y1 act with
      | error x =>
        simp only [Except.map, reduceCtorEq, false_implies, implies_true, and_self]
      | ok z =>
        obtain ⟨e', o⟩ := z
        simp only [Except.map, reduceCtorEq, implies_true, true_and]
        intro e1' o' h
        simp only [Except.ok.injEq, Prod.mk.injEq] at h
        obtain ⟨rfl, rfl⟩ := h
        obtain ⟨vars, args, o1, y', I⟩ := advance_ok hz
        have hd : e'.dyn = some y' := by rw [I.result]
        exact ⟨_, rfl, y', { y' with timestep := y2.timestep + 1 }, hd, by rw [hd]; rfl, rfl, rfl, rfl⟩
  · rw [step_reject hc, step_reject (hact ▸ hc)]
    exact ⟨fun x => Iff.rfl, fun _ _ h => by cases h⟩

/-- **C104, episodes.** No sequence of actions tells the two environments apart. -/
theorem C104_episode {c : EnvCtx K ρ} {a : EnvArgs K} {e1 e2 e1' : Env K ρ} {base : K} (h1 : EnvOf c a e1)
    (h2 : EnvOf c a e2) (hn : CleanFile a.network base) (hobs : FixedLength a.observation.fn) (hs : SameSituation e1 e2)
    {as : List (List (X K))} {os : List (Env.StepOut K)} (h : Episode c e1 as os e1') :
    ∃ e2', Episode c e2 as os e2' ∧ SameSituation e1' e2' := by
  induction h generalizing e2 with
  | nil => exact ⟨e2, .nil _, hs⟩
  | cons hstep _ ih =>
    obtain ⟨e2', g1, g2⟩ := (C104_step h1 h2 hn hobs hs _).2 _ _ hstep
    obtain ⟨e3, g3, g4⟩ := ih (envOf_call h1 (.inr (.inl ⟨_, _, hstep⟩))) (envOf_call h2 (.inr (.inl ⟨_, _, g1⟩))) g2
    exact ⟨e3, .cons g1 g3, g4⟩

/-! ### Environments whose `next_vars` draws nothing -/

/-- The same, but for the generator. -/
def Spec.SameState (e1 e2 : Env K ρ) : Prop :=
  ∃ y1 y2, e1.dyn = some y1 ∧ e2.dyn = some y2 ∧ y1.state = y2.state ∧ y1.terminated = y2.terminated

/-- `next_vars` is a function of the state. -/
def Spec.NoDraws (c : EnvCtx K ρ) : Prop :=
  ∃ f : List (X K) → Except PyErr (List (X K)), ∀ st r, c.nextVars st r = (f st).map fun v => (v, r)

theorem advance_rng {c : EnvCtx K ρ} (hc : NoDraws c) (e : Env K ρ) (y : EnvDyn K) (act : List (X K)) (r : ρ) :
    ({ e with rng := r } : Env K ρ).advance c y act = (e.advance c y act).map fun z => ({ z.1 with rng := r }, z.2) := by
  obtain ⟨f, hf⟩ := hc
  unfold Env.advance
  dsimp only
  rw [hf, hf]
  cases f y.state with
  | error x => rfl
  | ok vars =>
    simp only [bind, Except.bind, Except.map]
    cases guardE (vars.length = e.sim.nLoad + e.sim.nNonSlackGen + e.nAux) .envNextVars with
    | error x => rfl
    | ok _ =>
      dsimp only
      cases Env.varDicts (vars.take e.sim.nLoad) (Sim.slice vars e.sim.nLoad (e.sim.nLoad + e.sim.nNonSlackGen))
        e.sim.devices 0 0 ([], []) with
      | error x => rfl
      | ok d =>
        dsimp only
        cases e.sim.transition c.sim { pLoad := d.1, pPot := d.2, pSet := (Env.decode e.sim act).1, qSet := (Env.decode e.sim act).2 } with
        | error x => rfl
        | ok t =>
          dsimp only
          have e1 : ∀ r : ρ, ({ e with sim := t.1, rng := r } : Env K ρ).rewardOf t.2.converged t.2.eLoss t.2.penalty =
            e.rewardOf t.2.converged t.2.eLoss t.2.penalty := fun _ => rfl
          have e2 : ∀ (r : ρ) aux, ({ e with sim := t.1, rng := r } : Env K ρ).vectors t.2.converged y.state aux =
            ({ e with sim := t.1 } : Env K ρ).vectors t.2.converged y.state aux := fun _ _ => rfl
          simp only [e1, e2]
          cases e.rewardOf t.2.converged t.2.eLoss t.2.penalty with
          | error x => rfl
          | ok z =>
            dsimp only
            cases ({ e with sim := t.1 } : Env K ρ).vectors t.2.converged y.state (vars.drop (e.sim.nLoad + e.sim.nNonSlackGen)) with
            | error x => rfl
            | ok z => rfl

/-- **C105.** If `next_vars` draws nothing, what a step returns is a function of the state vector and the
action. -/
theorem C105_step {c : EnvCtx K ρ} {a : EnvArgs K} {e1 e2 : Env K ρ} {base : K} (hc : NoDraws c) (h1 : EnvOf c a e1)
    (h2 : EnvOf c a e2) (hn : CleanFile a.network base) (hobs : FixedLength a.observation.fn) (hs : SameState e1 e2)
    (act : List (X K)) : (∀ x, e1.step c act = .error x ↔ e2.step c act = .error x) ∧
      ∀ e1' o, e1.step c act = .ok (e1', o) → ∃ e2', e2.step c act = .ok (e2', o) ∧ SameState e1' e2' := by
  obtain ⟨y1, y2, hy1, hy2, hst, ht⟩ := hs
  have h2' : EnvOf c a { e2 with rng := e1.rng } := envOf_call h2 (.inr (.inr ⟨_, rfl⟩))
  have key := C104_step h1 h2' hn hobs ⟨y1, y2, hy1, hy2, hst, ht, rfl⟩ act
  have hstep : ({ e2 with rng := e1.rng } : Env K ρ).step c act =
      (e2.step c act).map fun z => ({ z.1 with rng := e1.rng }, z.2) := by
    by_cases hc' : e2.actionSpace.contains act true
    · cases hx : y2.terminated with
      | true =>
        rw [step_dead (e := e2) hc' hy2 hx, step_dead (e := { e2 with rng := e1.rng }) (y := y2) hc' hy2 hx]
        rfl
      | false =>
        rw [step_live (e := e2) hc' hy2 hx, step_live (e := { e2 with rng := e1.rng }) (y := y2) hc' hy2 hx, advance_rng hc]
    · rw [step_reject hc', step_reject (e := { e2 with rng := e1.rng }) hc']
      rfl
  rw [hstep] at key
  cases hz : e2.step c act with
  | error x =>
    rw [hz] at key
    refine ⟨fun x' => ?_, fun e1' o h => ?_⟩
    · rw [key.1 x']
      simp only [Except.map]
    · obtain ⟨_, h', _⟩ := key.2 _ _ h
      simp only [Except.map, reduceCtorEq] at h'
  | ok z =>
    rw [hz] at key
    refine ⟨fun x' => ?_, fun e1' o h => ?_⟩
    · rw [key.1 x']
      simp only [Except.map, reduceCtorEq]
    · obtain ⟨e2', h', y1', y2', g1, g2, g3, g4, -⟩ := key.2 _ _ h
      simp only [Except.map, Except.ok.injEq, Prod.mk.injEq] at h'
      obtain ⟨rfl, rfl⟩ := h'
      exact ⟨z.1, rfl, y1', y2', g1, g2, g3, g4⟩

/-- **C105, ANM6Easy.** ANM6Easy is deterministic: whatever the seeds, the dates and the pasts of two environments,
from the same state vector the same actions lead to the same observations, rewards, flags and states. -/
theorem C105_easy {w : EasyWorld K ρ} {s0 : Sim K} {a1 a2 a1' a2' : Anm6 K ρ} (h1 : EasyOf w s0 a1) (h2 : EasyOf w s0 a2)
    (hs : SameState a1.env a2.env) {us : List (List (X K))} {os1 os2 : List (Env.StepOut K)}
    (p1 : Anm6Episode (easyCtx w s0) a1 us os1 a1') (p2 : Anm6Episode (easyCtx w s0) a2 us os2 a2') :
    os1 = os2 ∧ SameState a1'.env a2'.env := by
  induction p1 generalizing a2 os2 with
  | nil => cases p2; exact ⟨rfl, hs⟩
  | cons hstep _ ih =>
    cases p2 with
    | cons hstep' p2 =>
      obtain ⟨e, d, d0, g1, _, _, g2⟩ := anm6_step_ok hstep
      obtain ⟨e', d', d0', g1', _, _, g2'⟩ := anm6_step_ok hstep'
      obtain ⟨e2', k1, k2⟩ := (C105_step ⟨easyNext, fun _ _ => rfl⟩ (easy_env h1) (easy_env h2) anm6_clean nofun hs _).2 _ _ g1
      rw [g1'] at k1
      simp only [Except.ok.injEq, Prod.mk.injEq] at k1
      obtain ⟨rfl, rfl⟩ := k1
      obtain ⟨rfl, h⟩ := ih (h1.step hstep) (h2.step hstep') (by rw [g2, g2']; exact k2) p2
      exact ⟨rfl, h⟩

end

end Anm
