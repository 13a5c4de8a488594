import Verif.Lemmas.Env

/-! # C46, C49, C50, C54, C55: environments over whole histories -/

set_option linter.unusedSectionVars false

namespace Anm

open Spec

section
variable {K ρ : Type} [Field K] [LinearOrder K]

/-! ### C46: terminal states are absorbing -/

/-- **C46.** Once terminated, every further step returns the zero observation, reward 0 and
`terminated = True`, and changes nothing in the environment object (hence neither the simulator, nor the
state, nor the time step), for every sequence of actions. -/
theorem C46_absorbing {c : EnvCtx K ρ} {e e' : Env K ρ} {y : EnvDyn K} {as : List (List (X K))}
    {os : List (Env.StepOut K)} (hy : e.dyn = some y) (ht : y.terminated = true)
    (h : Episode c e as os e') :
    e' = e ∧ ∀ o ∈ os, o.obs = List.replicate e.obsN 0 ∧ o.reward = 0 ∧ o.terminated = true := by
  induction h with
  | nil => simp
  | cons hs _ ih =>
    obtain ⟨_, y1, hy1, ⟨_, rfl, rfl⟩ | ⟨hf, _⟩⟩ := step_ok hs
    · obtain ⟨rfl, h2⟩ := ih hy
      exact ⟨rfl, List.forall_mem_cons.2 ⟨⟨rfl, rfl, rfl⟩, h2⟩⟩
    · rw [hy] at hy1; cases hy1; rw [ht] at hf; cases hf

/-- In a terminal state every action of the action space is accepted and every other one is refused. -/
theorem C46_terminal_step {c : EnvCtx K ρ} {e : Env K ρ} {y : EnvDyn K} (hy : e.dyn = some y)
    (ht : y.terminated = true) (a : List (X K)) :
    (e.actionSpace.contains a true → e.step c a = .ok (e, ⟨List.replicate e.obsN 0, 0, true⟩)) ∧
    (¬ e.actionSpace.contains a true → e.step c a = .error .assertionError) := by
  constructor <;> intro h <;> simp [Env.step, guardE, h, hy, ht, Env.zeros, bind, Except.bind]

/-- The flag returned by `step` says whether the environment is terminal afterwards. -/
theorem C46_flag {c : EnvCtx K ρ} {e e' : Env K ρ} {a : List (X K)} {o : Env.StepOut K}
    (h : e.step c a = .ok (e', o)) : ∃ y, e'.dyn = some y ∧ y.terminated = o.terminated := by
  obtain ⟨_, y, hy, ⟨ht, rfl, rfl⟩ | ⟨_, h⟩⟩ := step_ok h
  · exact ⟨y, hy, ht⟩
  · obtain ⟨vars, args, o, y', I⟩ := advance_ok h
    exact ⟨y', by rw [I.result], by rw [I.terminated, I.flag]⟩

/-- A collapsed step (no convergence of the power flow) terminates the environment, and nothing but a
call of `reset` leaves the terminal states. -/
theorem C46_until_reset {c : EnvCtx K ρ} {e e1 e' : Env K ρ} {a : List (X K)} {o : Env.StepOut K}
    {as : List (List (X K))} {os : List (Env.StepOut K)} (h1 : e.step c a = .ok (e1, o))
    (ht : o.terminated = true) (h : Episode c e1 as os e') :
    e' = e1 ∧ ∀ o ∈ os, o.obs = List.replicate e1.obsN 0 ∧ o.reward = 0 ∧ o.terminated = true := by
  obtain ⟨y, hy, hty⟩ := C46_flag h1
  exact C46_absorbing hy (hty.trans ht) h

/-- `reset` leaves the terminal states: afterwards the environment is at time step 0 with no costs, and the next
step is a real one. -/
theorem C46_reset {c : EnvCtx K ρ} {e e' : Env K ρ} {seed : Option ℤ} {obs : List (X K)}
    (h : e.reset c seed = .ok (e', obs)) :
    (∃ y, e'.dyn = some y ∧ y.terminated = false ∧ y.timestep = 0 ∧ y.eLoss = 0 ∧ y.penalty = 0) ∧
    ∀ a e2 o, e'.step c a = .ok (e2, o) → (∃ y, e2.dyn = some y ∧ y.timestep = 1) ∧
      ∃ args t, e'.sim.transition c.sim args = .ok (e2.sim, t) ∧ o.terminated = !t.converged := by
  obtain ⟨v, st, nw, I⟩ := env_reset_ok h
  have hy : e'.dyn = some { terminated := false, timestep := 0, eLoss := 0, penalty := 0, state := st } := by rw [I.result]
  refine ⟨⟨_, hy, rfl, rfl, rfl, rfl⟩, fun a e2 o h2 => ?_⟩
  obtain ⟨_, y1, hy1, ⟨ht, _, _⟩ | ⟨_, h3⟩⟩ := step_ok h2
  · rw [hy] at hy1; cases hy1; cases ht
  · rw [hy] at hy1; cases hy1
    obtain ⟨vars, args, t, y', J⟩ := advance_ok h3
    exact ⟨⟨y', by rw [J.result], by rw [J.timestep]⟩, args, t, J.trans, J.flag⟩

/-! ### C55: the time step -/

/-- The number of steps of an episode that are taken in a non-terminal state; the flag says whether the
state before the first one is terminal. -/
def Spec.liveSteps : Bool → List (Env.StepOut K) → ℕ
  | _, [] => 0
  | t, o :: os => (if t then 0 else 1) + liveSteps o.terminated os

theorem timestep_episode {c : EnvCtx K ρ} {e e' : Env K ρ} {as : List (List (X K))}
    {os : List (Env.StepOut K)} (h : Episode c e as os e') {y : EnvDyn K} (hy : e.dyn = some y) :
    ∃ y', e'.dyn = some y' ∧ y'.timestep = y.timestep + liveSteps y.terminated os := by
  induction h generalizing y with
  | nil => exact ⟨y, hy, rfl⟩
  | cons hs _ ih =>
    obtain ⟨_, y1, hy1, ⟨ht, rfl, rfl⟩ | ⟨hf, hs⟩⟩ := step_ok hs
    · rw [hy] at hy1; cases hy1
      obtain ⟨y', h1, h2⟩ := ih hy
      exact ⟨y', h1, by rw [h2]; simp [liveSteps, ht]⟩
    · rw [hy] at hy1; cases hy1
      obtain ⟨vars, args, o, y2, I⟩ := advance_ok hs
      obtain ⟨y', h1, h2⟩ := ih (y := y2) (by rw [I.result])
      refine ⟨y', h1, ?_⟩
      rw [h2, I.timestep, liveSteps, hf, I.terminated, I.flag]
      simp
      omega

/-- **C55.** After `reset` the time step is 0; after any sequence of steps it is the number of those taken
in a non-terminal state. -/
theorem C55_timestep {c : EnvCtx K ρ} {e e1 e' : Env K ρ} {seed : Option ℤ} {obs : List (X K)}
    {as : List (List (X K))} {os : List (Env.StepOut K)} (hr : e.reset c seed = .ok (e1, obs))
    (h : Episode c e1 as os e') :
    (∃ y, e1.dyn = some y ∧ y.timestep = 0) ∧
    ∃ y', e'.dyn = some y' ∧ y'.timestep = liveSteps false os := by
  obtain ⟨v, st, n, I⟩ := env_reset_ok hr
  have hd : e1.dyn = some { terminated := false, timestep := 0, eLoss := 0, penalty := 0, state := st } := by
    rw [I.result]
  refine ⟨⟨_, hd, rfl⟩, ?_⟩
  obtain ⟨y', h1, h2⟩ := timestep_episode h hd
  exact ⟨y', h1, by simpa using h2⟩

/-- One step: the time step grows by one exactly when the state was not terminal. -/
theorem C55_one_step {c : EnvCtx K ρ} {e e' : Env K ρ} {a : List (X K)} {o : Env.StepOut K}
    (h : e.step c a = .ok (e', o)) : ∃ y y', e.dyn = some y ∧ e'.dyn = some y' ∧
      y'.timestep = if y.terminated then y.timestep else y.timestep + 1 := by
  obtain ⟨_, y, hy, ⟨ht, rfl, rfl⟩ | ⟨hf, h⟩⟩ := step_ok h
  · exact ⟨y, y, hy, hy, by simp [ht]⟩
  · obtain ⟨vars, args, o, y', I⟩ := advance_ok h
    exact ⟨y, y', hy, by rw [I.result], by simp [hf, I.timestep]⟩

/-! ### C49, C50: the state vector -/

/-- **C49.** In every environment after every history, as soon as there is a state vector: it has length
`2 N_device + N_des + N_non_slack_gen + K = state_N`; if the state is not terminal it lists the reported
active powers (MW), reactive powers (MVAr), states of charge (MWh) and potentials (MW) by increasing
device ID and then `K` auxiliary variables; if it is terminal it is the zero vector. -/
theorem C49_state_layout [FloorRing K] {c : EnvCtx K ρ} {a : EnvArgs K} {e : Env K ρ} {y : EnvDyn K}
    (he : EnvOf c a e) (hy : e.dyn = some y) :
    y.state.length = 2 * e.sim.nDevice + e.sim.nDes + e.sim.nNonSlackGen + e.nAux ∧
    e.stateN = y.state.length ∧ e.nAux = a.nAux.toNat ∧
    e.sim.devices.Pairwise (fun d d' => d.id < d'.id) ∧
    (y.terminated = false → ∃ aux, aux.length = e.nAux ∧ StateLayout e.sim y.state aux) ∧
    (y.terminated = true → y.state = List.replicate e.stateN 0) := by
  have hn := envOf_stateN he
  have hsort := simOf_sorted (envOf_simOf he)
  have hk : e.nAux = a.nAux.toNat := by
    obtain ⟨e0, I, hs, -, -⟩ := envOf_inv he
    rw [hs.nAux, I.nAux]
  suffices h : (y.terminated = false → ∃ aux, aux.length = e.nAux ∧ StateLayout e.sim y.state aux) ∧
      (y.terminated = true → y.state = List.replicate e.stateN 0) by
    have hl : y.state.length = e.stateN := by
      cases ht : y.terminated
      · obtain ⟨aux, h1, h2⟩ := h.1 ht
        rw [StateLayout.length h2, h1, hn]
      · rw [h.2 ht, List.length_replicate]
    exact ⟨hl.trans hn, hl.symm, hk, hsort, h⟩
  obtain ⟨e0, h0, hh⟩ := he
  clear hn hsort hk
  induction hh generalizing y with
  | refl => rw [(mkEnv_ok h0).dyn] at hy; cases hy
  | @tail e1 e2 hh hc ih =>
    have he1 : EnvOf c a e1 := ⟨e0, h0, hh⟩
    have he2 : EnvOf c a e2 := envOf_call he1 hc
    rcases hc with ⟨seed, obs, h⟩ | ⟨act, out, h⟩ | ⟨r, rfl⟩
    · obtain ⟨y1, v, r, h1, h2, _, _, h3, h4⟩ := reset_layout he1 h
      rw [hy] at h1; cases h1
      refine ⟨fun _ => ⟨_, ?_, h4⟩, fun ht => by rw [h2] at ht; cases ht⟩
      have hs := sameEnv_call (.inl ⟨seed, obs, h⟩ : EnvCall c e1 e2)
      rw [lastN, List.length_drop, h3, hs.nAux, Env.initSize]
      omega
    · have hs := sameEnv_call (.inr (.inl ⟨act, out, h⟩) : EnvCall c e1 e2)
      obtain ⟨_, y1, hy1, ⟨ht, rfl, rfl⟩ | ⟨hf, h⟩⟩ := step_ok h
      · exact ih hy
      · obtain ⟨vars, args, o, y', I⟩ := advance_ok h
        have hd : e2.dyn = some y' := by rw [I.result]
        rw [hy] at hd; cases hd
        constructor
        · intro ht
          have ho : o.converged = true := by have := I.terminated; rw [ht] at this; simpa using this.symm
          refine ⟨_, ?_, advance_layout he2 hs.nAux I ho⟩
          rw [lastN, List.length_drop, I.size, hs.nAux]
          omega
        · intro ht
          have ho : o.converged = false := by have := I.terminated; rw [ht] at this; simpa using this.symm
          have hv := I.vectors
          rw [ho] at hv
          simp only [Env.vectors, Bool.false_eq_true, if_false, Except.ok.injEq, Prod.mk.injEq] at hv
          rw [← hv.1, hs.stateN]
          rfl
    · exact ih hy

/-- **C50.** The auxiliary variables: after `reset` they are the last `K` components of the accepted
vector returned by `init_state`, after a non-terminal step the last `K` components of the vector
returned by `next_vars` (which has one component per load, per non-slack generator and per auxiliary
variable). -/
theorem C50_aux_flow [FloorRing K] {c : EnvCtx K ρ} {a : EnvArgs K} {e e' : Env K ρ} (he : EnvOf c a e) :
    (∀ seed obs, e.reset c seed = .ok (e', obs) →
      ∃ y v r, e'.dyn = some y ∧ c.initState r = .ok (v, e'.rng) ∧ e.nAux ≤ v.length ∧
        lastN e.nAux y.state = lastN e.nAux v) ∧
    (∀ act out, e.step c act = .ok (e', out) → out.terminated = false →
      ∃ y y' v, e.dyn = some y ∧ e'.dyn = some y' ∧ c.nextVars y.state e.rng = .ok (v, e'.rng) ∧
        v.length = e.sim.nLoad + e.sim.nNonSlackGen + e.nAux ∧ lastN e.nAux y'.state = lastN e.nAux v) := by
  have key : ∀ {s : Sim K} {w aux : List (X K)} {k : ℕ}, StateLayout s w aux → aux.length = k → lastN k w = aux := by
    rintro s w aux k ⟨st, p, q, soc, g, -, rfl, -⟩ rfl
    rw [lastN, List.length_append, Nat.add_sub_cancel, List.drop_left]
  constructor
  · intro seed obs h
    obtain ⟨y, v, r, h1, _, _, h2, h3, h4⟩ := reset_layout he h
    refine ⟨y, v, r, h1, h2, by rw [h3, Env.initSize]; omega, key h4 ?_⟩
    rw [lastN, List.length_drop, h3, Env.initSize]; omega
  · intro act out h ht
    have he' := envOf_call he (.inr (.inl ⟨act, out, h⟩))
    have hs := sameEnv_call (.inr (.inl ⟨act, out, h⟩) : EnvCall c e e')
    obtain ⟨_, y, hy, ⟨_, rfl, rfl⟩ | ⟨hf, h⟩⟩ := step_ok h
    · cases ht
    · obtain ⟨vars, args, o, y', I⟩ := advance_ok h
      have ho : o.converged = true := by have := I.flag; rw [ht] at this; simpa using this.symm
      refine ⟨y, y', vars, hy, by rw [I.result], I.next, I.size, key (advance_layout he' hs.nAux I ho) ?_⟩
      rw [lastN, List.length_drop, I.size]; omega

/-! ### C54: reset erases history -/

/-- The observation callable, if any, returns vectors of one length. -/
def Spec.FixedLength (f : Option (List (X K) → List (X K) × Bool)) : Prop :=
  ∀ g, f = some g → ∃ n, ∀ v, (g v).1.length = n

theorem obsSpace_call {c : EnvCtx K ρ} {e e' : Env K ρ} (h : EnvCall c e e') {f : List (X K) → List (X K) × Bool}
    (hf : e.obsFn = some f) {n : ℕ} (hn : ∀ v, (f v).1.length = n)
    (hi : e.obsSpace = none ∨ e.obsSpace = some (Env.fixSpace none n)) :
    e'.obsSpace = none ∨ e'.obsSpace = some (Env.fixSpace none n) := by
  rcases h with ⟨seed, obs, h⟩ | ⟨a, out, h⟩ | ⟨r, rfl⟩
  · obtain ⟨v, st, nr, I⟩ := env_reset_ok h
    have hobs : obs.length = n := by
      have := I.observe
      simp only [Env.observe, hf, Except.ok.injEq] at this
      rw [← hn st, this]
    rw [I.result, hobs]
    rcases hi with hi | hi <;> simp [hi, Env.fixSpace]
  · obtain ⟨_, y, hy, ⟨_, rfl, _⟩ | ⟨_, h⟩⟩ := step_ok h
    · exact hi
    · obtain ⟨vars, args, o, y', I⟩ := advance_ok h
      rw [I.result]
      exact hi
  · exact hi

theorem obsSpace_history {c : EnvCtx K ρ} {e e' : Env K ρ} (h : EnvHistory c e e')
    {f : List (X K) → List (X K) × Bool} (hf : e.obsFn = some f) {n : ℕ} (hn : ∀ v, (f v).1.length = n)
    (hi : e.obsSpace = none ∨ e.obsSpace = some (Env.fixSpace none n)) :
    e'.obsSpace = none ∨ e'.obsSpace = some (Env.fixSpace none n) := by
  induction h with
  | refl => exact hi
  | tail hh hc ih => exact obsSpace_call hc ((sameEnv_history hh).obsFn.trans hf) hn ih

/-- **C54.** A reset with a seed erases the past: for two arbitrary histories of the same environment the
result of `reset(seed)` is the same exception, or the same observation and the same environment object.
Hence all later observations, rewards and flags are a function of the seed and the actions. -/
theorem C54_reset_erases [FloorRing K] {c : EnvCtx K ρ} {a : EnvArgs K} {e0 e1 e2 : Env K ρ}
    (h0 : mkEnv c a = .ok e0) (h1 : EnvHistory c e0 e1) (h2 : EnvHistory c e0 e2)
    (hobs : FixedLength a.observation.fn) (seed : ℤ) : e1.reset c (some seed) = e2.reset c (some seed) := by
  have I := mkEnv_ok h0
  have s1 := sameEnv_history h1
  have s2 := sameEnv_history h2
  have hs : ∀ n r, Env.search c e1.initSize (n + 1) e1.sim r = Env.search c e2.initSize (n + 1) e2.sim r := by
    intro n r
    have c1 := counts_same (sameConfig_history (simHistory h1))
    have c2 := counts_same (sameConfig_history (simHistory h2))
    have hsz : e1.initSize = e2.initSize := by
      simp only [Env.initSize, c1, c2, s1.nAux, s2.nAux]
    simp only [Env.search, hsz, C74_reset_erases (simHistory h1) (simHistory h2)]
  have hmk : ∀ e : Env K ρ, e = ⟨e.sim, e.nAux, e.gamma, e.c1, e.c2, e.auxBounds, e.stateValues, e.stateN,
      e.actionSpace, e.obsValues, e.obsFn, e.obsSpace, e.rng, e.dyn⟩ := fun _ => rfl
  unfold Env.reset
  dsimp only [Option.map_some, Option.getD_some]
  rw [hs 99]
  cases hse : Env.search c e2.initSize (99 + 1) e2.sim (c.seeded seed) with
  | error x => rfl
  | ok z =>
    obtain ⟨s, v, r⟩ := z
    simp only [bind, Except.bind]
    have hx : ({ e1 with sim := s, rng := r } : Env K ρ).extract v e1.stateValues =
        ({ e2 with sim := s, rng := r } : Env K ρ).extract v e2.stateValues := by
      simp only [Env.extract, s1.nAux, s2.nAux, s1.stateValues, s2.stateValues]
    rw [hx]
    cases ({ e2 with sim := s, rng := r } : Env K ρ).extract v e2.stateValues with
    | error x => rfl
    | ok st =>
      dsimp only
      cases hfn : a.observation.fn with
      | none =>
        have hos : ∃ b, e0.obsSpace = some b := by
          have hv := I.obsValues
          have ho := I.obsSpace
          cases hao : a.observation with
          | callable f => rw [hao] at hfn; cases hfn
          | state => rw [hao, obsValues, Except.ok.injEq] at hv
                     rw [← hv] at ho
                     simp only [observationBounds, bind_ok, pure_ok] at ho
                     obtain ⟨_, _, b, _, hb⟩ := ho
                     exact ⟨b, hb.symm⟩
          | list l => rw [hao] at hv
                      simp only [obsValues, bind_ok, pure_ok] at hv
                      obtain ⟨w, _, hv⟩ := hv
                      rw [← hv] at ho
                      simp only [observationBounds, bind_ok, pure_ok] at ho
                      obtain ⟨_, _, b, _, hb⟩ := ho
                      exact ⟨b, hb.symm⟩
          | other => rw [hao] at hv; cases hv
        obtain ⟨b, hb⟩ := hos
        simp only [Env.observe, s1.obsFn, s2.obsFn, I.obsFn, hfn, s1.obsValues, s2.obsValues, s1.obsSpace b hb,
          s2.obsSpace b hb, Env.extract, s1.nAux, s2.nAux, s1.gamma, s2.gamma, s1.c1, s2.c1, s1.c2, s2.c2,
          s1.auxBounds, s2.auxBounds, s1.stateValues, s2.stateValues, s1.stateN, s2.stateN, s1.actionSpace,
          s2.actionSpace]
      | some f =>
        obtain ⟨n, hn⟩ := hobs f hfn
        have hov : e0.obsSpace = none := by
          have hv := I.obsValues
          have ho := I.obsSpace
          cases hao : a.observation with
          | callable f => rw [hao, obsValues, Except.ok.injEq] at hv
                          rw [← hv] at ho
                          simpa [observationBounds] using ho.symm
          | state => rw [hao] at hfn; cases hfn
          | list l => rw [hao] at hfn; cases hfn
          | other => rw [hao] at hfn; cases hfn
        have hf0 : e0.obsFn = some f := I.obsFn.trans hfn
        have g : ∀ e : Env K ρ, EnvHistory c e0 e → Env.fixSpace e.obsSpace n = Env.fixSpace none n := by
          intro e he
          rcases obsSpace_history he hf0 hn (.inl hov) with h | h <;> rw [h]
          rfl
        simp only [Env.observe, s1.obsFn, s2.obsFn, hf0, hn, g e1 h1, g e2 h2, s1.obsValues, s2.obsValues,
          s1.nAux, s2.nAux, s1.gamma, s2.gamma, s1.c1, s2.c1, s1.c2, s2.c2,
          s1.auxBounds, s2.auxBounds, s1.stateValues, s2.stateValues, s1.stateN, s2.stateN, s1.actionSpace,
          s2.actionSpace]

/-- Equal environments give equal episodes: what `step` returns depends on the environment object and
the actions only. -/
theorem episode_det {c : EnvCtx K ρ} {e e1 e2 : Env K ρ} {as : List (List (X K))} {o1 o2 : List (Env.StepOut K)}
    (h1 : Episode c e as o1 e1) (h2 : Episode c e as o2 e2) : o1 = o2 ∧ e1 = e2 := by
  induction h1 generalizing o2 e2 with
  | nil => cases h2; exact ⟨rfl, rfl⟩
  | cons hs _ ih =>
    cases h2 with
    | cons hs' ht =>
      rw [hs] at hs'
      simp only [Except.ok.injEq, Prod.mk.injEq] at hs'
      obtain ⟨rfl, rfl⟩ := hs'
      obtain ⟨rfl, rfl⟩ := ih ht
      exact ⟨rfl, rfl⟩

/-- **C54.** Two environments with different pasts, reset with the same seed and then given the same
actions, return the same observations, rewards and flags. -/
theorem C54_replay [FloorRing K] {c : EnvCtx K ρ} {a : EnvArgs K} {e0 e1 e2 e1' e2' f1 f2 : Env K ρ}
    (h0 : mkEnv c a = .ok e0) (h1 : EnvHistory c e0 e1) (h2 : EnvHistory c e0 e2)
    (hobs : FixedLength a.observation.fn) {seed : ℤ} {obs1 obs2 : List (X K)}
    (r1 : e1.reset c (some seed) = .ok (e1', obs1)) (r2 : e2.reset c (some seed) = .ok (e2', obs2))
    {as : List (List (X K))} {o1 o2 : List (Env.StepOut K)} (p1 : Episode c e1' as o1 f1)
    (p2 : Episode c e2' as o2 f2) : obs1 = obs2 ∧ o1 = o2 ∧ f1 = f2 := by
  rw [C54_reset_erases h0 h1 h2 hobs, r2] at r1
  simp only [Except.ok.injEq, Prod.mk.injEq] at r1
  obtain ⟨rfl, rfl⟩ := r1
  obtain ⟨rfl, rfl⟩ := episode_det p1 p2
  exact ⟨rfl, rfl, rfl⟩

end

end Anm
