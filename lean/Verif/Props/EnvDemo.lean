import Verif.Props.EnvStep
import Verif.Props.DynamicsEx

/-! # C43–C55, C75, C76: concrete environments over ℚ and counterexamples -/

namespace Anm

open Spec

/-- A power flow that diverges when bus 1 consumes more than 9 MW, and otherwise returns fixed voltages and
flows (environment theorems hold for every power flow). -/
def envPF : PF ℚ := fun i =>
  let z : Phasor ℚ := ⟨.fin (1/10), 0, .fin (1/10), 0⟩
  .ok { v := fun k => if k = 0 then ⟨1, 0, 1, 0⟩ else ⟨.fin (19/20), 0, .fin (19/20), 0⟩
        i := fun _ => z, slackP := .fin (1/10), slackQ := 0
        flow := fun _ => ⟨z, z, .fin (1/10), 0, .fin (-1/10), 0, .fin (1/10)⟩
        stable := i.buses.all fun b => b.1 != 1 || decide (.fin (-9/100) < b.2.2.1) }

/-- Hooks: the random state counts the calls; `next_vars` returns the load, the potential and the number of
the call as auxiliary variable. -/
def envCtx (load : ℕ → ℚ) : EnvCtx ℚ ℕ where
  sim := ⟨demoQP, envPF, 22/7⟩
  box := fun _ _ => .ok ()
  seeded := fun n => n.toNat
  fresh := 0
  initState := fun r => .ok (demoInit ++ [.fin (r : ℚ)], r + 1)
  nextVars := fun _ r => .ok ([.fin (load r), .fin 20, .fin (r : ℚ)], r + 1)

/-- An observation list with explicit IDs, `"all"` and default units. -/
def demoObs : List ObsEntry :=
  [.item ⟨.devP, .list [.node 3, .node 1], some .mw⟩, .item ⟨.busVMagn, .all, none⟩,
   .item ⟨.branchS, .list [.br 1 2], some .mva⟩, .item ⟨.branchIMagn, .all, some .pu⟩, .item ⟨.aux, .all, none⟩]

def envArgs (obs : ObsArg ℚ) (gamma : ℚ) : EnvArgs ℚ where
  network := demoNet
  observation := obs
  nAux := 1
  deltaT := .fin (1/4)
  gamma := .fin gamma
  lamb := .fin 100
  clipping := some (some (.fin 1), some (.fin 100))


/-- The load is 5 MW and, from the third call of a hook on, 10 MW. -/
def load1 (r : ℕ) : ℚ := if r < 2 then -5 else -10

/-- Generator 0 MW and 1 MVAr, storage -4 MW and 2 MVAr. -/
def mildAct : List (X ℚ) := [.fin 0, .fin 1, .fin (-4), .fin 2]

/-- Construct, reset with seed 0, step, step (collapse). -/
def envRun (obs : ObsArg ℚ) (gamma : ℚ) : Except PyErr (Env ℚ ℕ × (Env ℚ ℕ × List (X ℚ)) ×
    (Env ℚ ℕ × Env.StepOut ℚ) × (Env ℚ ℕ × Env.StepOut ℚ)) := do
  let e0 ← mkEnv (envCtx load1) (envArgs obs gamma)
  let r ← e0.reset (envCtx load1) (some 0)
  let s1 ← r.1.step (envCtx load1) mildAct
  let s2 ← s1.1.step (envCtx load1) mildAct
  pure (e0, r, s1, s2)

/-- What the examples below use about the run. -/
structure DemoEnv (obs : ObsArg ℚ) (g : ℚ) where
  e0 : Env ℚ ℕ
  e1 : Env ℚ ℕ
  o1 : List (X ℚ)
  e2 : Env ℚ ℕ
  o2 : Env.StepOut ℚ
  made : mkEnv (envCtx load1) (envArgs obs g) = .ok e0
  rst : e0.reset (envCtx load1) (some 0) = .ok (e1, o1)
  stp : e1.step (envCtx load1) mildAct = .ok (e2, o2)
  live : o2.terminated = false
  rew : o2.reward = .fin (-1/16)

/-- The run up to the first step. -/
def envStart (obs : ObsArg ℚ) (gamma : ℚ) :
    Except PyErr (Env ℚ ℕ × (Env ℚ ℕ × List (X ℚ)) × (Env ℚ ℕ × Env.StepOut ℚ)) := do
  let e0 ← mkEnv (envCtx load1) (envArgs obs gamma)
  let r ← e0.reset (envCtx load1) (some 0)
  let s1 ← r.1.step (envCtx load1) mildAct
  pure (e0, r, s1)

theorem demoEnv_of {obs : ObsArg ℚ} {g : ℚ}
    (h : OkAnd (envStart obs g) fun r => r.2.2.2.terminated = false ∧ r.2.2.2.reward = .fin (-1/16)) :
    Nonempty (DemoEnv obs g) := by
  obtain ⟨⟨e0, ⟨e1, o1⟩, e2, o2⟩, h, h1, h2⟩ := exOk h
  simp only [envStart, bind_ok, pure_ok] at h
  obtain ⟨f0, k0, ⟨f1, p1⟩, k1, ⟨f2, p2⟩, k2, k⟩ := h
  simp only [Prod.mk.injEq] at k
  obtain ⟨rfl, ⟨rfl, rfl⟩, rfl, rfl⟩ := k
  exact ⟨⟨_, _, _, _, _, k0, k1, k2, h1, h2⟩⟩

/-- With the list of observations above; with the state vector; with `gamma = 1`; with a callable that
returns the first two components. -/
theorem demo_list : Nonempty (DemoEnv (.list demoObs) (99/100)) := demoEnv_of (by decide +kernel)
theorem demo_state : Nonempty (DemoEnv .state (99/100)) := demoEnv_of (by decide +kernel)
theorem demo_one : Nonempty (DemoEnv .state 1) := demoEnv_of (by decide +kernel)
theorem demo_fn : Nonempty (DemoEnv (.callable fun v => (v.take 2, true)) (99/100)) :=
  demoEnv_of (by decide +kernel)

theorem DemoEnv.of0 {obs : ObsArg ℚ} {g : ℚ} (d : DemoEnv obs g) : EnvOf (envCtx load1) (envArgs obs g) d.e0 :=
  ⟨d.e0, d.made, .refl⟩

theorem DemoEnv.of1 {obs : ObsArg ℚ} {g : ℚ} (d : DemoEnv obs g) : EnvOf (envCtx load1) (envArgs obs g) d.e1 :=
  envOf_call d.of0 (.inl ⟨_, _, d.rst⟩)

theorem DemoEnv.of2 {obs : ObsArg ℚ} {g : ℚ} (d : DemoEnv obs g) : EnvOf (envCtx load1) (envArgs obs g) d.e2 :=
  envOf_call d.of1 (.inr (.inl ⟨_, _, d.stp⟩))

/-- After the first step the environment is live. -/
theorem DemoEnv.live2 {obs : ObsArg ℚ} {g : ℚ} (d : DemoEnv obs g) :
    ∃ y, d.e2.dyn = some y ∧ y.terminated = false := by
  obtain ⟨y, h1, h2⟩ := C46_flag d.stp
  exact ⟨y, h1, h2.trans d.live⟩

theorem DemoEnv.live1 {obs : ObsArg ℚ} {g : ℚ} (d : DemoEnv obs g) :
    ∃ y, d.e1.dyn = some y ∧ y.terminated = false := by
  obtain ⟨v, st, n, I⟩ := env_reset_ok d.rst
  exact ⟨_, by rw [I.result], rfl⟩

/-- The second step collapses the network. -/
theorem collapse_demo {obs : ObsArg ℚ} {g : ℚ} (h : OkAnd (envRun obs g) fun r => r.2.2.2.2.terminated = true)
    (d : DemoEnv obs g) : ∃ e3 o3, d.e2.step (envCtx load1) mildAct = .ok (e3, o3) ∧ o3.terminated = true := by
  obtain ⟨⟨f0, ⟨f1, p1⟩, ⟨f2, p2⟩, f3, p3⟩, h, h1⟩ := exOk h
  simp only [envRun, bind_ok, pure_ok] at h
  obtain ⟨g0, k0, ⟨g1, q1⟩, k1, ⟨g2, q2⟩, k2, ⟨g3, q3⟩, k3, k⟩ := h
  simp only [Prod.mk.injEq] at k
  obtain ⟨rfl, ⟨rfl, rfl⟩, ⟨rfl, rfl⟩, rfl, rfl⟩ := k
  rw [d.made] at k0; cases k0
  rw [d.rst] at k1; cases k1
  rw [d.stp] at k2; cases k2
  exact ⟨_, _, k3, h1⟩

/-! ### The hypotheses of the theorems are met -/

/-- C46: a terminal environment in which steps are taken. -/
example : ∃ (e e' : Env ℚ ℕ) (y : EnvDyn ℚ) (os : List (Env.StepOut ℚ)), e.dyn = some y ∧ y.terminated = true ∧
    Episode (envCtx load1) e [mildAct, mildAct] os e' ∧ os.length = 2 := by
  obtain ⟨d⟩ := demo_list
  obtain ⟨e3, o3, h, ht⟩ := collapse_demo (by decide +kernel) d
  obtain ⟨y, hy, hty⟩ := C46_flag h
  have hs := (C46_terminal_step (c := envCtx load1) hy (hty.trans ht) mildAct).1 (by
    obtain ⟨h0, _⟩ := step_ok h
    rw [(sameEnv_call (.inr (.inl ⟨_, _, h⟩) : EnvCall (envCtx load1) d.e2 e3)).actionSpace]
    exact h0)
  exact ⟨e3, e3, y, _, hy, hty.trans ht, .cons hs (.cons hs (.nil _)), rfl⟩

/-- C55: after one step that does not terminate and one that does, the time step is 2. -/
example : ∃ (e' : Env ℚ ℕ) (y' : EnvDyn ℚ), EnvOf (envCtx load1) (envArgs (.list demoObs) (99/100)) e' ∧
    e'.dyn = some y' ∧ y'.timestep = 2 ∧ y'.terminated = true := by
  obtain ⟨d⟩ := demo_list
  obtain ⟨e3, o3, h, ht⟩ := collapse_demo (by decide +kernel) d
  obtain ⟨_, y', h1, h2⟩ := C55_timestep d.rst (.cons d.stp (.cons h (.nil _)))
  obtain ⟨y, hy, hty⟩ := C46_flag h
  refine ⟨e3, y', envOf_call d.of2 (.inr (.inl ⟨_, _, h⟩)), h1, ?_, ?_⟩
  · rw [h2]; simp [liveSteps, d.live]
  · rw [h1] at hy; cases hy; exact hty.trans ht

/-- C45, C49, C50, C51, C76: a live environment and a step that does not terminate. -/
example : ∃ (e e' : Env ℚ ℕ) (y : EnvDyn ℚ) (out : Env.StepOut ℚ),
    EnvOf (envCtx load1) (envArgs (.list demoObs) (99/100)) e ∧ e.dyn = some y ∧ y.terminated = false ∧
    e.step (envCtx load1) mildAct = .ok (e', out) ∧ out.terminated = false ∧ Observed e' out.obs ∧
    (∃ vars args o, (envCtx load1).nextVars y.state e.rng = .ok (vars, e'.rng) ∧
      vars.length = e.sim.nLoad + e.sim.nNonSlackGen + e.nAux ∧
      e.sim.transition (envCtx load1).sim args = .ok (e'.sim, o) ∧ Distributed e.sim vars args.pLoad args.pPot) := by
  obtain ⟨d⟩ := demo_list
  obtain ⟨y, h1, h2⟩ := d.live1
  exact ⟨d.e1, d.e2, y, d.o2, d.of1, h1, h2, d.stp, d.live, (C51_in_space_partial d.of1 rfl).2 _ _ d.stp d.live,
    C76_next_vars d.of1 d.stp h1 h2⟩

/-- C54: two different histories (one with two more steps), a built-in observation and a callable. -/
example : ∃ e0 e1 e2, mkEnv (envCtx load1) (envArgs .state (99/100)) = .ok e0 ∧ EnvHistory (envCtx load1) e0 e1 ∧
    EnvHistory (envCtx load1) e0 e2 ∧ e1.dyn.isNone = true ∧ e2.dyn.isNone = false ∧
    FixedLength (envArgs .state (99/100)).observation.fn := by
  obtain ⟨d⟩ := demo_state
  obtain ⟨y, h1, _⟩ := d.live2
  exact ⟨d.e0, d.e0, d.e2, d.made, .refl, (Relation.ReflTransGen.single (.inl ⟨_, _, d.rst⟩)).tail (.inr (.inl ⟨_, _, d.stp⟩)),
    by rw [(mkEnv_ok d.made).dyn]; rfl, by rw [h1]; rfl, fun g h => by cases h⟩

example : ∃ e0 e1 e2, mkEnv (envCtx load1) (envArgs (.callable fun v => ((0 :: v).take 1, true)) (99/100)) = .ok e0 ∧
    EnvHistory (envCtx load1) e0 e1 ∧ EnvHistory (envCtx load1) e0 e2 ∧ e1.dyn.isNone = true ∧ e2.dyn.isNone = false ∧
    FixedLength (envArgs (.callable fun v => ((0 :: v).take 1, true)) (99/100)).observation.fn := by
  obtain ⟨d⟩ : Nonempty (DemoEnv (.callable fun v => ((0 :: v).take 1, true)) (99/100)) := demoEnv_of (by decide +kernel)
  obtain ⟨y, h1, _⟩ := d.live2
  refine ⟨d.e0, d.e0, d.e2, d.made, .refl, (Relation.ReflTransGen.single (.inl ⟨_, _, d.rst⟩)).tail (.inr (.inl ⟨_, _, d.stp⟩)),
    by rw [(mkEnv_ok d.made).dyn]; rfl, by rw [h1]; rfl, fun g h => ?_⟩
  cases h
  exact ⟨1, fun v => rfl⟩

/-- C47: finite clipping values, a step that does not terminate. -/
example : ∃ (e e' : Env ℚ ℕ) (out : Env.StepOut ℚ), e.c1 = .fin 1 ∧ e.c2 = .fin 100 ∧
    e.step (envCtx load1) mildAct = .ok (e', out) ∧ out.terminated = false ∧ out.reward = .fin (-1/16) := by
  obtain ⟨d⟩ := demo_list
  have hs := sameEnv_call (.inl ⟨_, _, d.rst⟩ : EnvCall (envCtx load1) d.e0 d.e1)
  have I := mkEnv_ok d.made
  exact ⟨d.e1, d.e2, d.o2, by rw [hs.c1, I.c1]; rfl, by rw [hs.c2, I.c2]; rfl, d.stp, d.live, d.rew⟩

/-- C47: the terminating step returns `-100 / (1 - 0.99) = -10000`. -/
example : ∃ (e e' : Env ℚ ℕ) (out : Env.StepOut ℚ), e.step (envCtx load1) mildAct = .ok (e', out) ∧
    out.terminated = true ∧ out.reward = .fin (-10000) := by
  obtain ⟨d⟩ := demo_list
  obtain ⟨e3, o3, h, ht⟩ := collapse_demo (by decide +kernel) d
  obtain ⟨y, hy, hl⟩ := d.live2
  have hs := sameEnv_call (.inl ⟨_, _, d.rst⟩ : EnvCall (envCtx load1) d.e0 d.e1)
  have hs2 := sameEnv_call (.inr (.inl ⟨_, _, d.stp⟩) : EnvCall (envCtx load1) d.e1 d.e2)
  have I := mkEnv_ok d.made
  refine ⟨d.e2, e3, o3, h, ht, ?_⟩
  rw [C47_terminating (c2 := 100) (g := 99/100) (by rw [hs2.c2, hs.c2, I.c2]; rfl) (by rw [hs2.gamma, hs.gamma, I.gamma]; rfl)
    (by norm_num) hy hl h ht]
  norm_num

/-- C75: the callable returns the state vector itself, a `float64` array; construction succeeds. -/
example : ∃ e0, mkEnv (envCtx load1) (envArgs (.callable fun v => (v, false)) (99/100)) = .ok e0 := by
  obtain ⟨e0, h, _⟩ := exOk (r := mkEnv (envCtx load1) (envArgs (.callable fun v => (v, false)) (99/100)))
    (P := fun _ => True) (by decide +kernel)
  exact ⟨e0, h⟩

/-- C43, C44: the arguments of the demo environment are accepted, its items are plain and name the unit of
`branch_i_magn`. -/
example : (∃ e0, mkEnv (envCtx load1) (envArgs (.list demoObs) (99/100)) = .ok e0) ∧
    (∀ o ∈ demoObs, Plain o) ∧ ∀ o ∈ demoObs, NamesUnit o := by
  obtain ⟨d⟩ := demo_list
  refine ⟨⟨_, d.made⟩, ?_, ?_⟩ <;> intro o ho <;>
    simp only [demoObs, List.mem_cons, List.not_mem_nil, or_false] at ho <;>
    rcases ho with rfl | rfl | rfl | rfl | rfl <;> simp [Plain, NamesUnit]

/-! ### Counterexamples -/

/-- An accepted environment satisfying `P`. -/
theorem mk_ok {a : EnvArgs ℚ} (h : OkAnd (mkEnv (envCtx load1) a) fun _ => True) :
    ∃ e, mkEnv (envCtx load1) a = .ok e := by
  obtain ⟨e, h, _⟩ := exOk h
  exact ⟨e, h⟩

/-- **C43 is false for NaN**: the constructor accepts a NaN time step, penalty weight or discount factor,
although NaN is not `> 0`, `≥ 0` or in `[0, 1]`. -/
theorem C43_counterexample_nan :
    (∃ e, mkEnv (envCtx load1) { envArgs .state (99/100) with deltaT := .nan } = .ok e) ∧
    (∃ e, mkEnv (envCtx load1) { envArgs .state (99/100) with lamb := .nan } = .ok e) ∧
    (∃ e, mkEnv (envCtx load1) { envArgs .state (99/100) with gamma := .nan } = .ok e) ∧
    ¬ (0 : X ℚ) < .nan ∧ ¬ (0 : X ℚ) ≤ .nan :=
  ⟨mk_ok (by decide +kernel), mk_ok (by decide +kernel), mk_ok (by decide +kernel), by decide, by decide⟩

/-- **C43 is false for auxiliary variables**: the index -1 and a tuple of indices are accepted. -/
theorem C43_counterexample_aux :
    (∃ e, mkEnv (envCtx load1) (envArgs (.list [.item ⟨.aux, .list [.node (-1)], none⟩]) (99/100)) = .ok e ∧
      ¬ SupportedObs e.sim 1 (.list [.item ⟨.aux, .list [.node (-1)], none⟩])) ∧
    ∃ e, mkEnv (envCtx load1) (envArgs (.list [.item ⟨.aux, .iter [.node 0], none⟩]) (99/100)) = .ok e ∧
      ¬ SupportedObs e.sim 1 (.list [.item ⟨.aux, .iter [.node 0], none⟩]) := by
  constructor
  · obtain ⟨e, h⟩ := mk_ok (a := envArgs (.list [.item ⟨.aux, .list [.node (-1)], none⟩]) (99/100)) (by decide +kernel)
    refine ⟨e, h, fun hs => ?_⟩
    obtain ⟨_, _, h | ⟨l, h, hl⟩⟩ := hs _ (List.mem_singleton_self _)
    · cases h
    · cases h
      obtain ⟨n, _, hn⟩ : ∃ n : ℕ, (n : ℤ) < 1 ∧ Ident.node (-1) = .node n := by
        simpa [Located] using hl (.node (-1)) (by simp)
      injection hn with hn
      omega
  · obtain ⟨e, h⟩ := mk_ok (a := envArgs (.list [.item ⟨.aux, .iter [.node 0], none⟩]) (99/100)) (by decide +kernel)
    refine ⟨e, h, fun hs => ?_⟩
    obtain ⟨_, _, h | ⟨l, h, hl⟩⟩ := hs _ (List.mem_singleton_self _)
    · cases h
    · cases h

/-- **C43 is false for the unit of `branch_i_magn`**: in every network the strings `""`, `"p"` and `"u"` pass
the check, although they are no unit. -/
theorem C43_counterexample_unit (s : Sim ℚ) (x : String) (hx : x = "" ∨ x = "p" ∨ x = "u") :
    checkEnvArgs 0 (.fin 1) (.fin 1) (.fin (1/2)) (.list [.item ⟨.branchIMagn, .all, some (.other x)⟩]) none
      (s.stateSpace (22/7)) = .ok () ∧ ¬ HasUnit .branchIMagn (.other x) := by
  constructor
  · rcases hx with rfl | rfl | rfl <;>
      simp [checkEnvArgs, checkObs, forE, checkEntry, knownKey, checkNodes, checkUnit, unitOk, checkAuxBounds, guardE,
        X.zero_def, bind, Except.bind] <;> norm_num
  · simp [HasUnit, quantities]

/-- **C44 is false for `branch_i_magn` without unit**: `check_env_args` accepts the item, and the
construction then raises `KeyError`. -/
theorem C44_counterexample_default_unit :
    (∃ s, mkSim demoNet (.fin (1/4)) (.fin 100) = .ok s ∧ checkEnvArgs 1 (.fin (1/4)) (.fin 100) (.fin (99/100))
      (.list [.item ⟨.branchIMagn, .all, none⟩]) none (s.stateSpace (22/7)) = .ok ()) ∧
    mkEnv (envCtx load1) (envArgs (.list [.item ⟨.branchIMagn, .all, none⟩]) (99/100)) = .error .keyError := by
  constructor
  · obtain ⟨s, h, _⟩ := exOk (r := mkSim demoNet (.fin (1/4)) (.fin 100)) (P := fun _ => True) (by decide +kernel)
    refine ⟨s, h, ?_⟩
    simp [checkEnvArgs, checkObs, forE, checkEntry, knownKey, checkNodes, checkUnit, checkAuxBounds, guardE,
      X.zero_def, bind, Except.bind]
    norm_num
  · have : ∀ r : Except PyErr (Env ℚ ℕ), (match r with | .error .keyError => true | _ => false) = true →
        r = .error .keyError := by
      intro r h
      split at h
      · rfl
      · cases h
    exact this _ (by decide +kernel)

/-- **C44 is false for negative auxiliary indices**: the observation of "auxiliary variable -1" is the
maximum generation of generator 2 (20 MW), not an auxiliary variable (the only one is 0). -/
theorem C44_counterexample_aux : ∃ e0 e1 y,
    mkEnv (envCtx load1) (envArgs (.list [.item ⟨.aux, .list [.node (-1)], none⟩]) (99/100)) = .ok e0 ∧
    e0.reset (envCtx load1) (some 0) = .ok (e1, [.fin 20]) ∧ e1.dyn = some y ∧ lastN 1 y.state = [.fin 0] := by
  obtain ⟨⟨e0, e1, obs⟩, h, h1, h2⟩ := exOk (r := (do
      let e0 ← mkEnv (envCtx load1) (envArgs (.list [.item ⟨.aux, .list [.node (-1)], none⟩]) (99/100))
      let r ← e0.reset (envCtx load1) (some 0)
      pure (e0, r)))
    (P := fun r => r.2.2 = [.fin 20] ∧ (r.2.1.dyn.map fun y => lastN 1 y.state) = some [.fin 0]) (by decide +kernel)
  simp only [bind_ok, pure_ok, Prod.mk.injEq] at h
  obtain ⟨f0, k0, ⟨f1, o1⟩, k1, rfl, rfl, rfl⟩ := h
  dsimp only at h1 h2
  rw [Option.map_eq_some_iff] at h2
  obtain ⟨y, hy, hl⟩ := h2
  subst h1
  exact ⟨_, _, y, k0, k1, hy, hl⟩

/-- **C48 is false**: an environment that is accepted with `gamma = 1`, can be reset and stepped, and then
raises `ZeroDivisionError` when the network collapses. -/
theorem C48_counterexample : ∃ e0 e1 e2 obs out, mkEnv (envCtx load1) (envArgs .state 1) = .ok e0 ∧
    e0.reset (envCtx load1) (some 0) = .ok (e1, obs) ∧ e1.step (envCtx load1) mildAct = .ok (e2, out) ∧
    e2.step (envCtx load1) mildAct = .error .zeroDivision := by
  obtain ⟨d⟩ := demo_one
  refine ⟨d.e0, d.e1, d.e2, d.o1, d.o2, d.made, d.rst, d.stp, ?_⟩
  obtain ⟨⟨f0, ⟨f1, p1⟩, f2, p2⟩, h, h1⟩ := exOk (r := envStart .state 1)
    (P := fun r => (match r.2.2.1.step (envCtx load1) mildAct with | .error .zeroDivision => true | _ => false) = true)
    (by decide +kernel)
  simp only [envStart, bind_ok, pure_ok] at h
  obtain ⟨g0, k0, ⟨g1, q1⟩, k1, ⟨g2, q2⟩, k2, k⟩ := h
  simp only [Prod.mk.injEq] at k
  obtain ⟨rfl, ⟨rfl, rfl⟩, rfl, rfl⟩ := k
  rw [d.made] at k0; cases k0
  rw [d.rst] at k1; cases k1
  rw [d.stp] at k2; cases k2
  dsimp only at h1
  split at h1
  · assumption
  · cases h1

/-- **C51 is false for terminating steps**: the zero observation is outside the observation space (the
voltage magnitude at the slack bus has the bounds `[1, 1]`). -/
theorem C51_counterexample_terminal : ∃ e2 e3 out b,
    EnvOf (envCtx load1) (envArgs (.list demoObs) (99/100)) e2 ∧ e2.step (envCtx load1) mildAct = .ok (e3, out) ∧
    e3.obsSpace = some b ∧ ¬ b.contains out.obs := by
  obtain ⟨d⟩ := demo_list
  obtain ⟨⟨f0, ⟨f1, p1⟩, ⟨f2, p2⟩, f3, p3⟩, h, h1⟩ := exOk (r := envRun (.list demoObs) (99/100))
    (P := fun r => (r.2.2.2.1.obsSpace.any fun b => !decide (b.contains r.2.2.2.2.obs)) = true) (by decide +kernel)
  simp only [envRun, bind_ok, pure_ok] at h
  obtain ⟨g0, k0, ⟨g1, q1⟩, k1, ⟨g2, q2⟩, k2, ⟨g3, q3⟩, k3, k⟩ := h
  simp only [Prod.mk.injEq] at k
  obtain ⟨rfl, ⟨rfl, rfl⟩, ⟨rfl, rfl⟩, rfl, rfl⟩ := k
  rw [d.made] at k0; cases k0
  rw [d.rst] at k1; cases k1
  rw [d.stp] at k2; cases k2
  dsimp only at h1
  cases hb : g3.obsSpace with
  | none => rw [hb] at h1; cases h1
  | some b =>
    rw [hb] at h1
    exact ⟨d.e2, g3, q3, b, d.of2, k3, hb, by simpa using h1⟩

/-- A state of collapse: a load of 10 MW without generation. -/
def badInit : List (X ℚ) := [0, .fin (-10), 0, .fin (-20), 0, .fin (-2), 0, 0, .fin 50, .fin 20, 0]

/-- `init_state` returns a state of collapse in the first 99 calls. -/
def lateCtx : EnvCtx ℚ ℕ :=
  { envCtx load1 with initState := fun r => .ok (if r < 99 then badInit else demoInit ++ [0], r + 1) }

theorem late_fails {s : Sim ℚ} {size : ℕ} (hl : badInit.length = size) {s1 : Sim ℚ}
    (h1 : s.reset lateCtx.sim badInit = .ok (s1, false)) (h2 : s1.reset lateCtx.sim badInit = .ok (s1, false))
    (n r : ℕ) (h : n + 1 + r ≤ 99) : Fails lateCtx size (n + 1) s r s1 (n + 1 + r) := by
  have key : ∀ m r, m + r ≤ 99 → Fails lateCtx size m s1 r s1 (m + r) := by
    intro m
    induction m with
    | zero => intro r _; rw [Nat.zero_add]; exact .zero _ _
    | succ m ih =>
      intro r hr
      have := ih (r + 1) (by omega)
      rw [show m + 1 + r = m + (r + 1) by omega]
      exact .succ (v := badInit) (by simp only [lateCtx]; rw [if_pos (by omega)]) hl h2 this
  have := key n (r + 1) (by omega)
  rw [show n + 1 + r = n + (r + 1) by omega]
  exact .succ (v := badInit) (by simp only [lateCtx]; rw [if_pos (by omega)]) hl h1 this

/-- **C53 is false**: with seed 0 the hundredth initial state converges, but `reset` raises
`AttributeError`; with seed 1 the ninety-ninth one converges and the search succeeds. -/
theorem C53_counterexample : ∃ e0 s1 s2, mkEnv lateCtx (envArgs .state (99/100)) = .ok e0 ∧
    Fails lateCtx e0.initSize 99 e0.sim 0 s1 99 ∧ s1.reset lateCtx.sim (demoInit ++ [0]) = .ok (s2, true) ∧
    e0.reset lateCtx (some 0) = .error .attributeError ∧
    Env.search lateCtx e0.initSize 100 e0.sim 1 = .ok (s2, demoInit ++ [0], 100) := by
  obtain ⟨⟨e0, s1, s1', s2⟩, h, h1, h2, h3, h4⟩ := exOk (r := (do
      let e0 ← mkEnv lateCtx (envArgs .state (99/100))
      let s1 ← e0.sim.reset lateCtx.sim badInit
      let s1' ← s1.1.reset lateCtx.sim badInit
      let s2 ← s1.1.reset lateCtx.sim (demoInit ++ [0])
      pure (e0, s1, s1', s2)))
    (P := fun r => r.1.initSize = 11 ∧ r.2.1.2 = false ∧ r.2.2.1.2 = false ∧ r.2.2.2.2 = true)
    (by decide +kernel)
  simp only [bind_ok, pure_ok] at h
  obtain ⟨e, k0, ⟨t1, b1⟩, k1, ⟨t1', b1'⟩, k2, ⟨t2, b2⟩, k3, k⟩ := h
  simp only [Prod.mk.injEq] at k
  obtain ⟨rfl, rfl, rfl, rfl⟩ := k
  dsimp only at h1 h2 h3 h4 k2 k3
  subst h2 h3 h4
  have hh : History lateCtx.sim e.sim t1 := .single (.inr ⟨_, _, k1⟩)
  have : t1'= t1 := by
    have := C74_reset_erases (s0 := e.sim) hh .refl badInit
    rw [k2, k1] at this
    simpa using this
  subst this
  have f1 := late_fails (s := e.sim) (size := e.initSize) (h1 ▸ rfl) k1 k2 98 0 (by omega)
  have f2 := late_fails (s := e.sim) (size := e.initSize) (h1 ▸ rfl) k1 k2 97 1 (by omega)
  have hl : (demoInit ++ [0]).length = e.initSize := h1 ▸ rfl
  refine ⟨e, t1', t2, k0, f1, k3, C53_reset (C53_hundredth f1 (v := demoInit ++ [0]) (r' := 100) rfl hl k3), ?_⟩
  exact C53_search_partial.2 ⟨98, t1', 99, by omega, f2, rfl, hl, k3⟩

def shortInit : EnvCtx ℚ ℕ := { envCtx load1 with initState := fun r => .ok ([0], r) }
def shortNext : EnvCtx ℚ ℕ := { envCtx load1 with nextVars := fun _ r => .ok ([0], r) }

/-- C52: hooks that return vectors of a wrong size, with a power flow that raises no exception. -/
example : (∀ i, NoOwn ((envCtx load1).sim.pf i)) ∧
    (∃ e0, mkEnv shortInit (envArgs .state (99/100)) = .ok e0 ∧
      e0.reset shortInit none = .error .envInit) ∧
    ∃ e1, EnvOf (envCtx load1) (envArgs .state (99/100)) e1 ∧
      e1.step shortNext mildAct = .error .envNextVars := by
  have hpf : ∀ i, NoOwn ((envCtx load1).sim.pf i) := fun i => noOwn_ok _
  refine ⟨hpf, ?_, ?_⟩
  · obtain ⟨e0, h, h1⟩ := exOk (r := mkEnv shortInit (envArgs .state (99/100)))
      (P := fun e => 1 ≠ 2 * e.sim.nDevice + e.sim.nDes + e.sim.nNonSlackGen + e.nAux) (by decide +kernel)
    refine ⟨e0, h, (C52_init_size (c := shortInit) (seed := none) (fun r h => by cases h) hpf).2 ⟨0, _, _, [0], _, by omega, .zero _ _, rfl, h1⟩⟩
  · obtain ⟨⟨e0, ⟨e1, o1⟩, e2, o2⟩, h, h1⟩ := exOk (r := envStart .state (99/100))
      (P := fun r => 1 ≠ r.2.1.1.sim.nLoad + r.2.1.1.sim.nNonSlackGen + r.2.1.1.nAux) (by decide +kernel)
    simp only [envStart, bind_ok, pure_ok] at h
    obtain ⟨f0, k0, ⟨f1, p1⟩, k1, ⟨f2, p2⟩, k2, k⟩ := h
    simp only [Prod.mk.injEq] at k
    obtain ⟨rfl, ⟨rfl, rfl⟩, rfl, rfl⟩ := k
    obtain ⟨hc, y, hy, ⟨ht, _, ho⟩ | ⟨hl, _⟩⟩ := step_ok k2
    · obtain ⟨v, st, n, I⟩ := env_reset_ok k1
      rw [I.result] at hy
      cases hy
      cases ht
    · exact ⟨f1, envOf_call ⟨f0, k0, .refl⟩ (.inl ⟨_, _, k1⟩),
        (C52_next_size (c := shortNext) (fun _ _ h => by cases h) hpf).2 ⟨hc, y, hy, hl, [0], f1.rng, rfl, h1⟩⟩

end Anm
