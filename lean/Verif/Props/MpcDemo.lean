import Verif.Props.MpcPlan
import Verif.Props.MpcForecast
import Verif.Props.EnvDemo
import Verif.Props.Anm6Demo
import Verif.Props.State

/-! # C63–C69, C79: concrete MPC agents over ℚ and counterexamples -/

namespace Anm

open Spec

/-- A solver that accepts everything and always returns `v`. -/
def fixedCvx (v : Option (List (X ℚ))) : Cvx ℚ where
  emptyOk := true
  accept := fun _ _ _ => .ok ()
  solve := fun _ _ => .ok v

/-- Susceptances of the lines 0-1 and 1-2 of the demo network. -/
def demoY (i j : ℕ) : ℚ :=
  if (i = 0 ∧ j = 1) ∨ (i = 1 ∧ j = 0) then 10 else if (i = 1 ∧ j = 2) ∨ (i = 2 ∧ j = 1) then 3 else 0

/-- Slack 8 MW, load -5 MW, generator 1 MW, storage -4 MW. -/
def demoV : List (X ℚ) := [.fin (8/100), .fin (-5/100), .fin (1/100), .fin (-4/100)]

/-- Make an environment and an agent with two stages, reset, make a constant forecast, act, step. -/
def mpcRun (v : Option (List (X ℚ))) : Except PyErr (Env ℚ ℕ × Mpc ℚ × (Env ℚ ℕ × List (X ℚ)) ×
    (List (List (X ℚ)) × List (List (X ℚ))) × List (X ℚ)) := do
  let e0 ← mkEnv (envCtx load1) (envArgs .state (99/100))
  let m ← mkMpc (fixedCvx v) e0.sim demoY e0.actionSpace (.fin (99/100)) (.fin (9/10)) 2
  let r ← e0.reset (envCtx load1) (some 0)
  let fc ← m.constantForecast r.1.sim
  let a ← m.act (fixedCvx v) (22/7) r.1.sim fc
  pure (e0, m, r, fc, a)

theorem agent_case {v : Option (List (X ℚ))} {r} (h : mpcRun v = .ok r) :
    AgentOf (envCtx load1) (envArgs .state (99/100)) (fixedCvx v) demoY r.2.1 r.2.2.1.1 ∧
    r.2.1.constantForecast r.2.2.1.1.sim = .ok r.2.2.2.1 ∧
    r.2.1.act (fixedCvx v) (22/7) r.2.2.1.1.sim r.2.2.2.1 = .ok r.2.2.2.2 := by
  simp only [mpcRun, bind_ok, pure_ok] at h
  obtain ⟨e0, h0, m, hm, ⟨e1, o1⟩, h1, fc, hf, a, ha, rfl⟩ := h
  exact ⟨⟨e0, _, _, _, ⟨e0, h0, .refl⟩, hm, .single (.inl ⟨_, _, h1⟩)⟩, hf, ha⟩

/-- What is planned with a solver that always returns `v`. -/
theorem planned_fixed {v : List (X ℚ)} {m : Mpc ℚ} {s : Sim ℚ} {fc act} (h : m.act (fixedCvx (some v)) (22/7) s fc = .ok act) :
    ∀ w, Planned (fixedCvx (some v)) (22/7) m s fc w ↔ w = v := by
  obtain ⟨w0, _, _, ⟨soc, cs, obj, h1, h2, h3⟩, _⟩ := act_ok h
  intro w
  constructor
  · rintro ⟨_, _, _, _, _, h⟩
    simpa [fixedCvx, eq_comm] using h
  · rintro rfl
    exact ⟨soc, cs, obj, h1, h2, rfl⟩

theorem mpcRun_ok : ∃ r, mpcRun (some demoV) = .ok r ∧
    ((List.Forall₂ (fun l h => l ≤ h) r.2.2.1.1.actionSpace.low r.2.2.1.1.actionSpace.high) ∧
    r.2.2.2.2 = [.fin 1, .fin 0, .fin (-4), .fin 0] ∧
    r.2.2.2.1 = ([[.fin (-5/100), .fin (-5/100)]], [[.fin (1/5), .fin (1/5)]]) ∧
    (r.2.2.1.1.dyn.any fun y => !y.terminated) = true ∧
    OkAnd (r.2.2.1.1.step (envCtx load1) r.2.2.2.2) (fun o => o.2.terminated = false)) :=
  exOk (by decide +kernel)

/-- The hypotheses of `C63_action_partial` and `C64_setpoints` hold for an agent of the demo network; the
generator is set to 1 MW and the storage unit to -4 MW. -/
example : ∃ (m : Mpc ℚ) (e e' : Env ℚ ℕ) (y : EnvDyn ℚ) (fc : List (List (X ℚ)) × List (List (X ℚ))) (act : List (X ℚ))
    (out : Env.StepOut ℚ),
    AgentOf (envCtx load1) (envArgs .state (99/100)) (fixedCvx (some demoV)) demoY m e ∧
    (envArgs .state (99/100)).network.baseMVA = .fin 100 ∧
    List.Forall₂ (fun l h => l ≤ h) e.actionSpace.low e.actionSpace.high ∧
    (∀ v, Planned (fixedCvx (some demoV)) (22/7) m e.sim fc v → ∀ x ∈ v, X.NotNan x) ∧
    Planned (fixedCvx (some demoV)) (22/7) m e.sim fc demoV ∧
    m.act (fixedCvx (some demoV)) (22/7) e.sim fc = .ok act ∧ act = [.fin 1, .fin 0, .fin (-4), .fin 0] ∧
    e.dyn = some y ∧ y.terminated = false ∧ e.step (envCtx load1) act = .ok (e', out) := by
  obtain ⟨r, h, h1, h2, -, hl, h3⟩ := mpcRun_ok
  obtain ⟨a1, -, a3⟩ := agent_case h
  obtain ⟨⟨e', out⟩, hs, -⟩ := exOk h3
  have hy : ∃ y, r.2.2.1.1.dyn = some y ∧ y.terminated = false := by
    simpa [Option.any_eq_true] using hl
  obtain ⟨y, hy, ht⟩ := hy
  refine ⟨_, _, _, y, _, _, _, a1, rfl, h1, ?_, (planned_fixed a3 _).2 rfl, a3, h2, hy, ht, hs⟩
  intro v hv
  rw [(planned_fixed a3 _).1 hv]
  simp [demoV, X.NotNan]

/-- **C63 is false for NaN**: if the solver returns NaN for the generator, the action contains NaN and is
not in the action space, so that `step` raises an exception. -/
theorem C63_counterexample : ∃ (m : Mpc ℚ) (e : Env ℚ ℕ) (cv : Cvx ℚ) (fc : List (List (X ℚ)) × List (List (X ℚ)))
    (act : List (X ℚ)), AgentOf (envCtx load1) (envArgs .state (99/100)) cv demoY m e ∧
    List.Forall₂ (fun l h => l ≤ h) e.actionSpace.low e.actionSpace.high ∧
    m.constantForecast e.sim = .ok fc ∧ m.act cv (22/7) e.sim fc = .ok act ∧ ¬ e.actionSpace.contains act true ∧
    e.step (envCtx load1) act = .error .assertionError := by
  have h : ∃ r, mpcRun (some [.nan, .nan, .nan, .nan]) = .ok r ∧
      ((List.Forall₂ (fun l h => l ≤ h) r.2.2.1.1.actionSpace.low r.2.2.1.1.actionSpace.high) ∧
      ¬ r.2.2.1.1.actionSpace.contains r.2.2.2.2 true) :=
    exOk (by decide +kernel)
  obtain ⟨r, h, h1, h2⟩ := h
  obtain ⟨a1, a2, a3⟩ := agent_case h
  refine ⟨_, _, _, _, _, a1, h1, a2, a3, h2, ?_⟩
  unfold Env.step
  rw [guardE, if_neg h2]
  rfl

/-- **C63 is false without a solution**: if the solver has no values for the variables (for instance
because the problem is infeasible), `act` raises `TypeError`, in every state of every environment. -/
theorem C63_no_solution {K ρ : Type} [Field K] [LinearOrder K] [IsStrictOrderedRing K] [FloorRing K] {c : EnvCtx K ρ}
    {a : EnvArgs K} {cv : Cvx K} {Y : ℕ → ℕ → K} {m : Mpc K} {e : Env K ρ} {pi : K}
    {fc : List (List (X K)) × List (List (X K))} (_h : AgentOf c a cv Y m e) {p0 : List (Constr K) × Expr K}
    {soc : List (X K)} {cs : List (Constr K)} {obj : Expr K} (h0 : m.problem pi [] [] [] = .ok p0) (h1 : m.socs e.sim = .ok soc) (h2 : cv.accept fc.1 fc.2 soc = .ok ())
    (h3 : m.problem pi fc.1 fc.2 soc = .ok (cs, obj)) (h4 : cv.solve cs obj = .ok none) :
    m.act cv pi e.sim fc = .error .typeError := by
  simp [Mpc.act, Mpc.solve, h0, h1, h2, h3, h4, bind, Except.bind]

/-- The hypotheses of `C66_constant_forecast` hold, and the forecast repeats -5 MW and 20 MW twice. -/
example : ∃ (m : Mpc ℚ) (e : Env ℚ ℕ) (y : EnvDyn ℚ),
    AgentOf (envCtx load1) (envArgs .state (99/100)) (fixedCvx (some demoV)) demoY m e ∧ e.dyn = some y ∧
    m.constantForecast e.sim = .ok ([[.fin (-5/100), .fin (-5/100)]], [[.fin (1/5), .fin (1/5)]]) := by
  obtain ⟨r, h, -, -, h2, hl, -⟩ := mpcRun_ok
  obtain ⟨a1, a2, a3⟩ := agent_case h
  have hy : ∃ y, r.2.2.1.1.dyn = some y ∧ y.terminated = false := by
    simpa [Option.any_eq_true] using hl
  obtain ⟨y, hy, -⟩ := hy
  exact ⟨_, _, y, a1, hy, by rw [a2, h2]⟩

/-! ### A feasible plan -/

/-- Two equal stages of the plan of `demoV`; the storage unit charges 5 MW and discharges 1 MW at the same
time. -/
def demoPlan : Plan ℚ := fun _ =>
  { ang := fun i => if i = 0 then 0 else if i = 1 then -8/1000 else -8/1000 - 4/300
    p := fun i => if i = 0 then 8/100 else if i = 1 then -5/100 else if i = 2 then 1/100 else -4/100
    ch := fun _ => 5/100
    dis := fun _ => 1/100 }

def demoLoads : List (List (X ℚ)) := [[.fin (-5/100), .fin (-5/100)]]
def demoGens : List (List (X ℚ)) := [[.fin (1/5), .fin (1/5)]]
def demoBox : Box ℚ := ⟨[], [], false⟩

def planRun (n : Network ℚ) (Y : ℕ → ℕ → ℚ) (steps : ℕ) (load gen : List (List (X ℚ))) (soc : List (X ℚ)) :
    Except PyErr (Sim ℚ × Mpc ℚ × List (Constr ℚ) × Expr ℚ) := do
  let s ← mkSim n (.fin (1/4)) (.fin 100)
  let m ← mkMpc (fixedCvx none) s Y demoBox (.fin (99/100)) (.fin (9/10)) steps
  let p ← m.problem (22/7) load gen soc
  pure (s, m, p)

theorem planRun_case {n : Network ℚ} {Y : ℕ → ℕ → ℚ} {steps : ℕ} {load gen : List (List (X ℚ))} {soc : List (X ℚ)} {r}
    (h : planRun n Y steps load gen soc = .ok r) {x : Plan ℚ} (hx : ∀ c ∈ r.2.2.1, c x = true) :
    mkSim n (.fin (1/4)) (.fin 100) = .ok r.1 ∧
    mkMpc (fixedCvx none) r.1 Y demoBox (.fin (99/100)) (.fin (9/10)) steps = .ok r.2.1 ∧
    FeasiblePlan (22/7) r.2.1 load gen soc x := by
  simp only [planRun, bind_ok, pure_ok] at h
  obtain ⟨s, h0, m, hm, p, hp, rfl⟩ := h
  exact ⟨h0, hm, p.1, p.2, hp, hx⟩

/-- The plan is feasible for the demo network: the hypotheses of `balance_symm`, `C68_no_overdischarge`,
`C69_fixed` and the theorems `C79_*` hold. -/
theorem demoPlan_ok : ∃ s m, CleanFile demoNet 100 ∧ Documented demoNet ∧ SimOf demoNet (.fin (1/4)) (.fin 100) s ∧
    mkMpc (fixedCvx none) s demoY demoBox (.fin (99/100)) (.fin (9/10)) 2 = .ok m ∧ m.steps = 2 ∧
    (∀ i j, demoY i j = demoY j i) ∧ FeasiblePlan (22/7) m demoLoads demoGens [.fin (1/2)] demoPlan ∧
    (∃ d, (s.devices.filter Device.isStorage)[0]? = some d ∧ s.devices[3]? = some d ∧ d.eff = .fin (9/10)) ∧
    (∃ d, (s.devices.filter Device.isLoad)[0]? = some d ∧ s.devices[1]? = some d) ∧
    (∃ d, (s.devices.filter Device.isNonSlackGen)[0]? = some d ∧ s.devices[2]? = some d) ∧
    (∃ d, s.devices[0]? = some d ∧ d.isSlack = true) ∧ (∃ b, s.buses[0]? = some b ∧ b.isSlack = true) := by
  have h : ∃ r, planRun demoNet demoY 2 demoLoads demoGens [.fin (1/2)] = .ok r ∧
      ((∀ c ∈ r.2.2.1, c demoPlan = true) ∧ r.2.1.steps = 2 ∧
      r.1.devices.map (fun d => (d.isStorage, d.isLoad, d.isNonSlackGen, d.isSlack)) =
        [(false, false, false, true), (false, true, false, false), (false, false, true, false),
         (true, false, false, false)] ∧
      (r.1.devices[3]?).map Device.eff = some (.fin (9/10)) ∧ (r.1.buses[0]?).map Bus.isSlack = some true) :=
    exOk (by decide +kernel)
  obtain ⟨⟨s, m, p⟩, h, h1, h2, h3, h4, h5⟩ := h
  obtain ⟨g1, g2, g3⟩ := planRun_case h h1
  refine ⟨s, m, demo_clean, demo_documented, simOf_mk g1, g2, h2, ?_, g3, ?_⟩
  · intro i j
    unfold demoY
    by_cases a : (i = 0 ∧ j = 1) ∨ (i = 1 ∧ j = 0) <;> by_cases b : (i = 1 ∧ j = 2) ∨ (i = 2 ∧ j = 1) <;> simp [and_comm, or_comm]
  · simp only at h3 h4 h5
    simp only [List.map_eq_cons_iff, List.map_eq_nil_iff, Prod.mk.injEq] at h3
    obtain ⟨d0, _, hd, ⟨a1, a2, a3, a4⟩, d1, _, rfl, ⟨b1, b2, b3, b4⟩, d2, _, rfl, ⟨c1, c2, c3, c4⟩, d3, _, rfl,
      ⟨e1, e2, e3, e4⟩, rfl⟩ := h3
    obtain ⟨b, hb, hb'⟩ := Option.map_eq_some_iff.1 h5
    rw [hd] at h4 ⊢
    have h4 : d3.eff = .fin (9/10) := by simpa using h4
    exact ⟨⟨d3, by simp [*]⟩, ⟨d1, by simp [*]⟩, ⟨d2, by simp [*]⟩, ⟨d0, rfl, a4⟩, ⟨b, hb, hb'⟩⟩

/-- The storage unit of the demo network ends at least as full as planned. -/
example : ∃ (d : Device ℚ) (w : ℚ), Discharge d (.fin (1/4)) (fun k => power demoPlan k 3) 2 (.fin (1/2)) (.fin w) ∧
    plannedSoc demoPlan 0 (1/4) (9/10) (1/2) 2 ≤ w ∧ plannedSoc demoPlan 0 (1/4) (9/10) (1/2) 2 < 1/2 + 1/50 := by
  obtain ⟨s, m, h1, _, h2, h3, h4, _, h5, ⟨d, e1, e2, e3⟩, _⟩ := demoPlan_ok
  obtain ⟨⟨y, hy⟩, hw⟩ := C68_no_overdischarge (k := 2) h1 h2 (by norm_num) h3 h5 e1 e2 rfl e3 (by norm_num) h4.ge
  obtain ⟨w, rfl, hw, -⟩ := hw y hy
  exact ⟨d, w, hy, hw, by norm_num [plannedSoc, demoPlan]⟩

/-! ### C69 -/

/-- Slack bus 0 and bus 1; the load, at bus 1, comes before the slack device. -/
def refNet : Network ℚ := Network.ofLists (.fin 100)
  [[num 0, num 0, num 132, num 1, num 1], [num 1, num 1, num 33, num (11/10), num (9/10)]]
  [[num 0, num 1, num (1/100), num (1/10), num 0, num 32, num 1, num 0]]
  [[num 0, num 1, num (-1), num (1/5), num 0, num (-10), none, none, none, none, none, none, none, none, none],
   [num 1, num 0, num 0, none, num 200, num (-200), num 200, num (-200), none, none, none, none, none, none, none]]

/-- The same with a second load before the slack device. -/
def refNet2 : Network ℚ := Network.ofLists (.fin 100)
  [[num 0, num 0, num 132, num 1, num 1], [num 1, num 1, num 33, num (11/10), num (9/10)]]
  [[num 0, num 1, num (1/100), num (1/10), num 0, num 32, num 1, num 0]]
  [[num 0, num 1, num (-1), num (1/5), num 0, num (-10), none, none, none, none, none, none, none, none, none],
   [num 1, num 1, num (-1), num (1/5), num 0, num (-10), none, none, none, none, none, none, none, none, none],
   [num 2, num 0, num 0, none, num 200, num (-200), num 200, num (-200), none, none, none, none, none, none, none]]

theorem refNet_clean : CleanFile refNet 100 where
  base := rfl
  bus := by
    intro r hr
    simp only [refNet, Network.ofLists, List.map_cons, List.map_nil, List.mem_cons, List.not_mem_nil,
      or_false] at hr
    rcases hr with rfl | rfl <;> exact rowOk_rowOf _ _ (by decide +kernel)
  branch := by
    intro r hr
    simp only [refNet, Network.ofLists, List.map_cons, List.map_nil, List.mem_cons, List.not_mem_nil,
      or_false] at hr
    obtain rfl := hr; exact rowOk_rowOf _ _ (by decide +kernel)
  device := by
    intro r hr
    simp only [refNet, Network.ofLists, List.map_cons, List.map_nil, List.mem_cons, List.not_mem_nil,
      or_false] at hr
    rcases hr with rfl | rfl <;> exact rowOk_rowOf _ _ (by decide +kernel)

theorem refNet2_clean : CleanFile refNet2 100 where
  base := rfl
  bus := by
    intro r hr
    simp only [refNet2, Network.ofLists, List.map_cons, List.map_nil, List.mem_cons, List.not_mem_nil,
      or_false] at hr
    rcases hr with rfl | rfl <;> exact rowOk_rowOf _ _ (by decide +kernel)
  branch := by
    intro r hr
    simp only [refNet2, Network.ofLists, List.map_cons, List.map_nil, List.mem_cons, List.not_mem_nil,
      or_false] at hr
    obtain rfl := hr; exact rowOk_rowOf _ _ (by decide +kernel)
  device := by
    intro r hr
    simp only [refNet2, Network.ofLists, List.map_cons, List.map_nil, List.mem_cons, List.not_mem_nil,
      or_false] at hr
    rcases hr with rfl | rfl | rfl <;> exact rowOk_rowOf _ _ (by decide +kernel)

theorem refNet_documented : Documented refNet := by
  refine ⟨⟨?_, ?_⟩, by decide +kernel⟩
  · intro r hr
    simp only [refNet, Network.ofLists, List.map_cons, List.map_nil, List.mem_cons,
      List.not_mem_nil, or_false] at hr
    rcases hr with rfl | rfl
    exacts [⟨0, by decide +kernel⟩, ⟨1, by decide +kernel⟩]
  · intro r hr
    simp only [refNet, Network.ofLists, List.map_cons, List.map_nil, List.mem_cons,
      List.not_mem_nil, or_false] at hr
    rcases hr with rfl | rfl
    exacts [⟨0, by decide +kernel⟩, ⟨1, by decide +kernel⟩]

theorem refNet2_documented : Documented refNet2 := by
  refine ⟨⟨?_, ?_⟩, by decide +kernel⟩
  · intro r hr
    simp only [refNet2, Network.ofLists, List.map_cons, List.map_nil, List.mem_cons,
      List.not_mem_nil, or_false] at hr
    rcases hr with rfl | rfl
    exacts [⟨0, by decide +kernel⟩, ⟨1, by decide +kernel⟩]
  · intro r hr
    simp only [refNet2, Network.ofLists, List.map_cons, List.map_nil, List.mem_cons,
      List.not_mem_nil, or_false] at hr
    rcases hr with rfl | rfl | rfl
    exacts [⟨0, by decide +kernel⟩, ⟨1, by decide +kernel⟩, ⟨2, by decide +kernel⟩]

/-- A plan in which the load bus has angle 0 and the slack bus angle 1/200. -/
def refPlan : Plan ℚ := fun _ =>
  { ang := fun i => if i = 0 then 1/200 else 0
    p := fun i => if i = 0 then -5/100 else 5/100
    ch := fun _ => 0
    dis := fun _ => 0 }

/-- **C69 is false**: if the positions of the slack device and of the slack bus differ, a plan in which the
angle of the slack bus is not zero is feasible, while the angle of another bus is fixed. -/
theorem C69_counterexample : ∃ s m x, CleanFile refNet 100 ∧ Documented refNet ∧
    SimOf refNet (.fin (1/4)) (.fin 100) s ∧
    mkMpc (fixedCvx none) s demoY demoBox (.fin (99/100)) (.fin (9/10)) 1 = .ok m ∧
    FeasiblePlan (22/7) m [[.fin (-5/100)]] [] [] x ∧
    (∃ b, s.buses[0]? = some b ∧ b.isSlack = true) ∧ angle x 0 0 ≠ 0 := by
  have h : ∃ r, planRun refNet demoY 1 [[.fin (-5/100)]] [] [] = .ok r ∧
      ((∀ c ∈ r.2.2.1, c refPlan = true) ∧ (r.1.buses[0]?).map Bus.isSlack = some true) :=
    exOk (by decide +kernel)
  obtain ⟨⟨s, m, p⟩, h, h1, h2⟩ := h
  obtain ⟨g1, g2, g3⟩ := planRun_case h h1
  refine ⟨s, m, refPlan, refNet_clean, refNet_documented, simOf_mk g1, g2, g3,
    Option.map_eq_some_iff.1 h2, by norm_num [angle, refPlan]⟩

/-- **C69 is false**, second case: the hypotheses of `C69_index_error` hold, so that `act` always raises
`IndexError`. -/
theorem C69_counterexample_index : ∃ s m, CleanFile refNet2 100 ∧ Documented refNet2 ∧
    SimOf refNet2 (.fin (1/4)) (.fin 100) s ∧
    mkMpc (fixedCvx none) s demoY demoBox (.fin (99/100)) (.fin (9/10)) 1 = .ok m ∧
    ∀ cv pi fc, mkMpc cv s demoY demoBox (.fin (99/100)) (.fin (9/10)) 1 = .ok m → 
      m.act cv pi s fc = .error .indexError := by
  have h : ∃ r, (do
      let s ← mkSim refNet2 (.fin (1/4)) (.fin 100)
      let m ← mkMpc (fixedCvx none) s demoY demoBox (.fin (99/100)) (.fin (9/10)) 1
      pure (s, m)) = .ok r ∧ ((r.1.devices[2]?).map Device.isSlack = some true ∧ r.1.buses.length = 2) :=
    exOk (by decide +kernel)
  obtain ⟨⟨s, m⟩, h, h1, h2⟩ := h
  simp only [bind_ok, pure_ok, Prod.mk.injEq] at h
  obtain ⟨s, g1, m, g2, rfl, rfl⟩ := h
  obtain ⟨d, hd, hd'⟩ := Option.map_eq_some_iff.1 h1
  exact ⟨s, m, refNet2_clean, refNet2_documented, simOf_mk g1, g2, fun cv pi fc hm =>
    C69_index_error refNet2_clean refNet2_documented (simOf_mk g1) hm one_pos hd hd' h2.le fc⟩

/-! ### C65 -/

/-- The hypotheses of `C65_perfect_forecast` hold for an agent of ANM6Easy with a horizon of 200 steps, more
than two days, after a step at 23:45. -/
example : ∃ s0 a a1 a2 obs us os m y, Fair easyWorld.rng ∧ EasyOf easyWorld s0 a ∧
    a.easyReset (easyCtx easyWorld s0) easyWorld.rng (some 94) none = .ok (a1, obs) ∧
    Anm6Episode (easyCtx easyWorld s0) a1 us os a2 ∧ (∀ o ∈ os, o.terminated = false) ∧
    AgentOf (easyCtx easyWorld s0) easyArgs (fixedCvx none) (fun _ _ => 0) m a2.env ∧ a2.env.dyn = some y ∧
    m.steps = 200 := by
  have hm : ∃ m, (do
      let r ← easyRun
      mkMpc (fixedCvx none) r.2.2.2.2.1.env.sim (fun _ _ => 0) r.2.2.2.2.1.env.actionSpace (.fin (99/100)) (.fin (9/10)) 200) =
        .ok m ∧ m.steps = 200 := exOk (by decide +kernel)
  obtain ⟨⟨s0, a, a1, a2, a3, os⟩, h, ho, hc1, ⟨y, hy, -⟩, -⟩ := easyRun_ok
  rw [h] at hm
  obtain ⟨m, hm, hm2⟩ := hm
  simp only [easyRun, bind_ok, pure_ok, Prod.mk.injEq] at h
  obtain ⟨s0', h0, a', h1, ⟨a1', obs⟩, h2, ⟨a2', o1⟩, h3, ⟨a3', o2⟩, h4, rfl, rfl, rfl, rfl, rfl, rfl⟩ := h
  exact ⟨_, _, _, _, _, _, _, m, y, fair_count, .make h0 h1, h2, .cons h3 (.cons h4 (.nil _)), ho,
    ⟨_, _, _, _, easy_env (.step (.step (.reset (.make h0 h1) h2) h3) h4), hm, .refl⟩, hy, hm2⟩

end Anm
