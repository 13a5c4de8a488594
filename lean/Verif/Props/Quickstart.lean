import Verif.Props.EnvDemo

/-! # C131: the template of the documentation

`docs/source/topics/quickstart.rst:42-54` shows how to define an environment, with a list of observed variables. -/

set_option linter.unusedSectionVars false

namespace Anm

/-- `[('bus_p', [0,1], 'MW'), ('dev_q', [2], 'MW')]` (`quickstart.rst:47`), with the unit of the second item as a parameter. -/
def quickstart (u : QUnit) : List ObsEntry :=
  [.item ⟨.busP, .list [.node 0, .node 1], some .mw⟩, .item ⟨.devQ, .list [.node 2], some u⟩]

section
variable {K ρ : Type} [Field K] [LinearOrder K] [FloorRing K]

theorem forE_cons {α : Type} {f : α → Except PyErr Unit} {x : α} {l : List α} : forE f (x :: l) = .ok () ↔ f x = .ok () ∧ forE f l = .ok () := by
  rw [forE]
  cases h : f x with
  | error e => simp [bind, Except.bind]
  | ok u => cases u; simp [bind, Except.bind]

/-- **C131 is false.** No environment can be made with the list of the template, whatever the other arguments: reactive powers are
not available in MW. -/
theorem C131_counterexample (c : EnvCtx K ρ) (a : EnvArgs K) (h : a.observation = .list (quickstart .mw)) (e : Env K ρ) : mkEnv c a ≠ .ok e := by
  intro he
  unfold mkEnv at he
  obtain ⟨s, -, he⟩ := bind_ok.1 he
  obtain ⟨x, he, -⟩ := bind_ok.1 he
  simp only [checkEnvArgs, bind_ok, guardE_ok, h, checkObs, quickstart] at he
  obtain ⟨_, _, _, _, _, _, _, _, _, h1, _⟩ := he
  have := (forE_cons.1 (forE_cons.1 h1).2).1
  simp [checkEntry, bind_ok, checkUnit, unitOk, stateUnits, guardE_ok] at this

/-- The nodes of the template. -/
theorem quickstart_nodes (pi : K) (k : ℤ) {s : Sim K} (u : QUnit) (h0 : ∃ b ∈ s.buses, b.id = 0) (h1 : ∃ b ∈ s.buses, b.id = 1) (h2 : ∃ d ∈ s.devices, d.id = 2) :
    checkEntry (s.stateSpace pi) k (.item ⟨.busP, .list [.node 0, .node 1], some .mw⟩) = .ok () ∧
      checkNodes (s.stateSpace pi) k ⟨.devQ, .list [.node 2], some u⟩ = .ok () := by
  have key : ∀ {α β : Type} (l : List α) (f : α → ℤ) (g : α → β) (i : ℤ), (∃ b ∈ l, f b = i) → Ident.node i ∈ Dict.keys (l.map fun b => (Ident.node (f b), g b)) := by
    intro α β l f g i ⟨b, hb, e⟩
    simp only [Dict.keys, List.map_map, List.mem_map, Function.comp]
    exact ⟨b, hb, by rw [e]⟩
  constructor
  · have hn : checkNodes (s.stateSpace pi) k ⟨.busP, .list [.node 0, .node 1], some .mw⟩ = .ok () := by
      refine bind_ok.2 ⟨_, rfl, forE_cons.2 ⟨guardE_ok.2 ?_, forE_cons.2 ⟨guardE_ok.2 ?_, rfl⟩⟩⟩
      · exact key s.buses Bus.id _ 0 h0
      · exact key s.buses Bus.id _ 1 h1
    exact bind_ok.2 ⟨(), rfl, bind_ok.2 ⟨(), hn, rfl⟩⟩
  · refine bind_ok.2 ⟨_, rfl, forE_cons.2 ⟨guardE_ok.2 ?_, rfl⟩⟩
    exact key s.devices Device.id _ 2 h2

/-- **C131 is false.** If the network has the buses 0 and 1 and a device 2, the error is `UnitsNotSupportedError`. -/
theorem C131_error (c : EnvCtx K ρ) (a : EnvArgs K) (h : a.observation = .list (quickstart .mw)) {s : Sim K} (hs : mkSim a.network a.deltaT a.lamb = .ok s)
    (hk : 0 ≤ a.nAux) (ht : ¬ a.deltaT ≤ 0) (hl : ¬ a.lamb < 0) (hg : ¬ (a.gamma < 0 ∨ .fin 1 < a.gamma))
    (h0 : ∃ b ∈ s.buses, b.id = 0) (h1 : ∃ b ∈ s.buses, b.id = 1) (h2 : ∃ d ∈ s.devices, d.id = 2) :
    mkEnv c a = .error .unitsNotSupported := by
  obtain ⟨n1, n2⟩ := quickstart_nodes c.sim.pi a.nAux .mw h0 h1 h2
  have e2 : checkEntry (s.stateSpace c.sim.pi) a.nAux (.item ⟨.devQ, .list [.node 2], some .mw⟩) = .error .unitsNotSupported := by
    show (do checkNodes _ _ _; checkUnit _) = _
    rw [n2]
    rfl
  have e3 : checkObs (s.stateSpace c.sim.pi) a.nAux a.observation = .error .unitsNotSupported := by
    rw [h]
    show (do checkEntry _ _ _; forE _ _) = _
    rw [n1]
    show (do checkEntry _ _ _; forE _ _) = _
    rw [e2]
    rfl
  have e4 : checkEnvArgs a.nAux a.deltaT a.lamb a.gamma a.observation a.auxBounds (s.stateSpace c.sim.pi) = .error .unitsNotSupported := by
    unfold checkEnvArgs
    rw [(guardE_ok (u := ())).2 (not_lt.2 hk), (guardE_ok (u := ())).2 ht, (guardE_ok (u := ())).2 hl, (guardE_ok (u := ())).2 hg, e3]
    rfl
  unfold mkEnv
  rw [hs]
  simp only [bind, Except.bind]
  rw [e4]

/-- **C131, partial.** With MVAr as unit of the second item the arguments are accepted. -/
theorem C131_fixed_partial (c : EnvCtx K ρ) (a : EnvArgs K) (h : a.observation = .list (quickstart .mvar)) {s : Sim K} (hs : mkSim a.network a.deltaT a.lamb = .ok s)
    (hk : 0 ≤ a.nAux) (ht : ¬ a.deltaT ≤ 0) (hl : ¬ a.lamb < 0) (hg : ¬ (a.gamma < 0 ∨ .fin 1 < a.gamma)) (hb : a.auxBounds = none)
    (h0 : ∃ b ∈ s.buses, b.id = 0) (h1 : ∃ b ∈ s.buses, b.id = 1) (h2 : ∃ d ∈ s.devices, d.id = 2) :
    checkEnvArgs a.nAux a.deltaT a.lamb a.gamma a.observation a.auxBounds (s.stateSpace c.sim.pi) = .ok () := by
  obtain ⟨n1, n2⟩ := quickstart_nodes c.sim.pi a.nAux .mvar h0 h1 h2
  have e3 : checkObs (s.stateSpace c.sim.pi) a.nAux a.observation = .ok () := by
    rw [h]
    exact forE_cons.2 ⟨n1, forE_cons.2 ⟨bind_ok.2 ⟨(), rfl, bind_ok.2 ⟨(), n2, rfl⟩⟩, rfl⟩⟩
  unfold checkEnvArgs
  rw [(guardE_ok (u := ())).2 (not_lt.2 hk), (guardE_ok (u := ())).2 ht, (guardE_ok (u := ())).2 hl, (guardE_ok (u := ())).2 hg, e3, hb]
  rfl

end

/-- C131 on the demo network. -/
example : mkEnv (envCtx load1) (envArgs (.list (quickstart .mw)) (99/100)) = .error .unitsNotSupported ∧
    ∃ s : Sim ℚ, checkEnvArgs 1 (.fin (1/4)) (.fin 100) (.fin (99/100)) (.list (quickstart .mvar)) none (s.stateSpace (22/7)) = .ok () := by
  obtain ⟨s, hs, h⟩ : ∃ s : Sim ℚ, mkSim (envArgs (.list (quickstart .mw)) (99/100)).network (envArgs (.list (quickstart .mw)) (99/100)).deltaT
      (envArgs (.list (quickstart .mw)) (99/100)).lamb = .ok s ∧ (∃ b ∈ s.buses, b.id = 0) ∧ (∃ b ∈ s.buses, b.id = 1) ∧ (∃ d ∈ s.devices, d.id = 2) :=
    exOk (by decide +kernel)
  refine ⟨C131_error _ _ rfl hs (by decide +kernel) (by decide +kernel) (by decide +kernel) (by decide +kernel) h.1 h.2.1 h.2.2, s, ?_⟩
  exact C131_fixed_partial (envCtx load1) (envArgs (.list (quickstart .mvar)) (99/100)) rfl hs (by decide +kernel) (by decide +kernel) (by decide +kernel) (by decide +kernel) rfl h.1 h.2.1 h.2.2

end Anm
