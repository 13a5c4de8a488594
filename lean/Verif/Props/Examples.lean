import Verif.Model.Examples
import Verif.Props.Anm6Total

/-! # C100: the example environments -/

set_option linter.unusedSectionVars false

namespace Anm

open Spec

namespace Spec

variable {K ρ : Type} [Field K] [LinearOrder K]

/-- `np.random.rand` returns numbers of `[0, 1)` and `np.random.randint(low, high)` integers of
`[low, high)`. -/
structure FairNumpy (g : NumpyRandom K ρ) : Prop where
  rand : ∀ r, ∃ x, (g.rand r).1 = .fin x ∧ 0 ≤ x ∧ x < 1
  randint : ∀ r lo hi, lo < hi → lo ≤ (g.randint r lo hi).1 ∧ (g.randint r lo hi).1 < hi

/-- The observation space of `SimpleEnvironment`: active powers of the slack device and of the load,
their reactive powers, the auxiliary variable.  Its action space has no components. -/
def simpleObs : Box K := boxOf [(-200, 200), (-10, 0), (-200, 200), (-2, 0), (0, 10)]

/-- The observation space of `CustomANM6Environment`: as that of ANM6Easy, but for the time of day. -/
def customObs : Box K := boxOf
  [(-200, 200), (-10, 0), (0, 30), (-30, 0), (0, 50), (-30, 0), (-50, 50),
   (-200, 200), (-2, 0), (-30, 30), (-6, 0), (-50, 50), (-6, 0), (-50, 50),
   (0, 100), (0, 30), (0, 50), (0, 10)]

/-- A `CustomANM6Environment` object: one made by the constructor, then used by calls of `reset` and `step`
and by other code that draws from the generators. -/
inductive CustomOf [FloorRing K] (w : ExampleWorld K ρ) (s0 : Sim K) : Anm6 K ρ → Prop where
  | make {a : Anm6 K ρ} : mkAnm6 (customCtx w s0) customArgs = .ok a → CustomOf w s0 a
  | reset {a a' : Anm6 K ρ} {seed date : Option ℤ} {obs : List (X K)} :
      CustomOf w s0 a → a.reset (customCtx w s0) w.rng seed date = .ok (a', obs) → CustomOf w s0 a'
  | step {a a' : Anm6 K ρ} {u : List (X K)} {o : Env.StepOut K} :
      CustomOf w s0 a → a.step (customCtx w s0) u = .ok (a', o) → CustomOf w s0 a'
  | draw {a : Anm6 K ρ} (r : ρ) : CustomOf w s0 a → CustomOf w s0 { a with env := { a.env with rng := r } }

end Spec

section
variable {K ρ : Type} [Field K] [LinearOrder K] [IsStrictOrderedRing K] [FloorRing K]
  {w : ExampleWorld K ρ}

/-! ### Random numbers -/

/-- **C103.** `np.random.rand(n)` is `n` successive draws: the first `m` numbers of `m + n` are those of `rand(m)`, the others those of the
`rand(n)` that follows. -/
theorem C103_draws (g : NumpyRandom K ρ) (m n : ℕ) (r : ρ) :
    g.rands (m + n) r = ((g.rands m r).1 ++ (g.rands n (g.rands m r).2).1, (g.rands n (g.rands m r).2).2) ∧
      g.rands 1 r = ([(g.rand r).1], (g.rand r).2) := by
  refine ⟨?_, rfl⟩
  induction m generalizing r with
  | zero => simp [NumpyRandom.rands]
  | succ m ih =>
    rw [Nat.succ_add]
    simp only [NumpyRandom.rands, ih]
    rfl

theorem rands_spec {g : NumpyRandom K ρ} (hg : FairNumpy g) (n : ℕ) (r : ρ) :
    (g.rands n r).1.length = n ∧ ∀ x ∈ (g.rands n r).1, ∃ z, x = .fin z ∧ 0 ≤ z ∧ z < 1 := by
  induction n generalizing r with
  | zero => simp [NumpyRandom.rands]
  | succ n ih =>
    obtain ⟨h1, h2⟩ := ih (g.rand r).2
    refine ⟨by simp [NumpyRandom.rands, h1], ?_⟩
    intro x hx
    simp only [NumpyRandom.rands, List.mem_cons] at hx
    rcases hx with rfl | hx
    · exact hg.rand r
    · exact h2 x hx

/-! ### The two-bus network -/

theorem simple_check : checkNetwork (simpleNet : Network K) = .ok () := by
  simp [checkNetwork, simpleNet, Network.ofLists, cellEqB_cel_zero, List.filter_cons, rowOf, headersBus, headersDev, headersBranch, List.idxOf_cons, cellEqB_cel,
    cellEq_cel, guardE, Bind.bind, Except.bind, pure, Except.pure, X.zero_def, pySet, pySetAdd, setBranches, pairEqB]

theorem simple_buses : mapE mkBus (simpleNet : Network K).bus = .ok ([0, 1].map anm6Bus) := by
  have h0 := mkBus_lit (K := K) (i := 0) (t := 0) (kv := 132) (vmax := 1) (vmin := 1) (by simp) (by norm_num) (by norm_num) (by norm_num)
  have h1 := mkBus_lit (K := K) (i := 1) (t := 1) (kv := 33) (vmax := 11/10) (vmin := 9/10) (by simp) (by norm_num) (by norm_num) (by norm_num)
  push_cast at h0 h1
  simp [simpleNet, Network.ofLists, mapE, h0, h1, Bind.bind, Except.bind, pure, Except.pure, anm6Bus]

/-- The line of the two-bus network. -/
def simpleLines : List (Line K) := [⟨0, 1, .fin (1/100), .fin (1/10), .fin 0, .fin (3/100), .fin 1, .fin 0⟩]

theorem simple_lines : mapE (fun r => mkLine r (.fin 100) [0, 1]) (simpleNet : Network K).branch = .ok simpleLines := by
  have h1 := mkLine_lit (K := K) (ids := [0, 1]) (f := 0) (t := 1) (r := 1/100) (x := 1/10) (rate := 3) (by simp) (by simp) (by norm_num) (by norm_num) (by norm_num)
  push_cast at h1
  simp only [simpleNet, Network.ofLists, List.map_cons, List.map_nil, mapE, h1, Bind.bind, Except.bind, pure, Except.pure, simpleLines]

/-- The devices of the two-bus network. -/
def simpleDevices : List (Device K) := [anm6Slack, anm6Load 1 1 (-1/10)]

theorem simple_devices : mapE (fun r => mkDevice r [0, 1] (.fin 100)) (simpleNet : Network K).device = .ok simpleDevices := by
  have h0 := mkDevice_slack (K := K) (ids := [0, 1]) (by simp)
  have h1 := mkDevice_load (K := K) (ids := [0, 1]) (i := 1) (b := 1) (-10) (by simp) (by norm_num)
  push_cast at h1
  have n1 : (-10 / 100 : K) = -1 / 10 := by norm_num
  rw [n1] at h1
  simp only [simpleNet, Network.ofLists, List.map_cons, List.map_nil, mapE, h0, h1, Bind.bind, Except.bind, pure, Except.pure, simpleDevices]

/-- The simulator of `SimpleEnvironment`. -/
def simpleSim : Sim K :=
  { baseMVA := .fin 100, deltaT := .fin (1/4), lamb := .fin 100, buses := ([0, 1].map anm6Bus).map (busBounds simpleDevices),
    branches := simpleLines.map (fun l => { line := l }), devices := simpleDevices }

theorem simple_mk : mkSim simpleNet (.fin (1/4)) (.fin 100) = .ok (simpleSim : Sim K) := by
  have hb : (simpleNet (K := K)).baseMVA = .fin 100 := rfl
  have hids : ((sortDict (dictOf Bus.id ([0, 1].map (anm6Bus (K := K))))).map (·.2)) = [0, 1].map (anm6Bus (K := K)) := rfl
  have hids' : ([0, 1].map (anm6Bus (K := K))).map Bus.id = [0, 1] := rfl
  have hd : ((sortDict (dictOf Device.id (simpleDevices (K := K)))).map (·.2)) = simpleDevices := rfl
  have hl : ((dictOf (fun l : Line K => (l.fBus, l.tBus)) simpleLines).map (·.2)) = simpleLines := rfl
  simp only [mkSim, loadCase, simple_check, simple_buses, hids, hids', hb, simple_lines, simple_devices, hd, hl, Bind.bind, Except.bind,
    pure, Except.pure]
  rfl

theorem simple_actionBounds : actionBounds (simpleSim (K := K)) = [] := rfl

theorem simple_obsBounds (pi : K) : mapE (fun v => varBounds ((simpleSim (K := K)).stateSpace pi) simpleArgs.auxBounds v.1 v.2.1 v.2.2)
    (flatten (stateReadings (simpleSim (K := K)) 1)) = .ok
  [(.fin (-200), .fin 200), (.fin (-10), .fin 0), (.fin (-200), .fin 200), (.fin (-2), .fin 0), (.fin 0, .fin 10)] := by
  have : mapE (fun v => varBounds ((simpleSim (K := K)).stateSpace pi) simpleArgs.auxBounds v.1 v.2.1 v.2.2)
    (flatten (stateReadings (simpleSim (K := K)) 1)) = .ok
    [(.fin (-2 * 100), .fin (2 * 100)), (.fin (-1/10 * 100), .fin (0 * 100)), (.fin (-2 * 100), .fin (2 * 100)),
     (.fin ((-1/10) / 5 * 100), .fin (0 * 100)), (.fin 0, .fin 10)] := rfl
  rw [this]
  norm_num

/-- **C100, the two-bus environment is made.** -/
theorem C100_simple_made (hb : BoxTotal w.box) : ∃ e, mkEnv (simpleCtx w simpleSim) simpleArgs = .ok e := by
  simp only [mkEnv, bind_ok, pure_ok]
  refine ⟨_, simpleSim, simple_mk, (), ?_, _, expand_state _ _, boxOf [], ?_, _, rfl, some simpleObs, ?_, rfl⟩
  · simp only [checkEnvArgs, bind_ok, guardE_ok]
    have g1 : ¬ (.fin (1/4) : X K) ≤ 0 := by rw [X.zero_def, X.fin_le_fin]; norm_num
    have g2 : ¬ (.fin 100 : X K) < 0 := by rw [X.zero_def, X.fin_lt_fin]; norm_num
    have g3 : ¬ ((.fin (9/10) : X K) < 0 ∨ (.fin 1 : X K) < .fin (9/10)) := by
      rw [X.zero_def, X.fin_lt_fin, X.fin_lt_fin]; norm_num
    refine ⟨(), show ¬ (1 : ℤ) < 0 by norm_num, (), g1, (), g2, (), g3, (), rfl, ?_⟩
    simp [checkAuxBounds, simpleArgs, guardE]
  · simp only [mkBox, bind_ok, pure_ok]
    exact ⟨(), hb [] (by simp), rfl⟩
  · simp only [observationBounds, mkBox, bind_ok, pure_ok]
    refine ⟨_, simple_obsBounds _, simpleObs, ⟨(), ?_, rfl⟩, rfl⟩
    exact hb [(-200, 200), (-10, 0), (-200, 200), (-2, 0), (0, 10)] (by norm_num)

theorem simple_sameConfig {e : Env K ρ} (h : EnvOf (simpleCtx w simpleSim) simpleArgs e) : SameConfig simpleSim e.sim := by
  obtain ⟨e0, I, -, -, hc⟩ := envOf_inv h
  have h1 := I.sim
  rw [show mkSim (simpleArgs (K := K)).network simpleArgs.deltaT simpleArgs.lamb = .ok simpleSim from simple_mk] at h1
  rw [← Except.ok.inj h1] at hc
  exact hc

/-- **C100, spaces of the two-bus environment.** -/
theorem C100_simple_spaces {e : Env K ρ} (h : EnvOf (simpleCtx w simpleSim) simpleArgs e) :
    e.actionSpace = boxOf [] ∧ e.obsSpace = some simpleObs := by
  obtain ⟨e0, I, hs, -, -⟩ := envOf_inv h
  have h1 := I.sim
  rw [show mkSim (simpleArgs (K := K)).network simpleArgs.deltaT simpleArgs.lamb = .ok simpleSim from simple_mk] at h1
  have h2 := I.action
  have h3 := I.obsSpace
  have h4 := I.obsValues
  rw [show (simpleArgs (K := K)).observation = .state from rfl, obsValues, I.stateValues, Except.ok.injEq] at h4
  rw [← h4, ← Except.ok.inj h1, I.nAux] at h3
  rw [← Except.ok.inj h1, simple_actionBounds] at h2
  simp only [mkBox, bind_ok, pure_ok] at h2
  obtain ⟨_, _, h2⟩ := h2
  simp only [observationBounds, mkBox, bind_ok, pure_ok] at h3
  obtain ⟨bs, h5, _, ⟨_, _, rfl⟩, h6⟩ := h3
  rw [show (simpleArgs (K := K)).nAux.toNat = 1 from rfl, simple_obsBounds] at h5
  obtain rfl := Except.ok.inj h5
  exact ⟨by rw [hs.actionSpace, ← h2]; rfl, hs.obsSpace _ h6.symm⟩

theorem simple_clean : CleanFile (simpleNet : Network K) 100 where
  base := rfl
  bus := by
    intro r hr
    obtain ⟨l, hl, rfl⟩ := List.mem_map.1 hr
    refine rowOf_ok ?_
    revert l
    simp [cel_ok, none_ok]
  branch := by
    intro r hr
    obtain ⟨l, hl, rfl⟩ := List.mem_map.1 hr
    refine rowOf_ok ?_
    revert l
    simp [cel_ok, none_ok]
  device := by
    intro r hr
    obtain ⟨l, hl, rfl⟩ := List.mem_map.1 hr
    refine rowOf_ok ?_
    revert l
    simp [cel_ok, none_ok]

theorem simple_documented : Documented (simpleNet : Network K) where
  ids := by
    have key : ∀ q : ℚ, ∀ i : ℤ, q = i → ∃ i : ℤ, (cel q : Cell K) = some (.fin (i : K)) :=
      fun q i h => ⟨i, by rw [cel, h]; simp⟩
    constructor
    all_goals
      intro r hr
      simp only [simpleNet, Network.ofLists, List.map_cons, List.map_nil, List.mem_cons, List.not_mem_nil, or_false] at hr
      rcases hr with rfl | rfl
      · exact key 0 0 (by norm_num)
      · exact key 1 1 (by norm_num)
  types := by
    intro r hr
    simp only [simpleNet, Network.ofLists, List.map_cons, List.map_nil, List.mem_cons, List.not_mem_nil, or_false] at hr
    have k0 : (cel 0 : Cell K) = some (.fin 0) := by simp [cel]
    have k1 : (cel 1 : Cell K) = some (.fin 1) := by simp [cel]
    rcases hr with rfl | rfl
    · exact .inl k0
    · exact .inr k1

theorem simple_workable : Workable (simpleSim : Sim K) where
  gen := by
    intro d hd hg
    simp only [simpleSim, simpleDevices, List.mem_cons, List.not_mem_nil, or_false] at hd
    rcases hd with rfl | rfl <;> cases hg
  des := by
    intro d hd hg
    simp only [simpleSim, simpleDevices, List.mem_cons, List.not_mem_nil, or_false] at hd
    rcases hd with rfl | rfl <;> cases hg
  vMin := by
    intro b hb
    simp only [simpleSim, List.map_cons, List.map_nil, List.mem_cons, List.not_mem_nil, or_false] at hb
    rcases hb with rfl | rfl <;> exact fun h => by cases h
  slack := by
    intro d hd hs
    simp only [simpleSim, simpleDevices, List.mem_cons, List.not_mem_nil, or_false] at hd
    rcases hd with rfl | rfl
    · exact ⟨_, List.mem_cons_self, rfl⟩
    · cases hs

theorem simple_loads : TameLoads (simpleSim : Sim K) := by
  intro d hd hg
  simp only [simpleSim, simpleDevices, List.mem_cons, List.not_mem_nil, or_false] at hd
  rcases hd with rfl | rfl
  · cases hg
  · exact ⟨1/5, _, rfl, by norm_num, rfl⟩

theorem simple_ready {e : Env K ρ} (h : EnvOf (simpleCtx w simpleSim) simpleArgs e) :
    Ready (simpleCtx w simpleSim) simpleArgs 100 (1/4) e where
  of := h
  obs := rfl
  dt := rfl
  pos := by norm_num
  gamma := by
    rw [show (simpleArgs (K := K)).gamma = .fin (9/10) from rfl]
    norm_num
  clean := simple_clean
  doc := simple_documented
  workable := workable_same (simple_sameConfig h) simple_workable
  loads := tameLoads_same (simple_sameConfig h) simple_loads
  box := by
    intro b hb
    rw [(C100_simple_spaces h).2] at hb
    obtain rfl := Option.some.inj hb
    simp only [simpleObs, boxOf, List.forall₂_map_left_iff, List.forall₂_map_right_iff, X.fin_le_fin]
    norm_num

theorem simple_counts {e : Env K ρ} (h : EnvOf (simpleCtx w simpleSim) simpleArgs e) : e.sim.nDevice = 2 ∧ e.sim.nLoad = 1 ∧
    e.sim.nNonSlackGen = 0 ∧ e.sim.nDes = 0 := counts_same (simple_sameConfig h)

theorem simple_nAux {e : Env K ρ} (h : EnvOf (simpleCtx w simpleSim) simpleArgs e) : e.nAux = 1 := by
  obtain ⟨e0, I, hs, -, -⟩ := envOf_inv h
  rw [hs.nAux, I.nAux]
  rfl

theorem simple_socFin {e : Env K ρ} (h : EnvOf (simpleCtx w simpleSim) simpleArgs e) : SocFin e.sim := by
  intro d hd hst
  obtain ⟨d0, hd0, hsm⟩ := forall₂_mem_right (simple_sameConfig h).devices hd
  simp only [simpleSim, simpleDevices, List.mem_cons, List.not_mem_nil, or_false] at hd0
  have : d0.isStorage = true := by rw [hsm] at hst; exact hst
  rcases hd0 with rfl | rfl <;> cases this

/-- **C100, reset of the two-bus environment.** -/
theorem C100_simple_reset (hn : FairNumpy w.np) {e : Env K ρ} (h : EnvOf (simpleCtx w simpleSim) simpleArgs e)
    (G : GoodSolvers w.sim (simpleSim : Sim K)) (seed : Option ℤ) :
    (∃ e' obs, e.reset (simpleCtx w simpleSim) seed = .ok (e', obs)) ∨
      (e.reset (simpleCtx w simpleSim) seed = .error .attributeError ∧
        Failing (simpleCtx w simpleSim) 99 e.sim ((seed.map w.seeded).getD e.rng)) := by
  refine C82_reset_total (simple_ready h) ⟨G.exact, G.sound, pfTotal_same (simple_sameConfig h) G.total⟩ ?_ seed
  intro r
  obtain ⟨h1, h2⟩ := rands_spec hn 5 r
  obtain ⟨c1, c2, c3, c4⟩ := simple_counts h
  refine ⟨_, _, rfl, ?_, ?_⟩
  · rw [Env.initSize, c1, c3, c4, simple_nAux h]
    exact h1
  · intro x hx
    obtain ⟨z, hz, -⟩ := h2 x hx
    exact ⟨z, hz⟩

/-- **C100, step of the two-bus environment.** -/
theorem C100_simple_step (hn : FairNumpy w.np) {e : Env K ρ} (h : EnvOf (simpleCtx w simpleSim) simpleArgs e)
    (G : GoodSolvers w.sim (simpleSim : Sim K)) {y : EnvDyn K} (hy : e.dyn = some y) :
    ∃ e' o, e.step (simpleCtx w simpleSim) [] = .ok (e', o) := by
  have hact : e.actionSpace.contains [] true := by
    rw [(C100_simple_spaces h).1]
    simp [Box.contains, boxOf]
  obtain ⟨e', o, h1, -⟩ := C82_step_total (simple_ready h) ⟨G.exact, G.sound, pfTotal_same (simple_sameConfig h) G.total⟩
    (simple_socFin h) hy hact (fun _ => ⟨_, _, rfl, by
      obtain ⟨c1, c2, c3, c4⟩ := simple_counts h
      rw [c2, c3, simple_nAux h]
      rfl, by
      intro x hx
      obtain ⟨z, hz, -⟩ := hn.rand e.rng
      simp only [simpleNext, List.mem_cons, List.not_mem_nil, or_false] at hx
      rcases hx with rfl | rfl
      · exact ⟨-10 * z, by rw [hz, X.fin_mul_fin]⟩
      · exact ⟨_, rfl⟩⟩)
  exact ⟨e', o, h1⟩

/-! ### The environment on the network of ANM6 -/

theorem custom_env {a : Anm6 K ρ} (h : CustomOf w easySim a) : EnvOf (customCtx w easySim) customArgs a.env := by
  induction h with
  | make h =>
    obtain ⟨e, m, n, h1, _, _, rfl⟩ := mkAnm6_ok h
    exact ⟨e, h1, .refl⟩
  | reset _ h ih =>
    obtain ⟨e, d, r, h1, _, rfl⟩ := anm6_reset_ok h
    exact envOf_call (envOf_call ih (.inl ⟨_, _, h1⟩)) (.inr (.inr ⟨r, rfl⟩))
  | step _ h ih =>
    obtain ⟨e, d, d0, h1, _, _, rfl⟩ := anm6_step_ok h
    exact envOf_call ih (.inr (.inl ⟨_, _, h1⟩))
  | draw r _ ih => exact envOf_call ih (.inr (.inr ⟨r, rfl⟩))

theorem custom_tick {a : Anm6 K ρ} (h : CustomOf w easySim a) : a.tick = 15 * (60 * 1000000) := by
  induction h with
  | make h =>
    obtain ⟨e, m, n, _, h1, _, rfl⟩ := mkAnm6_ok h
    have h15 : (X.fin 60 * .fin (1/4) : X K) = .fin ((15 : ℕ) : K) := by rw [X.fin_mul_fin]; norm_num
    rw [show (customArgs (K := K)).deltaT = .fin (1/4) from rfl, h15, toInt_nat] at h1
    rw [← Except.ok.inj h1]
    rfl
  | reset _ h ih =>
    obtain ⟨e, d, r, h1, _, rfl⟩ := anm6_reset_ok h
    exact ih
  | step _ h ih =>
    obtain ⟨e, d, d0, h1, _, _, rfl⟩ := anm6_step_ok h
    exact ih
  | draw r _ ih => exact ih

theorem custom_obsBounds (pi : K) : mapE (fun v => varBounds ((easySim (K := K)).stateSpace pi) customArgs.auxBounds v.1 v.2.1 v.2.2)
    (flatten (stateReadings (easySim (K := K)) 1)) = .ok
  [(.fin (-200), .fin 200), (.fin (-10), .fin 0), (.fin 0, .fin 30), (.fin (-30), .fin 0), (.fin 0, .fin 50), (.fin (-30), .fin 0),
   (.fin (-50), .fin 50),
   (.fin (-200), .fin 200), (.fin (-2), .fin 0), (.fin (-30), .fin 30), (.fin (-6), .fin 0), (.fin (-50), .fin 50), (.fin (-6), .fin 0),
   (.fin (-50), .fin 50),
   (.fin 0, .fin 100), (.fin 0, .fin 30), (.fin 0, .fin 50), (.fin 0, .fin 10)] := by
  have : mapE (fun v => varBounds ((easySim (K := K)).stateSpace pi) customArgs.auxBounds v.1 v.2.1 v.2.2)
    (flatten (stateReadings (easySim (K := K)) 1)) = .ok
    [(.fin (-2 * 100), .fin (2 * 100)), (.fin (-1/10 * 100), .fin (0 * 100)), (.fin (0 * 100), .fin (3/10 * 100)),
     (.fin (-3/10 * 100), .fin (0 * 100)), (.fin (0 * 100), .fin (1/2 * 100)), (.fin (-3/10 * 100), .fin (0 * 100)),
     (.fin (-1/2 * 100), .fin (1/2 * 100)),
     (.fin (-2 * 100), .fin (2 * 100)), (.fin ((-1/10) / 5 * 100), .fin (0 * 100)), (.fin (-(3/10) * 100), .fin (3/10 * 100)),
     (.fin ((-3/10) / 5 * 100), .fin (0 * 100)), (.fin (-(1/2) * 100), .fin (1/2 * 100)), (.fin ((-3/10) / 5 * 100), .fin (0 * 100)),
     (.fin (-1/2 * 100), .fin (1/2 * 100)),
     (.fin (0 * 100), .fin (1 * 100)), (.fin (0 * 100), .fin (3/10 * 100)), (.fin (0 * 100), .fin (1/2 * 100)),
     (.fin 0, .fin 10)] := rfl
  rw [this]
  norm_num

/-- **C100, the six-bus environment is made.** -/
theorem C100_custom_made (hb : BoxTotal w.box) : ∃ a, mkAnm6 (customCtx w easySim) customArgs = .ok a := by
  have he : ∃ e, mkEnv (customCtx w easySim) customArgs = .ok e := by
    simp only [mkEnv, bind_ok, pure_ok]
    refine ⟨_, easySim, anm6_mk _ _, (), ?_, _, expand_state _ _, easyActions, ?_, _, rfl, some customObs, ?_, rfl⟩
    · simp only [checkEnvArgs, bind_ok, guardE_ok]
      have g1 : ¬ (.fin (1/4) : X K) ≤ 0 := by rw [X.zero_def, X.fin_le_fin]; norm_num
      have g2 : ¬ (.fin 100 : X K) < 0 := by rw [X.zero_def, X.fin_lt_fin]; norm_num
      have g3 : ¬ ((.fin (9/10) : X K) < 0 ∨ (.fin 1 : X K) < .fin (9/10)) := by
        rw [X.zero_def, X.fin_lt_fin, X.fin_lt_fin]; norm_num
      refine ⟨(), show ¬ (1 : ℤ) < 0 by norm_num, (), g1, (), g2, (), g3, (), rfl, ?_⟩
      simp [checkAuxBounds, customArgs, guardE]
    · simp only [mkBox, bind_ok, pure_ok]
      refine ⟨(), ?_, ?_⟩ <;> rw [easy_actionBounds]
      · exact hb [(0, 30), (0, 50), (-30, 30), (-50, 50), (-50, 50), (-50, 50)] (by norm_num)
      · rfl
    · simp only [observationBounds, mkBox, bind_ok, pure_ok]
      refine ⟨_, custom_obsBounds _, customObs, ⟨(), ?_, rfl⟩, rfl⟩
      exact hb [(-200, 200), (-10, 0), (0, 30), (-30, 0), (0, 50), (-30, 0), (-50, 50),
        (-200, 200), (-2, 0), (-30, 30), (-6, 0), (-50, 50), (-6, 0), (-50, 50),
        (0, 100), (0, 30), (0, 50), (0, 10)] (by norm_num)
  obtain ⟨e, he⟩ := he
  have hn : ∃ n, e.sim.renderingSpecs w.sim.pi = .ok n := by
    have h1 := (mkEnv_ok he).sim
    rw [show mkSim (customArgs (K := K)).network customArgs.deltaT customArgs.lamb = .ok easySim from anm6_mk _ _] at h1
    rw [← Except.ok.inj h1]
    exact ⟨_, rfl⟩
  obtain ⟨n, hn⟩ := hn
  have h15 : (X.fin 60 * .fin (1/4) : X K) = .fin ((15 : ℕ) : K) := by rw [X.fin_mul_fin]; norm_num
  simp only [mkAnm6, bind_ok, pure_ok]
  refine ⟨_, e, he, n, hn, 15, ?_, rfl⟩
  rw [show (customArgs (K := K)).deltaT = .fin (1/4) from rfl, h15, toInt_nat]
  rfl

theorem custom_sameConfig {a : Anm6 K ρ} (h : CustomOf w easySim a) : SameConfig easySim a.env.sim := by
  obtain ⟨e0, I, -, -, hc⟩ := envOf_inv (custom_env h)
  have h1 := I.sim
  rw [show mkSim (customArgs (K := K)).network customArgs.deltaT customArgs.lamb = _ from anm6_mk _ _] at h1
  rw [← Except.ok.inj h1] at hc
  exact hc

/-- **C100, spaces of the six-bus environment.** -/
theorem C100_custom_spaces {a : Anm6 K ρ} (h : CustomOf w easySim a) :
    a.env.actionSpace = easyActions ∧ a.env.obsSpace = some customObs := by
  obtain ⟨e0, I, hs, -, -⟩ := envOf_inv (custom_env h)
  have h1 := I.sim
  rw [show mkSim (customArgs (K := K)).network customArgs.deltaT customArgs.lamb = .ok easySim from anm6_mk _ _] at h1
  have h2 := I.action
  have h3 := I.obsSpace
  have h4 := I.obsValues
  rw [show (customArgs (K := K)).observation = .state from rfl, obsValues, I.stateValues, Except.ok.injEq] at h4
  rw [← h4, ← Except.ok.inj h1, I.nAux] at h3
  rw [← Except.ok.inj h1, easy_actionBounds] at h2
  simp only [mkBox, bind_ok, pure_ok] at h2
  obtain ⟨_, _, h2⟩ := h2
  simp only [observationBounds, mkBox, bind_ok, pure_ok] at h3
  obtain ⟨bs, h5, _, ⟨_, _, rfl⟩, h6⟩ := h3
  rw [show (customArgs (K := K)).nAux.toNat = 1 from rfl, custom_obsBounds] at h5
  obtain rfl := Except.ok.inj h5
  exact ⟨by rw [hs.actionSpace, ← h2]; rfl, hs.obsSpace _ h6.symm⟩

theorem custom_ready {a : Anm6 K ρ} (h : CustomOf w easySim a) : Ready (customCtx w easySim) customArgs 100 (1/4) a.env where
  of := custom_env h
  obs := rfl
  dt := rfl
  pos := by norm_num
  gamma := by
    rw [show (customArgs (K := K)).gamma = .fin (9/10) from rfl]
    norm_num
  clean := anm6_clean
  doc := anm6_documented
  workable := workable_same (custom_sameConfig h) easy_workable
  loads := tameLoads_same (custom_sameConfig h) easy_loads
  box := by
    intro b hb
    rw [(C100_custom_spaces h).2] at hb
    obtain rfl := Option.some.inj hb
    simp only [customObs, boxOf, List.forall₂_map_left_iff, List.forall₂_map_right_iff, X.fin_le_fin]
    norm_num

theorem custom_counts {a : Anm6 K ρ} (h : CustomOf w easySim a) : a.env.sim.nDevice = 7 ∧ a.env.sim.nLoad = 3 ∧
    a.env.sim.nNonSlackGen = 2 ∧ a.env.sim.nDes = 1 := counts_same (custom_sameConfig h)

theorem custom_nAux {a : Anm6 K ρ} (h : CustomOf w easySim a) : a.env.nAux = 1 := by
  obtain ⟨e0, I, hs, -, -⟩ := envOf_inv (custom_env h)
  rw [hs.nAux, I.nAux]
  rfl

theorem customInit_eq (g : NumpyRandom K ρ) (r : ρ) :
    customInit g (easySim : Sim K) r = ((g.rands 17 r).1 ++ [.fin 0], (g.rands 17 r).2) := rfl

theorem custom_finiteInit (hn : FairNumpy w.np) {a : Anm6 K ρ} (h : CustomOf w easySim a) :
    FiniteInit (customCtx w easySim) a.env.initSize := by
  intro r
  obtain ⟨h1, h2⟩ := rands_spec hn 17 r
  obtain ⟨c1, c2, c3, c4⟩ := custom_counts h
  refine ⟨(w.np.rands 17 r).1 ++ [.fin 0], _, rfl, ?_, ?_⟩
  · rw [Env.initSize, c1, c3, c4, custom_nAux h, List.length_append, h1]
    rfl
  · intro x hx
    rcases List.mem_append.1 hx with hx | hx
    · obtain ⟨z, hz, -⟩ := h2 x hx
      exact ⟨z, hz⟩
    · exact ⟨0, List.mem_singleton.1 hx⟩

theorem custom_socInit (hn : FairNumpy w.np) {a : Anm6 K ρ} (h : CustomOf w easySim a) :
    SocInit (customCtx w easySim) a.env.sim := by
  intro r v r' hi k d hd x hx
  have hi := Except.ok.inj hi
  rw [customInit_eq] at hi
  obtain ⟨rfl, rfl⟩ := Prod.mk.inj hi
  obtain ⟨h1, h2⟩ := rands_spec hn 17 r
  obtain ⟨c1, c2, c3, c4⟩ := custom_counts h
  have hk : k = 0 := by
    have := (List.getElem?_eq_some_iff.1 hd).1
    rw [Sim.nDes] at c4
    omega
  subst hk
  have hst : d.socMin = .fin 0 ∧ d.socMax = .fin 1 := by
    have hm := List.mem_of_getElem? hd
    obtain ⟨hm1, hm2⟩ := List.mem_filter.1 hm
    obtain ⟨d0, hd0, hsm⟩ := forall₂_mem_right (custom_sameConfig h).devices hm1
    have : d0.isStorage = true := by rw [hsm] at hm2; exact hm2
    simp only [easySim, anm6Sim, anm6Devices, List.mem_cons, List.not_mem_nil, or_false] at hd0
    rw [hsm]
    rcases hd0 with rfl | rfl | rfl | rfl | rfl | rfl | rfl
    · cases this
    · cases this
    · cases this
    · cases this
    · cases this
    · cases this
    · exact ⟨rfl, rfl⟩
  have hb : a.env.sim.baseMVA = .fin 100 := (custom_sameConfig h).base
  rw [c1, List.getElem?_append_left (by rw [h1]; norm_num)] at hx
  obtain ⟨z, rfl, hz0, hz1⟩ := h2 x (List.mem_of_getElem? hx)
  rw [hst.1, hst.2, hb, X.fin_div_fin (by norm_num), X.fin_le_fin, X.fin_le_fin]
  constructor
  · positivity
  · linarith

theorem customNext_clock (hn : FairNumpy w.np) {st : List (X K)} {t : ℕ} (r : ρ) (h : st.getLast? = some (.fin (t : K))) :
    ∃ x1 x2 x3 x4 x5 r', customNext w.np st r = .ok ([.fin x1, .fin x2, .fin x3, .fin x4, .fin x5,
      .fin (((t + 1) % 96 : ℕ) : K)], r') := by
  obtain ⟨z1, e1, -⟩ := hn.rand r
  obtain ⟨z2, e2, -⟩ := hn.rand (w.np.rand r).2
  obtain ⟨z3, e3, -⟩ := hn.rand (w.np.rand (w.np.rand r).2).2
  obtain ⟨z4, e4, -⟩ := hn.rand (w.np.rand (w.np.rand (w.np.rand r).2).2).2
  obtain ⟨z5, e5, -⟩ := hn.rand (w.np.rand (w.np.rand (w.np.rand (w.np.rand r).2).2).2).2
  refine ⟨-10 * z1, 30 * z2, -30 * z3, 50 * z4, -30 * z5,
    (w.np.rand (w.np.rand (w.np.rand (w.np.rand (w.np.rand r).2).2).2).2).2, ?_⟩
  have h96 : (X.fin 24 / .fin (1/4) : X K) = .fin ((96 : ℕ) : K) := by rw [X.fin_div_fin (by norm_num)]; norm_num
  have hm := fmod_nat (K := K) (t + 1) 96 (by norm_num)
  rw [Nat.cast_add, Nat.cast_one] at hm
  simp only [customNext, (pyGet_last _ _).2 h, Bind.bind, Except.bind, pure, Except.pure, e1, e2, e3, e4, e5, X.fin_mul_fin,
    X.fin_add_fin, h96, hm, toInt_nat, Int.cast_natCast]

theorem custom_env_step (hn : FairNumpy w.np) {a : Anm6 K ρ} (h : CustomOf w easySim a)
    (G : GoodSolvers w.sim a.env.sim) {y : EnvDyn K} (hy : a.env.dyn = some y)
    (hsoc : SocFin a.env.sim) (hclock : y.terminated = false → ∃ t : ℕ, t < 96 ∧ Clock a.env t) {u : List (X K)}
    (hu : a.env.actionSpace.contains u true) :
    ∃ e o, a.env.step (customCtx w easySim) u = .ok (e, o) ∧ SocFin e.sim := by
  refine C82_step_total (custom_ready h) G hsoc hy hu fun ht => ?_
  obtain ⟨t, _, y', hy', hl⟩ := hclock ht
  rw [hy] at hy'
  cases hy'
  obtain ⟨x1, x2, x3, x4, x5, r', hv⟩ := customNext_clock hn a.env.rng hl
  obtain ⟨c1, c2, c3, c4⟩ := custom_counts h
  refine ⟨_, _, hv, ?_, ?_⟩
  · rw [c2, c3, custom_nAux h]
    rfl
  · intro x hm
    simp only [List.mem_cons, List.not_mem_nil, or_false] at hm
    rcases hm with rfl | rfl | rfl | rfl | rfl | rfl <;> exact ⟨_, rfl⟩

/-- **C101, reset.** A reset sets the time of day to midnight. -/
theorem custom_reset_clock {a a1 : Anm6 K ρ} {seed date : Option ℤ} {obs : List (X K)}
    (ha : CustomOf w easySim a) (h : a.reset (customCtx w easySim) w.rng seed date = .ok (a1, obs)) :
    Clock a1.env 0 := by
  obtain ⟨e, d, r, h1, _, rfl⟩ := anm6_reset_ok h
  obtain ⟨y, v, r', h6, h7, _, h9⟩ := (C50_aux_flow (custom_env ha)).1 _ _ h1
  have h7 := Except.ok.inj h7
  rw [customInit_eq] at h7
  obtain ⟨rfl, -⟩ := Prod.mk.inj h7
  rw [custom_nAux ha, lastN_one, lastN_one] at h9
  refine ⟨y, h6, ?_⟩
  cases hx : y.state.getLast? with
  | none => rw [hx] at h9; simp at h9
  | some x => rw [hx] at h9; simpa using h9

/-- **C101, step.** A step that does not end the episode moves the time of day on by one. -/
theorem custom_step_clock (hn : FairNumpy w.np) {a a' : Anm6 K ρ} {u : List (X K)} {o : Env.StepOut K}
    {t : ℕ} (ha : CustomOf w easySim a) (hc : Clock a.env t) (h : a.step (customCtx w easySim) u = .ok (a', o))
    (ho : o.terminated = false) : Clock a'.env ((t + 1) % 96) := by
  obtain ⟨e, d, d0, h1, _, _, rfl⟩ := anm6_step_ok h
  obtain ⟨y, y', v, hy, hy', hv, hl, hlast⟩ := (C50_aux_flow (custom_env ha)).2 _ _ h1 ho
  obtain ⟨y'', hy'', ht⟩ := hc
  rw [hy] at hy''
  cases hy''
  obtain ⟨x1, x2, x3, x4, x5, r', hv'⟩ := customNext_clock hn a.env.rng ht
  rw [show (customCtx w easySim).nextVars = customNext w.np from rfl, hv'] at hv
  obtain ⟨rfl, -⟩ := Prod.mk.inj (Except.ok.inj hv)
  rw [custom_nAux ha, lastN_one, lastN_one] at hlast
  refine ⟨y', hy', ?_⟩
  cases hx : y'.state.getLast? with
  | none => rw [hx] at hlast; simp at hlast
  | some x => rw [hx] at hlast; simpa using hlast

theorem anm6_reset_date {c : EnvCtx K ρ} {a a' : Anm6 K ρ} {seed date : Option ℤ} {obs : List (X K)}
    (h : a.reset c w.rng seed date = .ok (a', obs)) : ∃ d, a'.date = some d ∧ a'.dateInit = some d := by
  obtain ⟨e, d, r, h1, _, rfl⟩ := anm6_reset_ok h
  exact ⟨d, rfl, rfl⟩

/-- What holds of every `CustomANM6Environment` that has been reset. -/
theorem custom_live (hn : FairNumpy w.np) {a : Anm6 K ρ} (h : CustomOf w easySim a)
    (G : GoodSolvers w.sim (easySim : Sim K)) :
    GoodSolvers w.sim a.env.sim ∧ ∀ y, a.env.dyn = some y → SocFin a.env.sim ∧
      (y.terminated = false → ∃ t : ℕ, t < 96 ∧ Clock a.env t) ∧
      ∃ d d0, a.date = some d ∧ a.dateInit = some d0 := by
  refine ⟨⟨G.exact, G.sound, pfTotal_same (custom_sameConfig h) G.total⟩, ?_⟩
  induction h with
  | make h2 =>
    intro y hy
    obtain ⟨e, m, n, h3, _, _, rfl⟩ := mkAnm6_ok h2
    rw [show ({ env := e, specs := n, tick := m * (60 * 1000000) } : Anm6 K ρ).env.dyn = none from (mkEnv_ok h3).dyn] at hy
    cases hy
  | @reset a a' seed date obs ha h1 ih =>
    intro y hy
    obtain ⟨d, hd, hd0⟩ := anm6_reset_date h1
    refine ⟨?_, fun _ => ⟨0, by norm_num, custom_reset_clock ha h1⟩, d, d, hd, hd0⟩
    obtain ⟨e, d, r, h2, _, rfl⟩ := anm6_reset_ok h1
    exact C82_reset_soc (e' := e) (custom_ready ha) (custom_socInit hn ha) h2
  | @step a a' u o ha h1 ih =>
    intro y' hy'
    obtain ⟨e, d, d0, h2, h3, h4, h5⟩ := anm6_step_ok h1
    obtain ⟨hu, hcase⟩ := step_ok h2
    have hy : ∃ y, a.env.dyn = some y := by
      cases hd : a.env.dyn with
      | some y => exact ⟨y, rfl⟩
      | none => simp [Env.step, hd, hu, guardE, Bind.bind, Except.bind] at h2
    obtain ⟨y, hy⟩ := hy
    obtain ⟨i1, i2, -⟩ := ih y hy
    obtain ⟨e', o', h6, h7⟩ := custom_env_step hn ha ⟨G.exact, G.sound, pfTotal_same (custom_sameConfig ha) G.total⟩ hy i1 i2 hu
    rw [h2] at h6
    cases h6
    refine ⟨by rw [h5]; exact h7, fun ht => ?_, d + a.tick, d0, by rw [h5], by rw [h5]; exact h4⟩
    obtain ⟨y2, hy2, hflag⟩ := C46_flag h2
    have hy3 : e.dyn = some y' := by rw [h5] at hy'; exact hy'
    rw [hy3] at hy2
    cases hy2
    have hterm : y.terminated = false := by
      cases hb : y.terminated with
      | false => rfl
      | true =>
        have := (C46_terminal_step (c := customCtx w easySim) hy hb u).1 hu
        rw [h2] at this
        cases this
        rw [hy] at hy3
        cases hy3
        rw [ht] at hb
        cases hb
    obtain ⟨t, _, hc⟩ := i2 hterm
    exact ⟨(t + 1) % 96, Nat.mod_lt _ (by norm_num), custom_step_clock hn ha hc h1 (hflag ▸ ht)⟩
  | draw r ha ih => exact ih

/-- **C100, step of the six-bus environment.** No exception is raised for any action of the action space,
except `OverflowError` when the date would pass the end of year 9999. -/
theorem C100_custom_step (hn : FairNumpy w.np) {a : Anm6 K ρ} (h : CustomOf w easySim a)
    (G : GoodSolvers w.sim (easySim : Sim K)) {y : EnvDyn K} (hy : a.env.dyn = some y) {u : List (X K)}
    (hu : easyActions.contains u true) :
    ∃ d, a.date = some d ∧ (0 ≤ d → (∃ a' o, a.step (customCtx w easySim) u = .ok (a', o)) ∨
      (a.step (customCtx w easySim) u = .error .overflowError ∧ 3652059 * dayMicros ≤ d + 15 * (60 * 1000000))) := by
  obtain ⟨G', hl⟩ := custom_live hn h G
  obtain ⟨h1, h2, d, d0, h3, h4⟩ := hl y hy
  rw [← (C100_custom_spaces h).1] at hu
  obtain ⟨e, o, h7, -⟩ := custom_env_step hn h G' hy h1 h2 hu
  refine ⟨d, h3, fun hd0 => ?_⟩
  have ht := custom_tick h
  simp only [Anm6.step, h7, h3, h4, Bind.bind, Except.bind, dateAdd, guardE]
  by_cases hd : d + a.tick < 3652059 * dayMicros
  · left
    rw [if_pos ⟨by omega, hd⟩]
    exact ⟨_, _, rfl⟩
  · right
    rw [if_neg (fun h => hd h.2)]
    exact ⟨rfl, by omega⟩

/-- **C100, reset of the six-bus environment.** -/
theorem C100_custom_reset (hn : FairNumpy w.np) (hg : Fair w.rng) {a : Anm6 K ρ} (h : CustomOf w easySim a)
    (G : GoodSolvers w.sim (easySim : Sim K)) (seed date : Option ℤ) :
    (∃ a' obs d, a.reset (customCtx w easySim) w.rng seed date = .ok (a', obs) ∧ a'.date = some d ∧
        (date = none → 0 ≤ d ∧ d < 737791 * dayMicros)) ∨
      (a.reset (customCtx w easySim) w.rng seed date = .error .attributeError ∧
        Failing (customCtx w easySim) 99 a.env.sim ((seed.map w.seeded).getD a.env.rng)) := by
  obtain ⟨G', -⟩ := custom_live hn h G
  rcases C82_reset_total (custom_ready h) G' (custom_finiteInit hn h) seed with ⟨e, obs, h1⟩ | ⟨h1, h2⟩
  · left
    have hsd : ∃ d r', Anm6.startDate w.rng e.rng date = .ok (d, r') ∧ (date = none → 0 ≤ d ∧ d < 737791 * dayMicros) := by
      cases date with
      | some d => exact ⟨d, e.rng, rfl, nofun⟩
      | none =>
        obtain ⟨d, r', m, h6, ⟨h7, h8⟩⟩ := C60_random_date hg e.rng (y := 2020) (by norm_num) (by norm_num)
        have h9 : m < 366 := lt_of_lt_of_eq h7 (by decide +kernel)
        have h10 : daysBefore 2020 = 737424 := by decide +kernel
        have hdm : dayMicros = 24 * 60 * 60 * 1000000 := rfl
        rw [h10] at h8
        exact ⟨d, r', h6, fun _ => by constructor <;> omega⟩
    obtain ⟨d, r', hd1, hd2⟩ := hsd
    simp only [Anm6.reset, h1, hd1, Bind.bind, Except.bind, pure, Except.pure]
    exact ⟨_, _, d, rfl, rfl, hd2⟩
  · right
    exact ⟨by simp only [Anm6.reset, h1, Bind.bind, Except.bind], h2⟩

end
end Anm
