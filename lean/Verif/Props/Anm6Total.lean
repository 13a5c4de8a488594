import Verif.Props.Anm6Net
import Verif.Props.EnvTotal

/-! # C83: ANM6Easy, its spaces, and calls that raise no exception -/

set_option linter.unusedSectionVars false

namespace Anm

open Spec

namespace Spec

variable {K : Type} [Field K] [LinearOrder K]

/-- A space whose bounds are the given pairs of numbers. -/
def boxOf (l : List (K × K)) : Box K := { low := l.map fun x => .fin x.1, high := l.map fun x => .fin x.2 }

/-- The action space of ANM6Easy: active powers of the generators 2 and 4, their reactive powers, active
and reactive power of the storage unit, in MW and MVAr. -/
def easyActions : Box K := boxOf [(0, 30), (0, 50), (-30, 30), (-50, 50), (-50, 50), (-50, 50)]

/-- The observation space of ANM6Easy: active powers of the devices 0 to 6, their reactive powers, the
energy in the storage unit, the maximum power of both generators, the time of day. -/
def easyObs : Box K := boxOf
  [(-200, 200), (-10, 0), (0, 30), (-30, 0), (0, 50), (-30, 0), (-50, 50),
   (-200, 200), (-2, 0), (-30, 30), (-6, 0), (-50, 50), (-6, 0), (-50, 50),
   (0, 100), (0, 30), (0, 50), (0, 95)]

/-- The constructor of `Box` accepts ordered finite bounds. -/
def BoxTotal (box : List (X K) → List (X K) → Except PyErr Unit) : Prop :=
  ∀ l : List (K × K), (∀ x ∈ l, x.1 ≤ x.2) → box (boxOf l).low (boxOf l).high = .ok ()

end Spec

section
variable {K ρ : Type} [Field K] [LinearOrder K] [IsStrictOrderedRing K] [FloorRing K]
  {w : EasyWorld K ρ} {s0 : Sim K} {a : Anm6 K ρ}

/-- The simulator of ANM6Easy. -/
abbrev easySim : Sim K := anm6Sim (.fin (1/4)) (.fin 100)

theorem easy_actionBounds : actionBounds (easySim (K := K)) =
    [(.fin 0, .fin 30), (.fin 0, .fin 50), (.fin (-30), .fin 30), (.fin (-50), .fin 50), (.fin (-50), .fin 50),
     (.fin (-50), .fin 50)] := by
  have : actionBounds (easySim (K := K)) =
    [(.fin (0 * 100), .fin (3/10 * 100)), (.fin (0 * 100), .fin (1/2 * 100)), (.fin (-(3/10) * 100), .fin (3/10 * 100)),
     (.fin (-(1/2) * 100), .fin (1/2 * 100)), (.fin (-1/2 * 100), .fin (1/2 * 100)), (.fin (-1/2 * 100), .fin (1/2 * 100))] := rfl
  rw [this]
  norm_num

theorem easy_obsBounds (pi : K) : mapE (fun v => varBounds ((easySim (K := K)).stateSpace pi) easyArgs.auxBounds v.1 v.2.1 v.2.2)
    (flatten (stateReadings (easySim (K := K)) 1)) = .ok
  [(.fin (-200), .fin 200), (.fin (-10), .fin 0), (.fin 0, .fin 30), (.fin (-30), .fin 0), (.fin 0, .fin 50), (.fin (-30), .fin 0),
   (.fin (-50), .fin 50),
   (.fin (-200), .fin 200), (.fin (-2), .fin 0), (.fin (-30), .fin 30), (.fin (-6), .fin 0), (.fin (-50), .fin 50), (.fin (-6), .fin 0),
   (.fin (-50), .fin 50),
   (.fin 0, .fin 100), (.fin 0, .fin 30), (.fin 0, .fin 50), (.fin 0, .fin 95)] := by
  have : mapE (fun v => varBounds ((easySim (K := K)).stateSpace pi) easyArgs.auxBounds v.1 v.2.1 v.2.2)
    (flatten (stateReadings (easySim (K := K)) 1)) = .ok
    [(.fin (-2 * 100), .fin (2 * 100)), (.fin (-1/10 * 100), .fin (0 * 100)), (.fin (0 * 100), .fin (3/10 * 100)),
     (.fin (-3/10 * 100), .fin (0 * 100)), (.fin (0 * 100), .fin (1/2 * 100)), (.fin (-3/10 * 100), .fin (0 * 100)),
     (.fin (-1/2 * 100), .fin (1/2 * 100)),
     (.fin (-2 * 100), .fin (2 * 100)), (.fin ((-1/10) / 5 * 100), .fin (0 * 100)), (.fin (-(3/10) * 100), .fin (3/10 * 100)),
     (.fin ((-3/10) / 5 * 100), .fin (0 * 100)), (.fin (-(1/2) * 100), .fin (1/2 * 100)), (.fin ((-3/10) / 5 * 100), .fin (0 * 100)),
     (.fin (-1/2 * 100), .fin (1/2 * 100)),
     (.fin (0 * 100), .fin (1 * 100)), (.fin (0 * 100), .fin (3/10 * 100)), (.fin (0 * 100), .fin (1/2 * 100)),
     (0, dayLength - .fin 1)] := rfl
  rw [this, dayLength_eq]
  norm_num [X.fin_sub_fin]
  rfl

/-! ### The hypotheses of C82 -/

theorem easy_sim_eq (h : EasyOf w s0 a) : s0 = easySim := by
  have := easy_sim h
  rw [anm6_mk] at this
  exact (Except.ok.inj this).symm

theorem easy_sameConfig (h : EasyOf w s0 a) : SameConfig easySim a.env.sim := by
  obtain ⟨e0, I, -, -, hc⟩ := envOf_inv (easy_env h)
  have h1 := I.sim
  rw [show mkSim (easyArgs (K := K)).network easyArgs.deltaT easyArgs.lamb = _ from anm6_mk _ _] at h1
  rw [← Except.ok.inj h1] at hc
  exact hc

/-- **C83, spaces.** The action and observation spaces of ANM6Easy. -/
theorem C83_spaces (h : EasyOf w s0 a) : a.env.actionSpace = easyActions ∧ a.env.obsSpace = some easyObs := by
  obtain ⟨e0, I, hs, -, -⟩ := envOf_inv (easy_env h)
  have h1 := I.sim
  rw [show mkSim (easyArgs (K := K)).network easyArgs.deltaT easyArgs.lamb = .ok easySim from anm6_mk _ _] at h1
  have h2 := I.action
  have h3 := I.obsSpace
  have h4 := I.obsValues
  rw [show (easyArgs (K := K)).observation = .state from rfl, obsValues, I.stateValues, Except.ok.injEq] at h4
  rw [← h4, ← Except.ok.inj h1, I.nAux] at h3
  rw [← Except.ok.inj h1, easy_actionBounds] at h2
  simp only [mkBox, bind_ok, pure_ok] at h2
  obtain ⟨_, _, h2⟩ := h2
  simp only [observationBounds, mkBox, bind_ok, pure_ok] at h3
  obtain ⟨bs, h5, _, ⟨_, _, rfl⟩, h6⟩ := h3
  rw [show (easyArgs (K := K)).nAux.toNat = 1 from rfl, easy_obsBounds] at h5
  obtain rfl := Except.ok.inj h5
  exact ⟨by rw [hs.actionSpace, ← h2]; rfl, hs.obsSpace _ h6.symm⟩

/-- **C83, constructor.** Making an ANM6Easy environment raises no exception. -/
theorem C83_made (hb : BoxTotal w.box) : ∃ a, mkAnm6 (easyCtx w easySim) easyArgs = .ok a ∧ EasyOf w easySim a := by
  have he : ∃ e, mkEnv (easyCtx w easySim) easyArgs = .ok e := by
    simp only [mkEnv, bind_ok, pure_ok]
    refine ⟨_, easySim, anm6_mk _ _, (), ?_, _, expand_state _ _, easyActions, ?_, _, rfl, some easyObs, ?_, rfl⟩
    · simp only [checkEnvArgs, bind_ok, guardE_ok]
      have g1 : ¬ (.fin (1/4) : X K) ≤ 0 := by rw [X.zero_def, X.fin_le_fin]; norm_num
      have g2 : ¬ (.fin 100 : X K) < 0 := by rw [X.zero_def, X.fin_lt_fin]; norm_num
      have g3 : ¬ ((.fin (995/1000) : X K) < 0 ∨ (.fin 1 : X K) < .fin (995/1000)) := by
        rw [X.zero_def, X.fin_lt_fin, X.fin_lt_fin]; norm_num
      refine ⟨(), show ¬ (1 : ℤ) < 0 by norm_num, (), g1, (), g2, (), g3, (), rfl, ?_⟩
      simp [checkAuxBounds, easyArgs, guardE]
    · simp only [mkBox, bind_ok, pure_ok]
      refine ⟨(), ?_, ?_⟩ <;> rw [easy_actionBounds]
      · exact hb [(0, 30), (0, 50), (-30, 30), (-50, 50), (-50, 50), (-50, 50)] (by norm_num)
      · rfl
    · simp only [observationBounds, mkBox, bind_ok, pure_ok]
      refine ⟨_, easy_obsBounds _, easyObs, ⟨(), ?_, rfl⟩, rfl⟩
      exact hb [(-200, 200), (-10, 0), (0, 30), (-30, 0), (0, 50), (-30, 0), (-50, 50),
        (-200, 200), (-2, 0), (-30, 30), (-6, 0), (-50, 50), (-6, 0), (-50, 50),
        (0, 100), (0, 30), (0, 50), (0, 95)] (by norm_num)
  obtain ⟨e, he⟩ := he
  have : ∃ a, mkAnm6 (easyCtx w easySim) easyArgs = .ok a := by
    have hn : ∃ n, e.sim.renderingSpecs w.sim.pi = .ok n := by
      have h1 := (mkEnv_ok he).sim
      rw [show mkSim (easyArgs (K := K)).network easyArgs.deltaT easyArgs.lamb = .ok easySim from anm6_mk _ _] at h1
      rw [← Except.ok.inj h1]
      exact ⟨_, rfl⟩
    obtain ⟨n, hn⟩ := hn
    have h15 : (X.fin 60 * .fin (1/4) : X K) = .fin ((15 : ℕ) : K) := by rw [X.fin_mul_fin]; norm_num
    simp only [mkAnm6, bind_ok, pure_ok]
    refine ⟨_, e, he, n, hn, 15, ?_, rfl⟩
    rw [show (easyArgs (K := K)).deltaT = .fin (1/4) from rfl, h15, toInt_nat]
    rfl
  obtain ⟨a, h⟩ := this
  exact ⟨a, h, .make (anm6_mk _ _) h⟩

theorem rowOf_ok {C : Type} [DecidableEq C] {headers : List C} {l : List (Cell K)} (h : ∀ x ∈ l, CellOk x) :
    RowOk (rowOf headers l) := by
  intro col
  unfold rowOf
  cases hx : l[headers.idxOf col]? with
  | none => simp [CellOk]
  | some x => exact h x (List.mem_of_getElem? hx)

theorem cel_ok (q : ℚ) : CellOk (cel q : Cell K) := by simp [CellOk, cel]
theorem none_ok : CellOk (none : Cell K) := by simp [CellOk]

theorem anm6_clean : CleanFile (anm6Net : Network K) 100 where
  base := rfl
  bus := by
    intro r hr
    obtain ⟨l, hl, rfl⟩ := List.mem_map.1 hr
    refine rowOf_ok ?_
    revert l
    simp [cel_ok, none_ok]
  branch := by
    intro r hr
    obtain ⟨l, hl, rfl⟩ := List.mem_map.1 hr
    refine rowOf_ok ?_
    revert l
    simp [cel_ok, none_ok]
  device := by
    intro r hr
    obtain ⟨l, hl, rfl⟩ := List.mem_map.1 hr
    refine rowOf_ok ?_
    revert l
    simp [cel_ok, none_ok]

theorem anm6_documented : Documented (anm6Net : Network K) where
  ids := by
    constructor
    · intro r hr
      simp only [anm6Net, Network.ofLists, List.map_cons, List.map_nil, List.mem_cons, List.not_mem_nil, or_false] at hr
      have key : ∀ q : ℚ, ∀ i : ℤ, q = i → ∃ i : ℤ, (cel q : Cell K) = some (.fin (i : K)) :=
        fun q i h => ⟨i, by rw [cel, h]; simp⟩
      rcases hr with rfl | rfl | rfl | rfl | rfl | rfl
      · exact key 0 0 (by norm_num)
      · exact key 1 1 (by norm_num)
      · exact key 2 2 (by norm_num)
      · exact key 3 3 (by norm_num)
      · exact key 4 4 (by norm_num)
      · exact key 5 5 (by norm_num)
    · intro r hr
      simp only [anm6Net, Network.ofLists, List.map_cons, List.map_nil, List.mem_cons, List.not_mem_nil, or_false] at hr
      have key : ∀ q : ℚ, ∀ i : ℤ, q = i → ∃ i : ℤ, (cel q : Cell K) = some (.fin (i : K)) :=
        fun q i h => ⟨i, by rw [cel, h]; simp⟩
      rcases hr with rfl | rfl | rfl | rfl | rfl | rfl | rfl
      · exact key 0 0 (by norm_num)
      · exact key 1 1 (by norm_num)
      · exact key 2 2 (by norm_num)
      · exact key 3 3 (by norm_num)
      · exact key 4 4 (by norm_num)
      · exact key 5 5 (by norm_num)
      · exact key 6 6 (by norm_num)
  types := by
    intro r hr
    simp only [anm6Net, Network.ofLists, List.map_cons, List.map_nil, List.mem_cons, List.not_mem_nil, or_false] at hr
    have k0 : (cel 0 : Cell K) = some (.fin 0) := by simp [cel]
    have k1 : (cel 1 : Cell K) = some (.fin 1) := by simp [cel]
    rcases hr with rfl | rfl | rfl | rfl | rfl | rfl
    · exact .inl k0
    all_goals exact .inr k1

theorem easy_workable : Workable (easySim : Sim K) where
  gen := by
    intro d hd hg
    simp only [easySim, anm6Sim, anm6Devices, List.mem_cons, List.not_mem_nil, or_false] at hd
    rcases hd with rfl | rfl | rfl | rfl | rfl | rfl | rfl
    · cases hg
    · cases hg
    · exact ⟨⟨_, _, _, _, _, _, _⟩, rfl, rfl, rfl, rfl, rfl, rfl, rfl⟩
    · cases hg
    · exact ⟨⟨_, _, _, _, _, _, _⟩, rfl, rfl, rfl, rfl, rfl, rfl, rfl⟩
    · cases hg
    · cases hg
  des := by
    intro d hd hg
    simp only [easySim, anm6Sim, anm6Devices, List.mem_cons, List.not_mem_nil, or_false] at hd
    rcases hd with rfl | rfl | rfl | rfl | rfl | rfl | rfl
    · cases hg
    · cases hg
    · cases hg
    · cases hg
    · cases hg
    · cases hg
    · refine ⟨⟨_, _, _, _, _, _, _, _, _, _, _⟩, ⟨rfl, rfl, rfl, rfl, rfl, rfl, rfl, rfl, rfl, rfl, rfl⟩, ?_⟩
      norm_num
  vMin := by
    intro b hb
    simp only [easySim, anm6Sim, List.map_cons, List.map_nil, List.mem_cons, List.not_mem_nil, or_false] at hb
    rcases hb with rfl | rfl | rfl | rfl | rfl | rfl <;> exact fun h => by cases h
  slack := by
    intro d hd hs
    simp only [easySim, anm6Sim, anm6Devices, List.mem_cons, List.not_mem_nil, or_false] at hd
    rcases hd with rfl | rfl | rfl | rfl | rfl | rfl | rfl
    · exact ⟨_, List.mem_cons_self, rfl⟩
    all_goals cases hs

theorem easy_loads : TameLoads (easySim : Sim K) := by
  intro d hd hg
  simp only [easySim, anm6Sim, anm6Devices, List.mem_cons, List.not_mem_nil, or_false] at hd
  rcases hd with rfl | rfl | rfl | rfl | rfl | rfl | rfl
  · cases hg
  · exact ⟨1/5, _, rfl, by norm_num, rfl⟩
  · cases hg
  · exact ⟨1/5, _, rfl, by norm_num, rfl⟩
  · cases hg
  · exact ⟨1/5, _, rfl, by norm_num, rfl⟩
  · cases hg

theorem easy_ready (h : EasyOf w s0 a) : Ready (easyCtx w s0) easyArgs 100 (1/4) a.env where
  of := easy_env h
  obs := rfl
  dt := rfl
  pos := by norm_num
  gamma := by
    rw [show (easyArgs (K := K)).gamma = .fin (995/1000) from rfl]
    norm_num
  clean := anm6_clean
  doc := anm6_documented
  workable := workable_same (easy_sameConfig h) easy_workable
  loads := tameLoads_same (easy_sameConfig h) easy_loads
  box := by
    intro b hb
    rw [(C83_spaces h).2] at hb
    obtain rfl := Option.some.inj hb
    simp only [easyObs, boxOf, List.forall₂_map_left_iff, List.forall₂_map_right_iff, X.fin_le_fin]
    norm_num

/-- `init_state` of ANM6Easy raises no exception. -/
theorem easyInit_total {g : Rng K ρ} (hg : Fair g) (r : ρ) : ∃ v r', easyInit g (easySim : Sim K) r = .ok (v, r') := by
  obtain ⟨ht0, ht1⟩ := hg.integers r 0 96 (by norm_num)
  obtain ⟨xs, h1, h2⟩ := read_series (K := K) series_length (n := (g.integers r 0 96).1.toNat) (by omega)
  rw [Int.toNat_of_nonneg ht0] at h1
  have hlen : xs.length = 5 := h2.length_eq.symm
  match xs, hlen with
  | [x1, x3, x5, x2, x4], _ =>
    simp only [loadSeries, genSeries, List.cons_append, List.nil_append, List.map_cons, List.map_nil, mapE_ok,
      List.forall₂_cons] at h1
    obtain ⟨a1, a3, a5, a2, a4, -⟩ := h1
    have hn : (dayLength (K := K)).toInt = .ok 96 := by
      rw [dayLength_eq]
      exact_mod_cast toInt_nat (K := K) 96
    simp only [easyInit, hn, Bind.bind, Except.bind]
    rw [show pyPut (Env.zeros (2 * 7 + 1 + 2 + 1)) (-1) (X.fin ((g.integers r 0 96).1 : K)) = .ok
      [0, 0, 0, 0, 0, 0, 0, 0, 0, 0, 0, 0, 0, 0, 0, 0, 0, X.fin ((g.integers r 0 96).1 : K)] from rfl]
    simp only [pLoads, pMaxs, loadSeries, genSeries, List.map_cons, List.map_nil, List.zip, List.zipWith, initLoads,
      initGens, initDes, Bind.bind, Except.bind, a1, a2, a3, a4, a5]
    exact ⟨_, _, rfl⟩

theorem easy_counts (h : EasyOf w s0 a) : a.env.sim.nDevice = 7 ∧ a.env.sim.nLoad = 3 ∧ a.env.sim.nNonSlackGen = 2 ∧
    a.env.sim.nDes = 1 := counts_same (easy_sameConfig h)

theorem easy_finiteInit (h : EasyOf w s0 a) (hg : Fair w.rng) : FiniteInit (easyCtx w s0) a.env.initSize := by
  intro r
  obtain ⟨v, r', hi⟩ := easyInit_total hg r
  rw [← easy_sim_eq h] at hi
  obtain ⟨t, q2, q4, soc, _, ⟨p1, p3, p5, p2, p4, _, _, hv⟩, -⟩ := C58_aux (simOf_mk (easy_sim h)) hg hi
  refine ⟨v, r', hi, ?_, ?_⟩
  · obtain ⟨c1, c2, c3, c4⟩ := easy_counts h
    rw [Env.initSize, c1, c3, c4, easy_nAux h, hv]
    rfl
  · intro x hx
    rw [hv] at hx
    obtain ⟨y, _, rfl⟩ := List.mem_map.1 hx
    exact ⟨y, rfl⟩

theorem easy_socInit (h : EasyOf w s0 a) (hg : Fair w.rng) : SocInit (easyCtx w s0) a.env.sim := by
  intro r v r' hi k d hd x hx
  obtain ⟨t, q2, q4, soc, _, ⟨p1, p3, p5, p2, p4, _, _, hv⟩, _, _, _, _, h1, h2⟩ := C58_aux (simOf_mk (easy_sim h)) hg hi
  obtain ⟨c1, c2, c3, c4⟩ := easy_counts h
  have hk : k = 0 := by
    have := (List.getElem?_eq_some_iff.1 hd).1
    rw [Sim.nDes] at c4
    omega
  subst hk
  have hst : d.socMin = .fin 0 ∧ d.socMax = .fin 1 := by
    have hm := List.mem_of_getElem? hd
    obtain ⟨hm1, hm2⟩ := List.mem_filter.1 hm
    obtain ⟨d0, hd0, hsm⟩ := forall₂_mem_right (easy_sameConfig h).devices hm1
    have : d0.isStorage = true := by rw [hsm] at hm2; exact hm2
    simp only [easySim, anm6Sim, anm6Devices, List.mem_cons, List.not_mem_nil, or_false] at hd0
    rw [hsm]
    rcases hd0 with rfl | rfl | rfl | rfl | rfl | rfl | rfl
    · cases this
    · cases this
    · cases this
    · cases this
    · cases this
    · cases this
    · exact ⟨rfl, rfl⟩
  have hb : a.env.sim.baseMVA = .fin 100 := (easy_sameConfig h).base
  rw [c1, hv] at hx
  have hx : X.fin soc = x := Option.some.inj hx
  rw [hst.1, hst.2, hb, ← hx, X.fin_div_fin (by norm_num), X.fin_le_fin, X.fin_le_fin]
  constructor
  · positivity
  · linarith

/-! ### C83: no exceptions -/

theorem easy_env_step (h : EasyOf w s0 a) (G : GoodSolvers w.sim a.env.sim) {y : EnvDyn K} (hy : a.env.dyn = some y)
    (hsoc : SocFin a.env.sim) (hclock : y.terminated = false → ∃ t : ℕ, t < 96 ∧ Clock a.env t) {u : List (X K)}
    (hu : a.env.actionSpace.contains u true) : ∃ e o, a.env.step (easyCtx w s0) u = .ok (e, o) ∧ SocFin e.sim := by
  refine C82_step_total (easy_ready h) G hsoc hy hu fun ht => ?_
  obtain ⟨t, _, y', hy', hl⟩ := hclock ht
  rw [hy] at hy'
  cases hy'
  obtain ⟨v, hv, xs, rfl, hx⟩ := easyNext_clock hl
  obtain ⟨c1, c2, c3, c4⟩ := easy_counts h
  refine ⟨xs ++ [.fin (((t + 1) % 96 : ℕ) : K)], a.env.rng, by simp only [easyCtx, hv, Except.map], ?_, ?_⟩
  · rw [c2, c3, easy_nAux h, List.length_append, ← hx.length_eq]
    rfl
  · intro x hm
    rcases List.mem_append.1 hm with hm | hm
    · obtain ⟨s, _, q, _, rfl⟩ := forall₂_mem_right hx hm
      exact ⟨_, rfl⟩
    · rw [List.mem_singleton.1 hm]
      exact ⟨_, rfl⟩

theorem anm6_step_date {c : EnvCtx K ρ} {a' : Anm6 K ρ} {u : List (X K)} {o : Env.StepOut K} {d : ℤ}
    (h : a.step c u = .ok (a', o)) (hd : a'.date = some d) : 0 ≤ d ∧ d < 3652059 * dayMicros := by
  simp only [Anm6.step, bind_ok] at h
  obtain ⟨⟨e, o'⟩, h1, h2⟩ := h
  dsimp only at h2
  split at h2
  · simp only [dateAdd, bind_ok, guardE_ok, pure_ok, Prod.mk.injEq] at h2
    obtain ⟨_, ⟨_, h3, rfl⟩, rfl, rfl⟩ := h2
    cases hd
    exact h3
  · cases h2

theorem easyReset_date {c : EnvCtx K ρ} {g : Rng K ρ} {a' : Anm6 K ρ} {seed date : Option ℤ} {obs : List (X K)} {d : ℤ}
    (h : a.easyReset c g seed date = .ok (a', obs)) (hd : a'.date = some d) : 0 ≤ d ∧ d < 3652059 * dayMicros := by
  simp only [Anm6.easyReset, bind_ok] at h
  obtain ⟨⟨a1, o⟩, h1, h2⟩ := h
  dsimp only at h2
  split at h2
  · simp only [dateAdd, bind_ok, guardE_ok, pure_ok, Prod.mk.injEq] at h2
    obtain ⟨x, h5, t, h6, _, ⟨_, h3, rfl⟩, rfl, rfl⟩ := h2
    cases hd
    exact h3
  · cases h2

/-- What holds of every ANM6Easy environment that has been reset. -/
theorem easy_live (h : EasyOf w s0 a) (hg : Fair w.rng) (G : GoodSolvers w.sim (easySim : Sim K)) :
    GoodSolvers w.sim a.env.sim ∧ ∀ y, a.env.dyn = some y → SocFin a.env.sim ∧
      (y.terminated = false → ∃ t : ℕ, t < 96 ∧ Clock a.env t) ∧
      ∃ d d0, a.date = some d ∧ a.dateInit = some d0 ∧ 0 ≤ d ∧ d < 3652059 * dayMicros := by
  refine ⟨⟨G.exact, G.sound, pfTotal_same (easy_sameConfig h) G.total⟩, ?_⟩
  induction h with
  | make h1 h2 =>
    intro y hy
    obtain ⟨e, m, n, h3, _, _, rfl⟩ := mkAnm6_ok h2
    rw [show ({ env := e, specs := n, tick := m * (60 * 1000000) } : Anm6 K ρ).env.dyn = none from (mkEnv_ok h3).dyn] at hy
    cases hy
  | @reset a a' seed date obs ha h1 ih =>
    intro y hy
    obtain ⟨e, d, r, y', x, t, h2, h3, h4, h5, h6, h7⟩ := easyReset_ok h1
    refine ⟨?_, fun _ => C56_reset hg ha h1, d + t, d + t, by rw [h7], by rw [h7], easyReset_date h1 (by rw [h7])⟩
    rw [h7]
    exact C82_reset_soc (e' := e) (easy_ready ha) (easy_socInit ha hg) h2
  | @step a a' u o ha h1 ih =>
    intro y' hy'
    obtain ⟨e, d, d0, h2, h3, h4, h5⟩ := anm6_step_ok h1
    obtain ⟨hu, hcase⟩ := step_ok h2
    have hy : ∃ y, a.env.dyn = some y := by
      cases hd : a.env.dyn with
      | some y => exact ⟨y, rfl⟩
      | none => simp [Env.step, hd, hu, guardE, Bind.bind, Except.bind] at h2
    obtain ⟨y, hy⟩ := hy
    obtain ⟨i1, i2, -⟩ := ih y hy
    obtain ⟨e', o', h6, h7⟩ := easy_env_step ha ⟨G.exact, G.sound, pfTotal_same (easy_sameConfig ha) G.total⟩ hy i1 i2 hu
    rw [h2] at h6
    cases h6
    refine ⟨by rw [h5]; exact h7, fun ht => ?_, d + a.tick, d0, by rw [h5], by rw [h5]; exact h4, anm6_step_date h1 (by rw [h5])⟩
    obtain ⟨y2, hy2, hflag⟩ := C46_flag h2
    have hy3 : e.dyn = some y' := by rw [h5] at hy'; exact hy'
    rw [hy3] at hy2
    cases hy2
    have hterm : y.terminated = false := by
      cases hb : y.terminated with
      | false => rfl
      | true =>
        have := (C46_terminal_step (c := easyCtx w s0) hy hb u).1 hu
        rw [h2] at this
        cases this
        rw [hy] at hy3
        cases hy3
        rw [ht] at hb
        cases hb
    obtain ⟨t, _, hc⟩ := i2 hterm
    exact ⟨(t + 1) % 96, Nat.mod_lt _ (by norm_num), easy_next_step ha hc h1 (hflag ▸ ht)⟩

/-- **C83, step.** In an ANM6Easy environment that has been reset, `step` raises no exception for any action
of the action space, except `OverflowError` when the date would pass the end of year 9999. -/
theorem C83_step (h : EasyOf w s0 a) (hg : Fair w.rng) (G : GoodSolvers w.sim (easySim : Sim K)) {y : EnvDyn K}
    (hy : a.env.dyn = some y) {u : List (X K)} (hu : easyActions.contains u true) :
    (∃ a' o, a.step (easyCtx w s0) u = .ok (a', o)) ∨
      (a.step (easyCtx w s0) u = .error .overflowError ∧
        ∃ d, a.date = some d ∧ 3652059 * dayMicros ≤ d + 15 * (60 * 1000000)) := by
  obtain ⟨G', hl⟩ := easy_live h hg G
  obtain ⟨h1, h2, d, d0, h3, h4, h5, h6⟩ := hl y hy
  rw [← (C83_spaces h).1] at hu
  obtain ⟨e, o, h7, -⟩ := easy_env_step h G' hy h1 h2 hu
  have ht := easy_tick h
  simp only [Anm6.step, h7, h3, h4, Bind.bind, Except.bind, dateAdd, guardE]
  by_cases hd : d + a.tick < 3652059 * dayMicros
  · left
    rw [if_pos ⟨by omega, hd⟩]
    exact ⟨_, _, rfl⟩
  · right
    rw [if_neg (fun h => hd h.2)]
    exact ⟨rfl, d, rfl, by omega⟩

/-- **C83, reset.** Resetting an ANM6Easy environment, to a date of years 1 to 9999 or to no date, raises no
exception, except `AttributeError` after 99 initial states for which the power flow does not converge,
and `OverflowError` if the requested date is in the last day of year 9999. -/
theorem C83_reset (h : EasyOf w s0 a) (hg : Fair w.rng) (G : GoodSolvers w.sim (easySim : Sim K)) (seed date : Option ℤ)
    (hdate : ∀ d, date = some d → 0 ≤ d ∧ d < 3652059 * dayMicros) :
    (∃ a' obs, a.easyReset (easyCtx w s0) w.rng seed date = .ok (a', obs)) ∨
      (a.easyReset (easyCtx w s0) w.rng seed date = .error .attributeError ∧
        Failing (easyCtx w s0) 99 a.env.sim ((seed.map w.seeded).getD a.env.rng)) ∨
      (a.easyReset (easyCtx w s0) w.rng seed date = .error .overflowError ∧
        ∃ d, date = some d ∧ 3652058 * dayMicros ≤ d) := by
  obtain ⟨G', -⟩ := easy_live h hg G
  have ht := easy_tick h
  rcases C82_reset_total (easy_ready h) G' (easy_finiteInit h hg) seed with ⟨e, obs, h1⟩ | ⟨h1, h2⟩
  · obtain ⟨y, v, r, hy, hv, -, hl⟩ := (C50_aux_flow (easy_env h)).1 _ _ h1
    obtain ⟨n, q2, q4, soc, hn, ⟨_, _, _, _, _, _, _, rfl⟩, -⟩ := C58_aux (simOf_mk (easy_sim h)) hg hv
    have hlast : pyGet y.state (-1) = .ok (.fin (n : K)) := by
      rw [pyGet_last]
      rw [easy_nAux h, lastN_one, lastN_one] at hl
      cases hx : y.state.getLast? with
      | none => rw [hx] at hl; cases hl
      | some x => rw [hx] at hl; simpa using hl
    have htd : timesDelta (.fin (n : K)) a.tick = .ok (n * a.tick) := by
      have : ((n : K) * (a.tick : K)) = ((n * a.tick : ℤ) : K) := by push_cast; rfl
      rw [timesDelta, this, roundEven_int]
    have hsd : ∃ d r', Anm6.startDate w.rng e.rng date = .ok (d, r') ∧ 0 ≤ d ∧
        (d < 3652058 * dayMicros ∨ date = some d) := by
      cases date with
      | some d => exact ⟨d, e.rng, rfl, (hdate d rfl).1, .inr rfl⟩
      | none =>
        obtain ⟨d, r', m, h6, ⟨h7, h8⟩⟩ := C60_random_date hg e.rng (y := 2020) (by norm_num) (by norm_num)
        have h9 : m < 366 := lt_of_lt_of_eq h7 (by decide +kernel)
        have h10 : daysBefore 2020 = 737424 := by decide +kernel
        have hdm : dayMicros = 24 * 60 * 60 * 1000000 := rfl
        rw [h10] at h8
        exact ⟨d, r', h6, by omega, .inl (by omega)⟩
    obtain ⟨d, r', hd1, hd2, hd3⟩ := hsd
    simp only [Anm6.easyReset, Anm6.reset, h1, hd1, hy, hlast, htd, Bind.bind, Except.bind, pure, Except.pure, dateAdd, guardE]
    rw [ht]
    by_cases hd : d + n * (15 * (60 * 1000000)) < 3652059 * dayMicros
    · left
      have : 0 ≤ d + n * (15 * (60 * 1000000)) := by omega
      rw [if_pos ⟨this, hd⟩]
      exact ⟨_, _, rfl⟩
    · right
      right
      rw [if_neg (fun h => hd h.2)]
      refine ⟨rfl, ?_⟩
      have hdm : dayMicros = 24 * 60 * 60 * 1000000 := rfl
      rcases hd3 with hd3 | rfl
      · omega
      · exact ⟨d, rfl, by omega⟩
  · right
    left
    exact ⟨by simp only [Anm6.easyReset, Anm6.reset, h1, Bind.bind, Except.bind], h2⟩

/-- **C83, episodes.** After a reset to a date that leaves enough time, every sequence of actions of the
action space can be played. -/
theorem C83_episode (hg : Fair w.rng) (G : GoodSolvers w.sim (easySim : Sim K)) (us : List (List (X K)))
    (hu : ∀ u ∈ us, easyActions.contains u true) :
    ∀ {a : Anm6 K ρ} {y : EnvDyn K} {d : ℤ}, EasyOf w s0 a → a.env.dyn = some y → a.date = some d →
      d + us.length * (15 * (60 * 1000000)) < 3652059 * dayMicros →
      ∃ os a', Anm6Episode (easyCtx w s0) a us os a' := by
  induction us with
  | nil => exact fun _ _ _ _ => ⟨[], _, .nil _⟩
  | cons u us ih =>
    intro a y d ha hy hd hlt
    rw [List.length_cons, Nat.cast_add, Nat.cast_one] at hlt
    rcases C83_step ha hg G hy (hu u (by simp)) with ⟨a1, o, h1⟩ | ⟨-, d', hd', h1⟩
    · obtain ⟨e, d1, d0, h2, h3, h4, h5⟩ := anm6_step_ok h1
      obtain ⟨y1, hy1, -⟩ := C46_flag h2
      rw [hd] at h3
      cases h3
      have ht := easy_tick ha
      obtain ⟨os, a', he⟩ := ih (fun u h => hu u (by simp [h])) (ha.step h1) (y := y1) (d := d + a.tick)
        (by rw [h5]; exact hy1) (by rw [h5]) (by rw [ht]; omega)
      exact ⟨o :: os, a', .cons h1 he⟩
    · rw [hd] at hd'
      cases hd'
      omega

end
end Anm
