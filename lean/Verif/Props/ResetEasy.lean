import Verif.Props.ResetState
import Verif.Props.EasyApplied
import Verif.Props.Curtail

/-! # C108 for ANM6Easy: the state after a reset is the one that was drawn -/

namespace Anm

open Spec

noncomputable section

variable {ρ : Type} {w : EasyWorld ℝ ρ} {s0 : Sim ℝ} {a a' : Anm6 ℝ ρ} {y : EnvDyn ℝ}

/-- The transition inside a reset. -/
theorem reset_inside {K : Type} [Field K] [LinearOrder K] [IsStrictOrderedRing K] [FloorRing K] {c : Ctx K} {s s' : Sim K} {n : Network K}
    {dt lam : X K} {init : List (X K)} {b : Bool} (hs : SimOf n dt lam s) (h : s.reset c init = .ok (s', b)) :
    ∃ (s0 s1 : Sim K) (a : Sim.Args K) (out : Sim.TransOut K), SimOf n dt lam s0 ∧ SameConfig s s0 ∧ s0.transition c a = .ok (s1, out) ∧
      b = out.converged ∧ List.Forall₂ (fun d d' : Device K => ∃ x, d' = { d with soc := x }) s1.devices s'.devices ∧
      s'.buses = s1.buses ∧ s'.branches = s1.branches := by
  obtain ⟨a, ds, ds', s1, out, I, hb⟩ := reset_ok h
  have c1 : SameConfig s { s with state := none, devices := ds } := by
    refine ⟨rfl, rfl, rfl, List.forall₂_same.2 fun _ _ => rfl, List.forall₂_same.2 fun _ _ => rfl, ?_⟩
    refine I.soc.imp fun d d' hd => ?_
    have := resetSoc_ok hd
    cases hs : d.isStorage with
    | false => rw [this.1 hs]; rfl
    | true => obtain ⟨p, _, rfl⟩ := this.2 hs; rfl
  have hs0 : SimOf n dt lam { s with state := none, devices := ds } := by
    obtain ⟨s00, h00, hc0⟩ := hs
    exact ⟨s00, h00, sameConfig_trans hc0 c1⟩
  obtain ⟨st, _, hres⟩ := I.result
  refine ⟨_, s1, a, out, hs0, c1, I.trans, hb, ?_, ?_, ?_⟩
  · rw [hres]; exact assignSoc_forall I.assign
  · rw [hres]
  · rw [hres]

theorem easyGen2_region' {pot p q : ℝ} (h1 : 0 ≤ p) (h2 : p ≤ 3/10) (h3 : p ≤ pot) (h4 : |q| ≤ 3/20) : GenRegion easyGen2 pot p q := by
  rw [abs_le] at h4
  constructor <;> (try simp only [easyGen2, lineAt])
  · exact h1
  · exact h2
  · exact h3
  · linarith
  · linarith
  · intro; norm_num; linarith
  · intro; norm_num; linarith

theorem easyGen4_region' {pot p q : ℝ} (h1 : 0 ≤ p) (h2 : p ≤ 1/2) (h3 : p ≤ pot) (h4 : |q| ≤ 1/5) : GenRegion easyGen4 pot p q := by
  rw [abs_le] at h4
  constructor <;> (try simp only [easyGen4, lineAt])
  · exact h1
  · exact h2
  · exact h3
  · linarith
  · linarith
  · intro; norm_num; linarith
  · intro; norm_num; linarith

/-- The devices after a reset of the simulator of ANM6 to an initial state as ANM6Easy draws it. -/
theorem easy_reset_core {c : Ctx ℝ} {s s' : Sim ℝ} {v : List (X ℝ)} {b : Bool} (hs : SimOf anm6Net (.fin (1/4)) (.fin 100) s)
    (hc : SameConfig easySim s) (hk : QPKeeps c.qp) (h : s.reset c v = .ok (s', b)) {t : ℕ} {q2 q4 soc : ℝ} (hv : InitialState t q2 q4 soc v)
    {l1 l3 l5 m2 m4 : ℚ} (T : TableAt t l1 l3 l5 m2 m4) (h4 : |q4| ≤ 20) :
    ∃ d0 d1 d2 d3 d4 d5 d6, (∀ x y : ℝ, d2.p = .fin (x / 100) → d2.q = .fin (y / 100) →
        Injects s' (powers l1 x l3 m4 l5 0) (powers (l1 / 5) y (l3 / 5) q4 (l5 / 5) 0) d0 d1 d2 d3 d4 d5 d6) ∧
      d6.soc = some (.fin (soc / 100)) ∧ d4.pPot = .fin ((m4 : ℝ) / 100) ∧
      (m2 ≤ 30 → |q2| ≤ 15 → d2.p = .fin ((m2 : ℝ) / 100) ∧ d2.q = .fin (q2 / 100) ∧ d2.pPot = .fin ((m2 : ℝ) / 100)) ∧
      (QPExact c.qp → 30 ≤ m2 → |q2| ≤ 15 → d2.p = .fin (30 / 100) ∧ d2.q = .fin (q2 / 100)) := by
  obtain ⟨B1, B3, B5, B2, B4⟩ := table_bounds T
  obtain ⟨p1, p3, p5, p2, p4, T1, T2, rfl⟩ := hv
  rw [T.loads] at T1
  rw [T.gens] at T2
  simp only [List.cons.injEq, Option.some.injEq, and_true] at T1 T2
  obtain ⟨rfl, rfl, rfl⟩ := T1
  obtain ⟨rfl, rfl⟩ := T2
  obtain ⟨c0, c1, c2, c3, c4, c5, c6, hcs, r0, r1, r2, r3, r4, r5, r6⟩ := easy_devices hc
  have hc' : SameConfig easySim s' := sameConfig_trans hc (sameConfig_reset h)
  obtain ⟨f0, f1, f2, f3, f4, f5, f6, hfs, k0, k1, k2, k3, k4, k5, k6⟩ := easy_devices hc'
  have a0 : c0.isSlack = true ∧ c0.kind = .classical := by rw [r0]; exact ⟨rfl, rfl⟩
  have a1 : c1.isSlack = false ∧ c1.kind = .load := by rw [r1]; exact ⟨rfl, rfl⟩
  have a2 : c2.isSlack = false ∧ c2.kind = .renewable := by rw [r2]; exact ⟨rfl, rfl⟩
  have a3 : c3.isSlack = false ∧ c3.kind = .load := by rw [r3]; exact ⟨rfl, rfl⟩
  have a4 : c4.isSlack = false ∧ c4.kind = .renewable := by rw [r4]; exact ⟨rfl, rfl⟩
  have a5 : c5.isSlack = false ∧ c5.kind = .load := by rw [r5]; exact ⟨rfl, rfl⟩
  have a6 : c6.isSlack = false ∧ c6.kind = .storage := by rw [r6]; exact ⟨rfl, rfl⟩
  have nD : s.nDevice = 7 := by rw [Sim.nDevice, hcs]; rfl
  have nS : s.nDes = 1 := by
    rw [Sim.nDes, hcs]; simp [a0, a1, a2, a3, a4, a5, a6, Device.isStorage]
  have g2 : ((s.devices.take 2).filter Device.isNonSlackGen).length = 0 := by
    rw [hcs]; simp [a0, a1, a2, a3, a4, a5, a6, Device.isNonSlackGen, Device.isGen]
  have g4 : ((s.devices.take 4).filter Device.isNonSlackGen).length = 1 := by
    rw [hcs]; simp [a0, a1, a2, a3, a4, a5, a6, Device.isNonSlackGen, Device.isGen]
  have g6 : ((s.devices.take 6).filter Device.isStorage).length = 0 := by
    rw [hcs]; simp [a0, a1, a2, a3, a4, a5, a6, Device.isStorage]
  have j1 : s'.devices[1]? = some f1 := by rw [hfs]; rfl
  have j2 : s'.devices[2]? = some f2 := by rw [hfs]; rfl
  have j3 : s'.devices[3]? = some f3 := by rw [hfs]; rfl
  have j4 : s'.devices[4]? = some f4 := by rw [hfs]; rfl
  have j5 : s'.devices[5]? = some f5 := by rw [hfs]; rfl
  have j6 : s'.devices[6]? = some f6 := by rw [hfs]; rfl
  have cast' : ∀ {x : ℚ}, x ≤ 0 → (x : ℝ) / 100 ≤ 0 := fun {x} h => by
    have : (x : ℝ) ≤ 0 := by exact_mod_cast h
    linarith
  have u1 : (-10 : ℝ) ≤ l1 := by exact_mod_cast B1.1
  have u3 : (-30 : ℝ) ≤ l3 := by exact_mod_cast B3.1
  have u5 : (-30 : ℝ) ≤ l5 := by exact_mod_cast B5.1
  have u2 : (0 : ℝ) ≤ m2 := by exact_mod_cast B2
  have u4 : (0 : ℝ) ≤ m4 := by exact_mod_cast B4.1
  have u4' : (m4 : ℝ) ≤ 50 := by exact_mod_cast B4.2
  have load : ∀ {f : Device ℝ} {k : ℕ} {l : ℚ} {lo : ℝ}, s'.devices[k]? = some f → f.isLoad = true → f.isStorage = false → f.isSlack = false →
      f.qpRatio = .fin (1/5) →
      ([0, (l1 : ℝ), m2, l3, m4, l5, 0, 0, l1 / 5, q2, l3 / 5, q4, l5 / 5, 0, soc, m2, m4, t].map X.fin)[k]? = some (.fin (l : ℝ)) →
      f.pMin = .fin lo → f.pMax = .fin 0 → lo ≤ l / 100 → (l : ℝ) / 100 ≤ 0 →
      f.p = .fin ((l : ℝ) / 100) ∧ f.q = .fin ((l : ℝ) / 5 / 100) := by
    intro f k l lo hf h1 hst h0 hr h3 h4 h5 h6 h7
    obtain ⟨e1, -⟩ := C108_load anm6_clean hs h hf h1 h3 (by rw [h4]; exact h6) (by rw [h5]; exact h7)
    refine ⟨e1, ?_⟩
    obtain ⟨_, s1, ar, out, _, _, w2, _, w4, _⟩ := reset_device hs h hf hst
    rw [load_ratio w2 w4 h1 h0, e1, hr, X.fin_mul_fin]
    congr 1
    ring
  have R1 := load (k := 1) (l := l1) j1 (by rw [k1]; rfl) (by rw [k1]; rfl) (by rw [k1]; rfl) (by rw [k1]; rfl) rfl (by rw [k1]; rfl) (by rw [k1]; rfl)
    (by linarith) (cast' B1.2)
  have R3 := load (k := 3) (l := l3) j3 (by rw [k3]; rfl) (by rw [k3]; rfl) (by rw [k3]; rfl) (by rw [k3]; rfl) rfl (by rw [k3]; rfl) (by rw [k3]; rfl)
    (by linarith) (cast' B3.2)
  have R5 := load (k := 5) (l := l5) j5 (by rw [k5]; rfl) (by rw [k5]; rfl) (by rw [k5]; rfl) (by rw [k5]; rfl) rfl (by rw [k5]; rfl) (by rw [k5]; rfl)
    (by linarith) (cast' B5.2)
  obtain ⟨P2, R2⟩ := C108_generator (g := easyGen2) (p := (m2 : ℝ)) (q := q2) (pot := (m2 : ℝ)) anm6_clean hs hk h j2 (by rw [k2]; rfl)
    (by rw [k2]; exact ⟨rfl, rfl, rfl, rfl, rfl, rfl, rfl⟩) rfl (by rw [nD]; rfl) (by rw [nD, nS, g2]; rfl)
  obtain ⟨P4, R4⟩ := C108_generator (g := easyGen4) (p := (m4 : ℝ)) (q := q4) (pot := (m4 : ℝ)) anm6_clean hs hk h j4 (by rw [k4]; rfl)
    (by rw [k4]; exact ⟨rfl, rfl, rfl, rfl, rfl, rfl, rfl⟩) rfl (by rw [nD]; rfl) (by rw [nD, nS, g4]; rfl)
  obtain ⟨P6, R6⟩ := C108_storage (g := easyDes) (p := 0) (q := 0) (soc := soc) anm6_clean hs (by norm_num) hk h j6 (by rw [k6]; rfl)
    (by rw [k6]; exact ⟨rfl, rfl, rfl, rfl, rfl, rfl, rfl, rfl, rfl, rfl, rfl⟩) (by norm_num [easyDes]) rfl (by rw [nD]; rfl)
    (by rw [nD, g6]; rfl)
  have ab : ∀ {x z : ℝ}, |x| ≤ z → |x / 100| ≤ z / 100 := by
    intro x z hx
    rw [abs_div, abs_of_pos (by norm_num : (0 : ℝ) < 100)]
    linarith
  have R4 := R4 (easyGen4_region' (by linarith) (by linarith) le_rfl (by have := ab h4; linarith))
  have R6 := R6 (by
    rw [zero_div]
    exact easyDes_region (by norm_num) (by norm_num) (by simp [easyDes]) (by simp [easyDes]))
  have P4 := P4 (by simp only [easyGen4]; linarith) (by simp only [easyGen4]; linarith)
  refine ⟨f0, f1, f2, f3, f4, f5, f6, fun x y e1 e2 => ⟨hfs, ?_, R1, ⟨e1, e2⟩, R3, R4, R5, R6⟩, P6, P4, fun hm h2 => ?_, fun hx hm h2 => ?_⟩
  · rw [k0, k1, k2, k3, k4, k5, k6]
    exact ⟨rfl, rfl, rfl, rfl, rfl, rfl, rfl⟩
  · have u2' : (m2 : ℝ) ≤ 30 := by exact_mod_cast hm
    have R2 := R2 (easyGen2_region' (by linarith) (by linarith) le_rfl (by have := ab h2; linarith))
    exact ⟨R2.1, R2.2, P2 (by simp only [easyGen2]; linarith) (by simp only [easyGen2]; linarith)⟩
  · have u2' : (30 : ℝ) ≤ m2 := by exact_mod_cast hm
    have hg2 : f2.isNonSlackGen = true := by rw [k2]; rfl
    obtain ⟨ns1, ns2, ns3⟩ := nonSlackGen_notSlack hg2
    obtain ⟨s0, s1, ar, out, d0, g1', g2', -, g4', -, -, -, g8, g9⟩ := reset_device hs h j2 ns3
    obtain ⟨x, y, i1, i2, i3, i4⟩ := g8 ns2 (by rw [k2]; rfl) ns1
    obtain ⟨z, i5, i6⟩ := g9 hg2
    rw [nD] at i2 i5
    rw [nS, g2] at i5
    cases i1
    cases i2
    cases i5
    obtain ⟨-, x, y, e1, e2, hcl, hmin⟩ := transition_gen (g := easyGen2) anm6_clean g1' hx g2' g4' hg2
      (by rw [k2]; exact ⟨rfl, rfl, rfl, rfl, rfl, rfl, rfl⟩) i6 i3 i4
    have h1 := hmin (3/10) (q2 / 100) (easyGen2_region' (by norm_num) (by norm_num)
      (by refine le_min (le_max_of_le_right (by linarith)) ?_; norm_num [easyGen2]) (by have := ab h2; linarith))
    have h3 : x ≤ 3/10 := by have := hcl.pHi; simpa [easyGen2] using this
    have h8 : (3/10 - x) ^ 2 + (y - q2 / 100) ^ 2 ≤ 0 := by
      have h9 : 0 ≤ ((m2 : ℝ) / 100 - 3/10) * (3/10 - x) := mul_nonneg (by linarith) (by linarith)
      unfold sqDist at h1
      nlinarith
    have h5 : x = 3/10 := by
      have := pow_eq_zero_iff (two_ne_zero) |>.1 (le_antisymm (by linarith [sq_nonneg (y - q2 / 100)] : (3/10 - x) ^ 2 ≤ 0) (sq_nonneg _))
      linarith
    have h7 : y = q2 / 100 := by
      have := pow_eq_zero_iff (two_ne_zero) |>.1 (le_antisymm (by linarith [sq_nonneg (3/10 - x)] : (y - q2 / 100) ^ 2 ≤ 0) (sq_nonneg _))
      linarith
    rw [e1, e2, h5, h7]
    norm_num

/-- **C108 for ANM6.** A reset of the simulator of ANM6 to an initial state as ANM6Easy draws it gives the devices exactly
the powers and the energy of this state, if the maximum production of generator 2 does not exceed its rating. -/
theorem C108_easy {c : Ctx ℝ} {s s' : Sim ℝ} {v : List (X ℝ)} {b : Bool} (hs : SimOf anm6Net (.fin (1/4)) (.fin 100) s)
    (hc : SameConfig easySim s) (hk : QPKeeps c.qp) (h : s.reset c v = .ok (s', b)) {t : ℕ} {q2 q4 soc : ℝ} (hv : InitialState t q2 q4 soc v)
    {l1 l3 l5 m2 m4 : ℚ} (T : TableAt t l1 l3 l5 m2 m4) (h2 : |q2| ≤ 15) (h4 : |q4| ≤ 20) (hm : m2 ≤ 30) :
    ∃ d0 d1 d2 d3 d4 d5 d6, Injects s' (powers l1 m2 l3 m4 l5 0) (powers (l1 / 5) q2 (l3 / 5) q4 (l5 / 5) 0) d0 d1 d2 d3 d4 d5 d6 ∧
      d6.soc = some (.fin (soc / 100)) ∧ d2.pPot = .fin ((m2 : ℝ) / 100) ∧ d4.pPot = .fin ((m4 : ℝ) / 100) := by
  obtain ⟨d0, d1, d2, d3, d4, d5, d6, J, e6, e4, e2, -⟩ := easy_reset_core hs hc hk h hv T h4
  obtain ⟨x1, x2, x3⟩ := e2 hm h2
  exact ⟨d0, d1, d2, d3, d4, d5, d6, J _ _ x1 x2, e6, x3, e4⟩

/-- The state drawn by a reset of ANM6Easy, and the reset of the simulator to it. -/
theorem easy_reset_sim (ha : EasyOf w s0 a) {seed date : Option ℤ} {obs : List (X ℝ)}
    (h : a.easyReset (easyCtx w s0) w.rng seed date = .ok (a', obs)) :
    ∃ s1 v r1 r', SimOf anm6Net (.fin (1/4)) (.fin 100) s1 ∧ SameConfig easySim s1 ∧ easyInit w.rng s0 r1 = .ok (v, r') ∧
      s1.reset w.sim v = .ok (a'.env.sim, true) ∧ ∃ y, a'.env.dyn = some y ∧ y.terminated = false ∧ y.state.getLast? = v.getLast? := by
  obtain ⟨e, d, r, y, x, t, h1, h2, h3, h4, h5, rfl⟩ := easyReset_ok h
  obtain ⟨v, st, nw, I⟩ := env_reset_ok h1
  have hd : e.dyn = some { terminated := false, timestep := 0, eLoss := 0, penalty := 0, state := st } := by
    rw [I.result]
  obtain ⟨r', hs, hr⟩ := I.search
  obtain ⟨s1, r2, k1, k2, k3, k4⟩ := search_ok hs
  have hc1 := sameConfig_history k1
  have hs1 : SimOf anm6Net (.fin (1/4)) (.fin 100) s1 := by
    obtain ⟨s2, g1, g2⟩ := envOf_simOf (easy_env ha)
    exact ⟨s2, g1, sameConfig_trans g2 hc1⟩
  refine ⟨s1, v, r2, r', hs1, sameConfig_trans (easy_sameConfig ha) hc1, k2, k4, _, hd, rfl, ?_⟩
  obtain ⟨full, f1, f2⟩ := call_state (.inr ⟨_, _, k4⟩ : Call w.sim s1 e.sim)
  have he' := envOf_call (easy_env ha) (.inl ⟨seed, obs, h1⟩)
  have hse := sameEnv_call (.inl ⟨seed, obs, h1⟩ : EnvCall (easyCtx w s0) a.env e)
  have hst := I.state
  rw [← hse.stateValues, envOf_stateValues he'] at hst
  obtain ⟨st', p, q, soc, g, -, rfl, -⟩ := extract_layout f1 f2 (by rw [k3, hse.nAux, Env.initSize]; omega) hst
  rw [hse.nAux, easy_nAux ha, lastN_one]
  cases hv : v.getLast? with
  | none =>
    rw [List.getLast?_eq_none_iff] at hv
    rw [hv, Env.initSize, easy_nAux ha] at k3
    simp at k3
  | some z => simp

end

end Anm
