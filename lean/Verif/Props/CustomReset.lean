import Verif.Props.SimpleGrid
import Verif.Props.ExampleClock

/-!
# C157: the six-bus example can be reset

`examples/custom_anm6.py` draws its initial state at random in `[0, 1)`, whatever the network. With exactly solved linear systems and
projections the powers of the buses are then so small that the load flow converges, so that every reset succeeds at the first draw.
-/

namespace Anm

open Spec Complex ComplexConjugate Radial

noncomputable section

/-- A point closest to a small one in a region with the origin is small. -/
theorem closest_small {C : ℝ → ℝ → Prop} {p q x y : ℝ} (h0 : C 0 0) (h : ClosestIn C (p / 100) (q / 100) x y) (hp : 0 ≤ p ∧ p ≤ 1)
    (hq : 0 ≤ q ∧ q ≤ 1) : |x| ≤ 3/100 ∧ |y| ≤ 3/100 := by
  have h1 := h.2 0 0 h0
  simp only [sqDist] at h1
  have h2 : (0 - p / 100) ^ 2 ≤ (1/100) ^ 2 := by nlinarith [hp.1, hp.2]
  have h3 : (0 - q / 100) ^ 2 ≤ (1/100) ^ 2 := by nlinarith [hq.1, hq.2]
  have h4 : |x - p / 100| ≤ 2/100 := abs_le_of_sq_le_sq (by nlinarith [sq_nonneg (y - q / 100)]) (by norm_num)
  have h5 : |y - q / 100| ≤ 2/100 := abs_le_of_sq_le_sq (by nlinarith [sq_nonneg (x - p / 100)]) (by norm_num)
  rw [abs_le] at h4 h5 ⊢
  rw [abs_le]
  obtain ⟨hp1, hp2⟩ := hp
  obtain ⟨hq1, hq2⟩ := hq
  refine ⟨⟨?_, ?_⟩, ?_, ?_⟩ <;> linarith [h4.1, h4.2, h5.1, h5.2]

/-- The arguments of a transition in which every number is in `[0, 1]`. -/
structure Spec.UnitArgs (a : Sim.Args ℝ) : Prop where
  load : ∀ i ∈ [(1 : ℤ), 3, 5], ∃ x : ℝ, a.pLoad.get? i = some (.fin x) ∧ 0 ≤ x ∧ x ≤ 1
  pot : ∀ i ∈ [(2 : ℤ), 4], ∃ x : ℝ, a.pPot.get? i = some (.fin x) ∧ 0 ≤ x ∧ x ≤ 1
  set : ∀ i ∈ [(2 : ℤ), 4, 6], ∃ x y : ℝ, a.pSet.get? i = some (.fin x) ∧ a.qSet.get? i = some (.fin y) ∧ (0 ≤ x ∧ x ≤ 1) ∧ 0 ≤ y ∧ y ≤ 1

/-- The arguments that a reset takes from a vector with entries in `[0, 1]`. -/
theorem unit_args {s : Sim ℝ} {a : Sim.Args ℝ} {v : List (X ℝ)} (hs : SimOf anm6Net (.fin (1/4)) (.fin 100) s) (hc : SameConfig easySim s)
    (hv : ∀ x ∈ v, ∃ y : ℝ, x = .fin y ∧ 0 ≤ y ∧ y ≤ 1)
    (ha : Sim.resetArgs (Sim.slice v 0 s.nDevice) (Sim.slice v s.nDevice (2 * s.nDevice))
      (Sim.slice v (2 * s.nDevice + s.nDes) (2 * s.nDevice + s.nDes + s.nNonSlackGen)) s.devices 0 0
      { pLoad := [], pPot := [], pSet := [], qSet := [] } = .ok a) : UnitArgs a := by
  have hget : ∀ {a b k : ℕ} {x : X ℝ}, (Sim.slice v a b)[k]? = some x → ∃ y : ℝ, x = .fin y ∧ 0 ≤ y ∧ y ≤ 1 := fun h =>
    hv _ (List.mem_of_getElem? (slice_get h).1)
  have E := (resetArgs_ok (simOf_sorted hs) ha).2
  obtain ⟨d0, d1, d2, d3, d4, d5, d6, hds, m0, m1, m2, m3, m4, m5, m6⟩ := easy_devices hc
  rw [hds] at E
  have load : ∀ (k : ℕ) (d : Device ℝ) (i : ℤ), [d0, d1, d2, d3, d4, d5, d6][k]? = some d → d.isLoad = true → d.id = i →
      ∃ x : ℝ, a.pLoad.get? i = some (.fin x) ∧ 0 ≤ x ∧ x ≤ 1 := by
    rintro k d i hk hl rfl
    obtain ⟨x, hx, hx'⟩ := (E k d hk).load hl
    obtain ⟨y, rfl, h1⟩ := hget hx
    exact ⟨y, hx', h1⟩
  have pot : ∀ (k : ℕ) (d : Device ℝ) (i : ℤ), [d0, d1, d2, d3, d4, d5, d6][k]? = some d → d.isNonSlackGen = true → d.id = i →
      ∃ x : ℝ, a.pPot.get? i = some (.fin x) ∧ 0 ≤ x ∧ x ≤ 1 := by
    rintro k d i hk hl rfl
    obtain ⟨x, hx, hx'⟩ := (E k d hk).pot (not_load_of_gen hl) hl
    obtain ⟨y, rfl, h1⟩ := hget hx
    exact ⟨y, hx', h1⟩
  have set : ∀ (k : ℕ) (d : Device ℝ) (i : ℤ), [d0, d1, d2, d3, d4, d5, d6][k]? = some d → d.isLoad = false →
      ((d.isGen || d.isStorage) && !d.isSlack) = true → d.id = i →
      ∃ x y : ℝ, a.pSet.get? i = some (.fin x) ∧ a.qSet.get? i = some (.fin y) ∧ (0 ≤ x ∧ x ≤ 1) ∧ 0 ≤ y ∧ y ≤ 1 := by
    rintro k d i hk hl hg rfl
    obtain ⟨x, y, hx, hy, hx', hy'⟩ := (E k d hk).set hl hg
    obtain ⟨x, rfl, h1⟩ := hget hx
    obtain ⟨y, rfl, h2⟩ := hget hy
    exact ⟨x, y, hx', hy', h1, h2⟩
  refine ⟨?_, ?_, ?_⟩ <;> simp only [List.forall_mem_cons, List.not_mem_nil, IsEmpty.forall_iff, implies_true, and_true]
  · exact ⟨load 1 d1 1 rfl (by rw [m1]; rfl) (by rw [m1]; rfl), load 3 d3 3 rfl (by rw [m3]; rfl) (by rw [m3]; rfl),
      load 5 d5 5 rfl (by rw [m5]; rfl) (by rw [m5]; rfl)⟩
  · exact ⟨pot 2 d2 2 rfl (by rw [m2]; rfl) (by rw [m2]; rfl), pot 4 d4 4 rfl (by rw [m4]; rfl) (by rw [m4]; rfl)⟩
  · exact ⟨set 2 d2 2 rfl (by rw [m2]; rfl) (by rw [m2]; rfl) (by rw [m2]; rfl), set 4 d4 4 rfl (by rw [m4]; rfl) (by rw [m4]; rfl) (by rw [m4]; rfl),
      set 6 d6 6 rfl (by rw [m6]; rfl) (by rw [m6]; rfl) (by rw [m6]; rfl)⟩

/-- The transition of the simulator of ANM6 with such arguments. -/
theorem unit_transition {o : LFOracle} (ho : ExactLF o) {qp : QP ℝ} (hq : QPExact qp) {pi : ℝ} {s s' : Sim ℝ} {a : Sim.Args ℝ}
    {out : Sim.TransOut ℝ} (hs : SimOf anm6Net (.fin (1/4)) (.fin 100) s) (hc : SameConfig easySim s) (hsoc : SocFin s) (ha : UnitArgs a)
    (h : s.transition ⟨qp, realPF o, pi⟩ a = .ok (s', out)) :
    out.converged = true ∧ ∃ V : Fin 6 → ℂ, Solved s' easyLines (atId V) ∧ ∀ k : Fin 5, 41/50 ≤ ‖V k.succ‖ ∧ ‖V k.succ‖ ≤ 59/50 := by
  obtain ⟨c0, c1, c2, c3, c4, c5, c6, hcs, -, -, -, -, -, -, k6⟩ := easy_devices hc
  obtain ⟨d0, d1, d2, d3, d4, d5, d6, hds, m0, m1, m2, m3, m4, m5, m6⟩ := easy_devices (sameConfig_trans hc (sameConfig_transition h))
  obtain ⟨AL, AP, AS⟩ := ha
  simp only [List.forall_mem_cons, List.not_mem_nil, IsEmpty.forall_iff, implies_true, and_true] at AL AP AS
  obtain ⟨L1, L3, L5⟩ := AL
  obtain ⟨⟨pot2, P2, P2', -⟩, ⟨pot4, P4, P4', -⟩⟩ := AP
  obtain ⟨⟨x2, y2, S2, T2, u2, v2⟩, ⟨x4, y4, S4, T4, u4, v4⟩, ⟨x6, y6, S6, T6, u6, v6⟩⟩ := AS
  have load : ∀ (d : Device ℝ) (i : ℤ), d ∈ s'.devices → d.isLoad = true → d.isSlack = false → d.id = i → d.pMax = .fin 0 → d.qpRatio = .fin (1/5) →
      (∃ x : ℝ, a.pLoad.get? i = some (.fin x) ∧ 0 ≤ x ∧ x ≤ 1) → d.p = .fin (0 / 100) ∧ d.q = .fin (0 / 100) := by
    rintro d i hd hl hsl rfl hm hr ⟨x, hx, h0, -⟩
    obtain ⟨x', hx', -, hcut, -⟩ := C18_load_saturates anm6_clean hs h hd hl
    rw [hx] at hx'
    obtain rfl := Option.some.inj hx'
    have hp : d.p = .fin 0 := by
      rw [← hm]
      refine hcut ?_
      rw [hm, X.fin_div_fin (by norm_num), X.fin_le_fin]
      positivity
    refine ⟨by rw [hp, zero_div], ?_⟩
    rw [load_ratio h hd hl hsl, hp, hr]
    simp
  have i2 : d2.id = 2 := by rw [m2]; rfl
  have i4 : d4.id = 4 := by rw [m4]; rfl
  have i6 : d6.id = 6 := by rw [m6]; rfl
  have h2 := transition_gen (g := easyGen2) (pot := pot2) (p := x2) (q := y2) anm6_clean hs hq h (d := d2) (by rw [hds]; simp) (by rw [m2]; rfl)
    (by rw [m2]; exact ⟨rfl, rfl, rfl, rfl, rfl, rfl, rfl⟩) (by rw [i2]; exact P2) (by rw [i2]; exact S2) (by rw [i2]; exact T2)
  have h4 := transition_gen (g := easyGen4) (pot := pot4) (p := x4) (q := y4) anm6_clean hs hq h (d := d4) (by rw [hds]; simp) (by rw [m4]; rfl)
    (by rw [m4]; exact ⟨rfl, rfl, rfl, rfl, rfl, rfl, rfl⟩) (by rw [i4]; exact P4) (by rw [i4]; exact S4) (by rw [i4]; exact T4)
  obtain ⟨z, hz, z1, z2⟩ := hsoc c6 (by rw [hcs]; simp) (by rw [k6]; rfl)
  rw [show c6.socMin = .fin 0 by rw [k6]; rfl] at z1
  rw [show c6.socMax = .fin 1 by rw [k6]; rfl] at z2
  have z1' : 0 ≤ z := by simpa using z1
  have z2' : z ≤ 1 := by simpa using z2
  have h6 := transition_des (g := easyDes) (p := x6) (q := y6) anm6_clean hs (by norm_num) hq h (d := d6) (by rw [hds]; simp) (by rw [m6]; rfl)
    (by rw [m6]; exact ⟨rfl, rfl, rfl, rfl, rfl, rfl, rfl, rfl, rfl, rfl, rfl⟩) (by norm_num [easyDes]) (d0 := c6) (by rw [hcs]; simp)
    (by rw [i6, k6]; rfl) hz (by rw [i6]; exact S6) (by rw [i6]; exact T6)
  obtain ⟨-, p2, q2, e2, f2, g2⟩ := h2
  obtain ⟨-, p4, q4, e4, f4, g4⟩ := h4
  obtain ⟨-, p6, q6, e6, f6, g6⟩ := h6
  have b2 := closest_small (easyGen2_region' le_rfl (by norm_num) (le_min (le_max_left _ _) (by norm_num [easyGen2])) (by norm_num)) g2 u2 v2
  have b4 := closest_small (easyGen4_region' le_rfl (by norm_num) (le_min (le_max_left _ _) (by norm_num [easyGen4])) (by norm_num)) g4 u4 v4
  have b6 := closest_small (easyDes_region (by norm_num) (by norm_num) (by linarith) (by linarith)) g6 u6 v6
  have J : Injects s' (powers 0 (100 * p2) 0 (100 * p4) 0 (100 * p6)) (powers 0 (100 * q2) 0 (100 * q4) 0 (100 * q6)) d0 d1 d2 d3 d4 d5 d6 := by
    have hm : ∀ x : ℝ, 100 * x / 100 = x := fun x => by ring
    refine ⟨hds, ⟨by rw [m0]; rfl, by rw [m1]; rfl, by rw [m2]; rfl, by rw [m3]; rfl, by rw [m4]; rfl, by rw [m5]; rfl, by rw [m6]; rfl⟩, ?_, ?_, ?_, ?_, ?_, ?_⟩ <;>
      simp only [powers, List.getD_cons_succ, List.getD_cons_zero, hm]
    · exact load d1 1 (by rw [hds]; simp) (by rw [m1]; rfl) (by rw [m1]; rfl) (by rw [m1]; rfl) (by rw [m1]; rfl) (by rw [m1]; rfl) L1
    · exact ⟨e2, f2⟩
    · exact load d3 3 (by rw [hds]; simp) (by rw [m3]; rfl) (by rw [m3]; rfl) (by rw [m3]; rfl) (by rw [m3]; rfl) (by rw [m3]; rfl) L3
    · exact ⟨e4, f4⟩
    · exact load d5 5 (by rw [hds]; simp) (by rw [m5]; rfl) (by rw [m5]; rfl) (by rw [m5]; rfl) (by rw [m5]; rfl) (by rw [m5]; rfl) L5
    · exact ⟨e6, f6⟩
  have nrm : ∀ {x y : ℝ}, |x| ≤ 3/100 ∧ |y| ≤ 3/100 → ‖(⟨(0 + 100 * x) / 100, (0 + 100 * y) / 100⟩ : ℂ)‖ ≤ 20/100 := by
    rintro x y ⟨hx, hy⟩
    rw [show (0 + 100 * x) / 100 = x by ring, show (0 + 100 * y) / 100 = y by ring]
    refine norm_le_sq (by norm_num) hy ?_
    rw [← sq_abs x]
    nlinarith [abs_nonneg x]
  obtain ⟨r1, V, r2, r3, -⟩ := C115_converges ho hs hc h J
    ⟨by simp [busInj, Complex.ext_iff], by simp [busInj, Complex.ext_iff], .inl ⟨by simpa [busInj, powers] using nrm b2,
      by simpa [busInj, powers] using nrm b4, by simpa [busInj, powers] using nrm b6⟩⟩
  exact ⟨r1, V, r2, r3⟩

/-- **C157, draws.** With exactly solved linear systems and projections, the load flow of the six-bus network converges at every initial
state with all its numbers in `[0, 1]`. -/
theorem C157_draw {o : LFOracle} (ho : ExactLF o) {qp : QP ℝ} (hq : QPExact qp) {pi : ℝ} {s s' : Sim ℝ} {v : List (X ℝ)} {conv : Bool}
    (hs : SimOf anm6Net (.fin (1/4)) (.fin 100) s) (hc : SameConfig easySim s) (hv : ∀ x ∈ v, ∃ y : ℝ, x = .fin y ∧ 0 ≤ y ∧ y ≤ 1)
    (h : s.reset ⟨qp, realPF o, pi⟩ v = .ok (s', conv)) :
    conv = true ∧ ∃ V : Fin 6 → ℂ, Solved s' easyLines (atId V) ∧ ∀ k : Fin 5, 41/50 ≤ ‖V k.succ‖ ∧ ‖V k.succ‖ ≤ 59/50 := by
  obtain ⟨a, ds, ds', s1, out, I, rfl⟩ := reset_ok h
  obtain ⟨c1, c2, -, c4, -⟩ := resetSoc_fin anm6_clean hs (workable_same hc easy_workable)
    (resetArgs_finite anm6_clean hs (fun x hx => (hv x hx).imp fun _ h => h.1) I.args) I.soc
  obtain ⟨r1, V, r2, r3⟩ := unit_transition ho hq c2 (sameConfig_trans hc c1) c4 (unit_args hs hc hv I.args) I.trans
  refine ⟨r1, V, ?_, r3⟩
  obtain ⟨st, -, rfl⟩ := I.result
  exact ⟨r2.ref, r2.v, r2.i, r2.slack, r2.flow⟩

variable {ρ : Type} {w : ExampleWorld ℝ ρ} {a : Anm6 ℝ ρ}

/-- **C157.** With exactly solved linear systems, every reset of the environment of `examples/custom_anm6.py` succeeds, with the first
initial state drawn. -/
theorem C157_reset {o : LFOracle} (ho : ExactLF o) (hw : w.sim.pf = realPF o) (hn : FairNumpy w.np) (hg : Fair w.rng)
    (ha : CustomOf w easySim a) (G : GoodSolvers w.sim (easySim : Sim ℝ)) (seed date : Option ℤ) :
    ∃ (a' : Anm6 ℝ ρ) (obs : List (X ℝ)) (d : ℤ) (y : EnvDyn ℝ) (V : Fin 6 → ℂ),
      a.reset (customCtx w easySim) w.rng seed date = .ok (a', obs) ∧
      a.env.sim.reset w.sim (customInit w.np easySim ((seed.map w.seeded).getD a.env.rng)).1 = .ok (a'.env.sim, true) ∧
      a'.date = some d ∧ (date = none → 0 ≤ d ∧ d < 737791 * dayMicros) ∧ a'.env.dyn = some y ∧ y.terminated = false ∧
      Solved a'.env.sim easyLines (atId V) ∧ ∀ k : Fin 5, 41/50 ≤ ‖V k.succ‖ ∧ ‖V k.succ‖ ≤ 59/50 := by
  have hw' : w.sim = ⟨w.sim.qp, realPF o, w.sim.pi⟩ := by rw [← hw]
  have first : ∀ {r : ρ} {s' : Sim ℝ} {ok : Bool}, a.env.sim.reset w.sim (customInit w.np easySim r).1 = .ok (s', ok) →
      ok = true ∧ ∃ V : Fin 6 → ℂ, Solved s' easyLines (atId V) ∧ ∀ k : Fin 5, 41/50 ≤ ‖V k.succ‖ ∧ ‖V k.succ‖ ≤ 59/50 := by
    intro r s' ok h2
    rw [hw'] at h2
    refine C157_draw ho G.exact (envOf_simOf (custom_env ha)) (custom_sameConfig ha) (fun x hx => ?_) h2
    simp only [customInit, List.mem_append, List.mem_singleton] at hx
    rcases hx with hx | rfl
    · obtain ⟨z, hz, h0, h1⟩ := (rands_spec hn _ r).2 x hx
      exact ⟨z, hz, h0, h1.le⟩
    · exact ⟨0, rfl, le_rfl, zero_le_one⟩
  rcases C100_custom_reset hn hg ha G seed date with ⟨a', obs, d, h, hd, hr⟩ | ⟨-, h⟩
  · obtain ⟨e, d', r, h1, -, rfl⟩ := anm6_reset_ok h
    obtain ⟨v, st, nw, I⟩ := env_reset_ok h1
    obtain ⟨r', hs, -⟩ := I.search
    rw [Env.search] at hs
    simp only [bind_ok, guardE_ok] at hs
    obtain ⟨⟨v1, r1⟩, g1, -, -, ⟨s1, ok⟩, g2, g3⟩ := hs
    have g1' := Except.ok.inj g1
    obtain rfl : (customInit w.np easySim ((seed.map w.seeded).getD a.env.rng)).1 = v1 := by
      rw [show customInit w.np easySim ((seed.map w.seeded).getD a.env.rng) = (v1, r1) from g1']
    obtain ⟨rfl, V, hV⟩ := first g2
    simp only [OfNat.ofNat_ne_zero, if_false, if_true, pure_ok, Prod.mk.injEq] at g3
    obtain ⟨rfl, rfl, rfl⟩ := g3
    exact ⟨_, obs, d, _, V, h, g2, hd, hr, by dsimp only; rw [I.result], rfl, hV⟩
  · exfalso
    cases h with
    | succ h1 h2 _ =>
      have h1 := congrArg Prod.fst (Except.ok.inj h1)
      dsimp only at h1
      rw [← show (customInit w.np easySim ((seed.map w.seeded).getD a.env.rng)).1 = _ from h1] at h2
      exact absurd (first h2).1 (by simp)

/-- **C157, script.** With exactly solved linear systems, `examples/custom_anm6.py` runs to its end: the environment is made, reset, and
makes every step, whatever the actions sampled. The same holds of any number of steps up to a year. -/
theorem C157_script {o : LFOracle} (ho : ExactLF o) (hw : w.sim.pf = realPF o) (hn : FairNumpy w.np) (hg : Fair w.rng)
    (hb : BoxTotal w.box) (G : GoodSolvers w.sim (easySim : Sim ℝ)) :
    ∃ a a1 obs, mkAnm6 (customCtx w easySim) customArgs = .ok a ∧ a.reset (customCtx w easySim) w.rng none none = .ok (a1, obs) ∧
      ∀ us : List (List (X ℝ)), us.length ≤ 35040 → (∀ u ∈ us, easyActions.contains u true) →
        ∃ os a', Anm6Episode (customCtx w easySim) a1 us os a' := by
  obtain ⟨a, h0⟩ := C100_custom_made hb
  have ha := CustomOf.make h0
  obtain ⟨a1, obs, d, y, -, h, -, hd, hr, hy, -⟩ := C157_reset ho hw hn hg ha G none none
  refine ⟨a, a1, obs, h0, h, fun us hl hu => ?_⟩
  obtain ⟨h2, h3⟩ := hr rfl
  have hdm : dayMicros = 24 * 60 * 60 * 1000000 := rfl
  exact C100_custom_episode hn G us hu (ha.reset h) hy hd h2 (by omega)

/-! ### Cases that meet the hypotheses -/

example : ∃ (a a' : Anm6 ℝ ℕ) (obs : List (X ℝ)), CustomOf (exactExamples exactOracle) easySim a ∧
    a.reset (customCtx (exactExamples exactOracle) easySim) (exactExamples exactOracle).rng (some 7) none = .ok (a', obs) := by
  obtain ⟨a, h0⟩ := C100_custom_made (w := exactExamples exactOracle) fun _ _ => rfl
  obtain ⟨a', obs, -, -, -, h, -⟩ := C157_reset exactOracle_exact rfl fair_midReal fair_real (.make h0) (C83_solvers exactOracle _) (some 7) none
  exact ⟨a, a', obs, .make h0, h⟩

example : ∃ a a1 obs, mkAnm6 (customCtx (exactExamples exactOracle) easySim) customArgs = .ok a ∧
    a.reset (customCtx (exactExamples exactOracle) easySim) (exactExamples exactOracle).rng none none = .ok (a1, obs) ∧
    ∀ us : List (List (X ℝ)), us.length ≤ 35040 → (∀ u ∈ us, easyActions.contains u true) →
      ∃ os a', Anm6Episode (customCtx (exactExamples exactOracle) easySim) a1 us os a' :=
  C157_script exactOracle_exact rfl fair_midReal fair_real (fun _ _ => rfl) (C83_solvers exactOracle _)

end

end Anm
