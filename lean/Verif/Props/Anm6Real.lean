import Verif.Props.Anm6Total
import Verif.Props.Projection
import Verif.Props.RealDemo

/-! # ANM6Easy over the reals, with the model of the Newton-Raphson load flow -/

namespace Anm

open Spec

noncomputable section

theorem easy_numbered : Numbered (easySim : Sim ℝ) 5 where
  ids := rfl
  pos := by norm_num
  slack := by
    intro b hb
    simp only [easySim, anm6Sim, List.map_cons, List.map_nil, List.mem_cons, List.not_mem_nil, or_false] at hb
    rcases hb with rfl | rfl | rfl | rfl | rfl | rfl <;> simp [busBounds, anm6Bus]

theorem easy_finiteLines : FiniteLines (easySim : Sim ℝ)
    [⟨0, 1, 36/10000, 1834/10000, 0, 1, 0⟩, ⟨1, 2, 3/100, 22/1000, 0, 1, 0⟩, ⟨1, 3, 307/10000, 621/10000, 0, 1, 0⟩,
     ⟨2, 4, 303/10000, 611/10000, 0, 1, 0⟩, ⟨2, 5, 159/10000, 502/10000, 0, 1, 0⟩] := by
  refine .cons rfl (.cons rfl (.cons rfl (.cons rfl (.cons rfl .nil))))

/-- The load flow of gym-anm raises no exception on the network of ANM6, and the projection can be computed
exactly: the assumptions about the solvers in C83 are met, whatever the linear solver returns. -/
theorem C83_solvers (o : LFOracle) (pi : ℝ) : GoodSolvers ⟨exactQP, realPF o, pi⟩ (easySim : Sim ℝ) :=
  ⟨C16_exact_solver_exists, exactQP_sound, realPF_total easy_numbered easy_finiteLines⟩

/-! ### A case that meets all hypotheses -/

/-- A load flow that always converges, to fixed values. -/
def calmPF : PF ℝ := fun _ =>
  let z : Phasor ℝ := ⟨.fin (1/10), 0, .fin (1/10), 0⟩
  .ok { v := fun _ => ⟨1, 0, 1, 0⟩, i := fun _ => z, slackP := .fin (1/10), slackQ := 0
        flow := fun _ => ⟨z, z, .fin (1/10), 0, .fin (-1/10), 0, .fin (1/10)⟩, stable := true }

/-- A generator whose state is a number: integers depend on it, reals are the middle of the interval. -/
def realRng : Rng ℝ ℕ where
  integers := fun r lo hi => (lo + (r : ℤ) % (hi - lo), r + 1)
  uniform := fun r lo hi => ((lo + hi) / .fin 2, r + 1)

theorem fair_real : Fair realRng where
  integers := by
    intro r lo hi h
    have h1 := Int.emod_nonneg (r : ℤ) (show hi - lo ≠ 0 by omega)
    have h2 := Int.emod_lt_of_pos (r : ℤ) (show 0 < hi - lo by omega)
    simp only [realRng]
    omega
  uniform := by
    intro r lo hi h
    refine ⟨(lo + hi) / 2, ?_, by linarith, by linarith⟩
    simp only [realRng, X.fin_add_fin]
    rw [X.fin_div_fin (by norm_num)]

def calmWorld : EasyWorld ℝ ℕ where
  sim := ⟨exactQP, calmPF, Real.pi⟩
  box := fun _ _ => .ok ()
  seeded := fun n => n.toNat
  fresh := 0
  rng := realRng

theorem calm_good : GoodSolvers calmWorld.sim (easySim : Sim ℝ) :=
  ⟨C16_exact_solver_exists, exactQP_sound, fun _ => ⟨_, rfl⟩⟩

/-- Simulators with this load flow always converge. -/
theorem calm_converges {s s' : Sim ℝ} {v : List (X ℝ)} {conv : Bool} (h : s.reset calmWorld.sim v = .ok (s', conv)) :
    conv = true := by
  obtain ⟨a, ds, ds', s1, out, I, rfl⟩ := reset_ok h
  obtain ⟨ds, o, J⟩ := transition_ok I.trans
  have h1 := J.solve.pf
  rw [J.converged]
  rw [show calmWorld.sim.pf = calmPF from rfl, calmPF] at h1
  rw [← Except.ok.inj h1]

/-- An environment is made and reset, to a date that leaves more than a year. -/
theorem calm_start : ∃ a a1 obs y d, EasyOf calmWorld easySim a ∧
    a.easyReset (easyCtx calmWorld easySim) calmWorld.rng (some 7) none = .ok (a1, obs) ∧
    a1.env.dyn = some y ∧ y.terminated = false ∧ a1.date = some d ∧
    d + 35040 * (15 * (60 * 1000000)) < 3652059 * dayMicros := by
  obtain ⟨a, -, ha⟩ := C83_made (w := calmWorld) fun _ _ => rfl
  rcases C83_reset ha fair_real calm_good (some 7) none (by simp) with ⟨a1, obs, h⟩ | ⟨-, h⟩ | ⟨-, d, h, -⟩
  · obtain ⟨e, d, r, y, x, t, h1, h2, h3, h4, h5, h6⟩ := easyReset_ok h
    refine ⟨a, a1, obs, y, d + t, ha, h, by rw [h6]; exact h3, ?_, by rw [h6], ?_⟩
    · obtain ⟨v, st, nw, I⟩ := env_reset_ok h1
      rw [I.result] at h3
      cases h3
      rfl
    · obtain ⟨n, hn, hc⟩ := C56_reset fair_real ha h
      obtain ⟨d2, r2, r3, g1, g2, g3, g4, g5⟩ := easy_start h hc
      have g6 : a1.date = some (d + t) := by rw [h6]
      rw [g3] at g6
      rw [← Option.some.inj g6, easy_tick ha]
      obtain ⟨d', r', m, h6, h7, h8⟩ := C60_random_date fair_real r2 (y := 2020) (by norm_num) (by norm_num)
      have g1 : randomDate realRng r2 ((2020 : ℕ) : ℤ) = .ok (d2, r3) := g1
      rw [h6] at g1
      cases g1
      have h9 : m < 366 := lt_of_lt_of_eq h7 (by decide +kernel)
      have h10 : daysBefore 2020 = 737424 := by decide +kernel
      have hdm : dayMicros = 24 * 60 * 60 * 1000000 := rfl
      rw [h10] at h8
      omega
  · cases h with
    | succ _ h2 _ => exact absurd (calm_converges h2) (by simp)
  · cases h

/-- All hypotheses of `C83_made`, `C83_reset`, `C83_step` and `C83_episode` are met: an environment is made
and reset, and every sequence of actions can be played for a year. -/
theorem calm_case : ∃ a a1 obs y d, EasyOf calmWorld easySim a ∧
    a.easyReset (easyCtx calmWorld easySim) calmWorld.rng (some 7) none = .ok (a1, obs) ∧
    a1.env.dyn = some y ∧ a1.date = some d ∧
    ∀ us : List (List (X ℝ)), us.length ≤ 35040 → (∀ u ∈ us, easyActions.contains u true) →
      ∃ os a', Anm6Episode (easyCtx calmWorld easySim) a1 us os a' := by
  obtain ⟨a, a1, obs, y, d, ha, h, hy, -, hd, hlt⟩ := calm_start
  refine ⟨a, a1, obs, y, d, ha, h, hy, hd, fun us hl hu => ?_⟩
  exact C83_episode fair_real calm_good us hu (ha.reset h) hy hd (by omega)

end

end Anm
