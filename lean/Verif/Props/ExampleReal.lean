import Verif.Props.ExampleClock

/-! # Cases that meet the hypotheses of C100 -/

namespace Anm
open Spec

noncomputable section

theorem simple_numbered : Numbered (simpleSim : Sim ℝ) 1 where
  ids := by rfl
  pos := le_refl 1
  slack := by
    intro b hb
    simp only [simpleSim, List.map_cons, List.map_nil, List.mem_cons, List.not_mem_nil, or_false] at hb
    rcases hb with rfl | rfl <;> simp [busBounds, anm6Bus]

theorem simple_finiteLines : FiniteLines (simpleSim : Sim ℝ) [⟨0, 1, 1/100, 1/10, 0, 1, 0⟩] := .cons rfl .nil

/-- The assumptions about the solvers in C100 are met by the load flow of gym-anm, whatever the linear solver
returns, and an exact projection. -/
theorem C100_simple_solvers (o : LFOracle) (pi : ℝ) : GoodSolvers ⟨exactQP, realPF o, pi⟩ (simpleSim : Sim ℝ) :=
  ⟨C16_exact_solver_exists, exactQP_sound, realPF_total simple_numbered simple_finiteLines⟩

/-- The middle of the unit interval. -/
def midReal : NumpyRandom ℝ ℕ where
  rand := fun r => (.fin (1/2), r + 1)
  randint := fun r lo hi => ((lo + hi) / 2, r + 1)

theorem fair_midReal : FairNumpy midReal where
  rand := fun _ => ⟨1/2, rfl, by norm_num, by norm_num⟩
  randint := by
    intro r lo hi h
    simp only [midReal]
    omega

/-- The solvers of `calmWorld`. -/
def calmExamples : ExampleWorld ℝ ℕ where
  sim := calmWorld.sim
  box := fun _ _ => .ok ()
  seeded := fun n => n.toNat
  fresh := 0
  rng := realRng
  np := midReal

/-- With a load flow that always converges no reset fails. -/
theorem calm_not_failing {ρ : Type} {c : EnvCtx ℝ ρ} (hc : c.sim = calmWorld.sim) {n : ℕ} {s : Sim ℝ} {r : ρ}
    (h : Failing c (n + 1) s r) : False := by
  cases h with
  | succ _ h2 _ =>
    rw [hc] at h2
    exact absurd (calm_converges h2) (by simp)

/-- The six-bus example: made, reset, then any number of steps. -/
theorem C100_custom_case : ∃ a a1 obs y d, CustomOf calmExamples easySim a ∧
    a.reset (customCtx calmExamples easySim) calmExamples.rng (some 7) none = .ok (a1, obs) ∧
    a1.env.dyn = some y ∧ a1.date = some d ∧
    ∀ us : List (List (X ℝ)), us.length ≤ 35040 → (∀ u ∈ us, easyActions.contains u true) →
      ∃ os a', Anm6Episode (customCtx calmExamples easySim) a1 us os a' := by
  obtain ⟨a, ha⟩ := C100_custom_made (w := calmExamples) fun _ _ => rfl
  have ha := CustomOf.make ha
  rcases C100_custom_reset fair_midReal fair_real ha calm_good (some 7) none with ⟨a1, obs, d, h, hd, hr⟩ | ⟨-, h⟩
  · obtain ⟨e, d', r, h1, _, rfl⟩ := anm6_reset_ok h
    obtain ⟨v, st, nw, I⟩ := env_reset_ok h1
    obtain ⟨y, hy⟩ : ∃ y, e.dyn = some y := ⟨_, by rw [I.result]⟩
    refine ⟨a, _, obs, y, d, ha, h, hy, hd, fun us hl hu => ?_⟩
    obtain ⟨h2, h3⟩ := hr rfl
    have hdm : dayMicros = 24 * 60 * 60 * 1000000 := rfl
    exact C100_custom_episode fair_midReal calm_good us hu (ha.reset h) hy hd h2 (by omega)
  · exact (calm_not_failing rfl h).elim

/-- The two-bus example: made, reset, then any number of steps. -/
theorem C100_simple_case : ∃ e e1 obs y, EnvOf (simpleCtx calmExamples simpleSim) simpleArgs e ∧
    e.reset (simpleCtx calmExamples simpleSim) (some 7) = .ok (e1, obs) ∧ e1.dyn = some y ∧
    ∀ n, ∃ os e', Episode (simpleCtx calmExamples simpleSim) e1 (List.replicate n []) os e' := by
  obtain ⟨e, h0⟩ := C100_simple_made (w := calmExamples) fun _ _ => rfl
  have he : EnvOf (simpleCtx calmExamples simpleSim) simpleArgs e := ⟨e, h0, .refl⟩
  have G : GoodSolvers calmExamples.sim (simpleSim : Sim ℝ) := ⟨C16_exact_solver_exists, exactQP_sound, fun _ => ⟨_, rfl⟩⟩
  rcases C100_simple_reset fair_midReal he G (some 7) with ⟨e1, obs, h⟩ | ⟨-, h⟩
  · obtain ⟨v, st, nw, I⟩ := env_reset_ok h
    obtain ⟨y, hy⟩ : ∃ y, e1.dyn = some y := ⟨_, by rw [I.result]⟩
    refine ⟨e, e1, obs, y, he, h, hy, fun n => ?_⟩
    exact C100_simple_episode fair_midReal G n (envOf_call he (.inl ⟨_, _, h⟩)) hy
  · exact (calm_not_failing rfl h).elim

end

end Anm
