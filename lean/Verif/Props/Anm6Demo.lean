import Verif.Props.Anm6
import Verif.Props.EnvDemo

/-! # An execution of ANM6Easy over the rationals

Cases that meet the hypotheses of the theorems about ANM6Easy. -/

namespace Anm

open Spec

/-- A generator whose state is a number: integers depend on it, reals are the middle of the interval. -/
def countRng : Rng ℚ ℕ where
  integers := fun r lo hi => (lo + (r : ℤ) % (hi - lo), r + 1)
  uniform := fun r lo hi => ((lo + hi) / .fin 2, r + 1)

theorem fair_count : Fair countRng where
  integers := by
    intro r lo hi h
    have h1 := Int.emod_nonneg (r : ℤ) (show hi - lo ≠ 0 by omega)
    have h2 := Int.emod_lt_of_pos (r : ℤ) (show 0 < hi - lo by omega)
    simp only [countRng]
    omega
  uniform := by
    intro r lo hi h
    refine ⟨(lo + hi) / 2, ?_, by linarith, by linarith⟩
    simp only [countRng, X.fin_add_fin]
    rw [X.fin_div_fin (by norm_num)]

/-- ANM6Easy with the solvers of `EnvDemo` and this generator. -/
def easyWorld : EasyWorld ℚ ℕ where
  sim := ⟨demoQP, envPF, 22/7⟩
  box := fun _ _ => .ok ()
  seeded := fun n => n.toNat
  fresh := 0
  rng := countRng

/-- Make an environment, reset it, and do two steps. -/
def easyRun : Except PyErr (Sim ℚ × Anm6 ℚ ℕ × Anm6 ℚ ℕ × Anm6 ℚ ℕ × Anm6 ℚ ℕ × List (Env.StepOut ℚ)) := do
  let s0 ← mkSim anm6Net (.fin (1/4)) (.fin 100)
  let a ← mkAnm6 (easyCtx easyWorld s0) easyArgs
  let (a1, _) ← a.easyReset (easyCtx easyWorld s0) countRng (some 94) none
  let (a2, o1) ← a1.step (easyCtx easyWorld s0) ([0, 30, 0, 0, -5, 0].map .fin)
  let (a3, o2) ← a2.step (easyCtx easyWorld s0) ([0, 40, 0, 0, 1, 0].map .fin)
  pure (s0, a, a1, a2, a3, [o1, o2])

theorem easyRun_ok : ∃ r, easyRun = .ok r ∧ (∀ o ∈ r.2.2.2.2.2, o.terminated = false) ∧
    (∃ y, r.2.2.1.env.dyn = some y ∧ y.state.getLast? = some (.fin 94)) ∧
    (∃ y, r.2.2.2.2.1.env.dyn = some y ∧ y.state.getLast? = some (.fin 0)) ∧
    r.2.2.1.date = some 63722071800000000 ∧ r.2.2.2.2.1.date = some 63722073600000000 := by
  have h : ∃ r, easyRun = .ok r ∧ ((∀ o ∈ r.2.2.2.2.2, o.terminated = false) ∧
      (r.2.2.1.env.dyn.bind fun y => y.state.getLast?) = some (.fin 94) ∧
      (r.2.2.2.2.1.env.dyn.bind fun y => y.state.getLast?) = some (.fin 0) ∧
      r.2.2.1.date = some 63722071800000000 ∧ r.2.2.2.2.1.date = some 63722073600000000) :=
    exOk (by decide +kernel)
  obtain ⟨r, h1, h2, h3, h4, h5⟩ := h
  exact ⟨r, h1, h2, Option.bind_eq_some_iff.1 h3, Option.bind_eq_some_iff.1 h4, h5⟩

/-- The hypotheses of `C56_clock`, `C59_calendar_easy` and `C77_time_of_day` hold for an episode of two
steps that starts at 23:30 and passes midnight. -/
theorem easyRun_case : ∃ s0 a a1 obs us os a', Fair easyWorld.rng ∧ EasyOf easyWorld s0 a ∧
    a.easyReset (easyCtx easyWorld s0) easyWorld.rng (some 94) none = .ok (a1, obs) ∧ Clock a1.env 94 ∧
    Anm6Episode (easyCtx easyWorld s0) a1 us os a' ∧ us.length = 2 ∧ (∀ o ∈ os, o.terminated = false) ∧
    Clock a'.env 0 := by
  obtain ⟨⟨s0, a, a1, a2, a3, os⟩, h, ho, hc1, hc3, -⟩ := easyRun_ok
  simp only [easyRun, bind_ok, pure_ok, Prod.mk.injEq] at h
  obtain ⟨s0', h0, a', h1, ⟨a1', obs⟩, h2, ⟨a2', o1⟩, h3, ⟨a3', o2⟩, h4, rfl, rfl, rfl, rfl, rfl, rfl⟩ := h
  refine ⟨_, _, _, _, _, _, _, fair_count, .make h0 h1, h2, ?_, .cons h3 (.cons h4 (.nil _)), rfl, ho, ?_⟩
  · simpa [Clock] using hc1
  · simpa [Clock] using hc3

/-- The conclusion of `C77_time_of_day` in this case. -/
example : ∃ (t : ℕ) (d : ℤ) (a' : Anm6 ℚ ℕ), Clock a'.env t ∧ a'.date = some d ∧
    d % (24 * 3600 * 1000000) = t * (15 * 60 * 1000000) := by
  obtain ⟨s0, a, a1, obs, us, os, a', h1, h2, h3, h4, h5, h6, h7, h8⟩ := easyRun_case
  obtain ⟨t, d, _, hc, hd, he⟩ := C77_time_of_day h1 h2 h3 (by simp) h5 h7
  exact ⟨t, d, a', hc, hd, he⟩

/-- The hypotheses of `C58_initial_state_partial` and `C58_counterexample`. -/
example : ∃ s v r, SimOf anm6Net (.fin (1/4)) (.fin 100) s ∧ Fair countRng ∧
    easyInit countRng s 50 = .ok (v, r) ∧ v[14]? = some (.fin (1/2)) := by
  have h : ∃ r, (do
      let s ← mkSim anm6Net (.fin (1/4)) (.fin 100)
      let (v, r) ← easyInit countRng s 50
      pure (s, v, r)) = .ok r ∧ r.2.1[14]? = some (.fin (1/2)) := exOk (by decide +kernel)
  obtain ⟨⟨s, v, r⟩, h, hv⟩ := h
  simp only [bind_ok, pure_ok, Prod.mk.injEq] at h
  obtain ⟨s', h1, ⟨v', r'⟩, h2, rfl, rfl, rfl⟩ := h
  exact ⟨_, _, _, simOf_mk h1, fair_count, h2, hv⟩

end Anm
