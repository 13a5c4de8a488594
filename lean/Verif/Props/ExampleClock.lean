import Verif.Props.Examples
import Verif.Props.EnvObs
import Verif.Props.Anm6Demo
import Verif.Props.Anm6Real

/-! # C101: the time of day in the six-bus example; cases that meet the hypotheses of C100 -/

set_option linter.unusedSectionVars false

namespace Anm

open Spec

section
variable {K ρ : Type} [Field K] [LinearOrder K] [IsStrictOrderedRing K] [FloorRing K]
  {w : ExampleWorld K ρ}

theorem custom_obsValues {a : Anm6 K ρ} (h : CustomOf w easySim a) :
    a.env.obsValues = some (stateReadings (easySim : Sim K) 1) := by
  obtain ⟨e0, I, hs, -, -⟩ := envOf_inv (custom_env h)
  have h4 := I.obsValues
  have h1 := I.sim
  rw [show mkSim (customArgs (K := K)).network customArgs.deltaT customArgs.lamb = .ok easySim from anm6_mk _ _] at h1
  rw [show (customArgs (K := K)).observation = .state from rfl, obsValues, I.stateValues, Except.ok.injEq] at h4
  rw [hs.obsValues, ← h4, ← Except.ok.inj h1, I.nAux]
  rfl

/-- The last component of an observation, from the time of day. -/
theorem observed_clock {a : Anm6 K ρ} (h : CustomOf w easySim a) {obs : List (X K)} (ho : Observed a.env obs) {t : ℕ}
    (hc : Clock a.env t) : obs.getLast? = some (.fin ((min t 10 : ℕ) : K)) := by
  obtain ⟨b, vs, st, y, h1, h2, h3, h4, l1, l2, l3, hv⟩ := ho
  obtain ⟨y', hy', hl⟩ := hc
  rw [h4] at hy'
  cases hy'
  rw [(C100_custom_spaces h).2] at h1
  rw [custom_obsValues h] at h2
  cases h1
  cases h2
  have hlen : obs.length = 18 := l1
  obtain ⟨o, ho⟩ : ∃ o, obs[17]? = some o := ⟨_, List.getElem?_eq_getElem (by omega)⟩
  have hr : ReadsAs st y.state a.env.nAux (.aux, .none, .node ((0 : ℕ) : ℤ)) (.fin (t : K)) := by
    refine .inr ⟨rfl, 0, rfl, ?_⟩
    rw [custom_nAux h, lastN_one, hl]
    rfl
  obtain ⟨-, hx⟩ := hv 17 (.aux, .none, .node ((0 : ℕ) : ℤ)) o (.fin 0) (.fin 10) rfl ho rfl rfl
  obtain ⟨i1, i2, i3⟩ := hx _ hr
  rw [List.getLast?_eq_getElem?, hlen, ho]
  congr 1
  rcases le_total t 10 with ht | ht
  · rw [min_eq_left ht]
    refine i1 ?_ ?_
    · rw [X.fin_le_fin]; positivity
    · rw [X.fin_le_fin]; exact_mod_cast ht
  · rw [min_eq_right ht]
    have := i2 (by rw [X.fin_le_fin]; exact_mod_cast ht)
    rw [this]
    norm_num

/-- **C101, reset.** A reset sets the time of day to midnight, in the state and in the observation. -/
theorem C101_reset_partial {a a' : Anm6 K ρ} {seed date : Option ℤ} {obs : List (X K)} (ha : CustomOf w easySim a)
    (h : a.reset (customCtx w easySim) w.rng seed date = .ok (a', obs)) :
    Clock a'.env 0 ∧ obs.getLast? = some (.fin 0) := by
  have hc := custom_reset_clock ha h
  refine ⟨hc, ?_⟩
  have ha' := ha.reset h
  obtain ⟨e, d, r, h1, _, rfl⟩ := anm6_reset_ok h
  have ho := (C51_in_space_partial (custom_env ha) rfl).1 _ _ h1
  have := observed_clock ha' (obs := obs) ho hc
  simpa using this

/-- **C101, step.** A step that does not end the episode moves the time of day in the state on by one
quarter of an hour, modulo 24 hours.  The observation shows the time of day until 02:30 and 02:30
afterwards.  Missing: the time of day in the observation after 02:30 (`C101_counterexample`). -/
theorem C101_step_partial (hn : FairNumpy w.np) {a a' : Anm6 K ρ} {u : List (X K)} {o : Env.StepOut K}
    {t : ℕ} (ha : CustomOf w easySim a) (hc : Clock a.env t) (h : a.step (customCtx w easySim) u = .ok (a', o))
    (ho : o.terminated = false) :
    Clock a'.env ((t + 1) % 96) ∧ o.obs.getLast? = some (.fin ((min ((t + 1) % 96) 10 : ℕ) : K)) := by
  have hc' := custom_step_clock hn ha hc h ho
  refine ⟨hc', ?_⟩
  have ha' := ha.step h
  obtain ⟨e, d, d0, h1, _, _, rfl⟩ := anm6_step_ok h
  exact observed_clock ha' ((C51_in_space_partial (custom_env ha) rfl).2 _ _ h1 ho) hc'

/-- **C100, episodes of the six-bus environment.** -/
theorem C100_custom_episode (hn : FairNumpy w.np) (G : GoodSolvers w.sim (easySim : Sim K)) (us : List (List (X K)))
    (hu : ∀ u ∈ us, easyActions.contains u true) :
    ∀ {a : Anm6 K ρ} {y : EnvDyn K} {d : ℤ}, CustomOf w easySim a → a.env.dyn = some y → a.date = some d → 0 ≤ d →
      d + us.length * (15 * (60 * 1000000)) < 3652059 * dayMicros →
      ∃ os a', Anm6Episode (customCtx w easySim) a us os a' := by
  induction us with
  | nil => exact fun _ _ _ _ _ => ⟨[], _, .nil _⟩
  | cons u us ih =>
    intro a y d ha hy hd h0 hlt
    rw [List.length_cons, Nat.cast_add, Nat.cast_one] at hlt
    obtain ⟨d', hd', hs⟩ := C100_custom_step hn ha G hy (hu u (by simp))
    rw [hd] at hd'
    cases hd'
    rcases hs h0 with ⟨a1, o, h1⟩ | ⟨-, h1⟩
    · obtain ⟨e, d1, d0, h2, h3, h4, h5⟩ := anm6_step_ok h1
      obtain ⟨y1, hy1, -⟩ := C46_flag h2
      rw [hd] at h3
      cases h3
      have ht := custom_tick ha
      obtain ⟨os, a', he⟩ := ih (fun u h => hu u (by simp [h])) (ha.step h1) (y := y1) (d := d + a.tick)
        (by rw [h5]; exact hy1) (by rw [h5]) (by omega) (by rw [ht]; omega)
      exact ⟨o :: os, a', .cons h1 he⟩
    · omega

/-- **C100, episodes of the two-bus environment.** -/
theorem C100_simple_episode (hn : FairNumpy w.np) (G : GoodSolvers w.sim (simpleSim : Sim K)) (n : ℕ) :
    ∀ {e : Env K ρ} {y : EnvDyn K}, EnvOf (simpleCtx w simpleSim) simpleArgs e → e.dyn = some y →
      ∃ os e', Episode (simpleCtx w simpleSim) e (List.replicate n []) os e' := by
  induction n with
  | zero => exact fun _ _ => ⟨[], _, .nil _⟩
  | succ n ih =>
    intro e y he hy
    obtain ⟨e1, o, h1⟩ := C100_simple_step hn he G hy
    obtain ⟨y1, hy1, -⟩ := C46_flag h1
    obtain ⟨os, e', h2⟩ := ih (envOf_call he (.inr (.inl ⟨_, _, h1⟩))) hy1
    exact ⟨o :: os, e', .cons h1 h2⟩

end

/-! ### A run over the rationals -/

/-- A generator that always draws the middle. -/
def midRandom : NumpyRandom ℚ ℕ where
  rand := fun r => (.fin (1/2), r + 1)
  randint := fun r lo hi => ((lo + hi) / 2, r + 1)

theorem fair_mid : FairNumpy midRandom where
  rand := fun _ => ⟨1/2, rfl, by norm_num, by norm_num⟩
  randint := by
    intro r lo hi h
    simp only [midRandom]
    omega

/-- The solvers of `EnvDemo`. -/
def exampleWorld : ExampleWorld ℚ ℕ where
  sim := ⟨demoQP, envPF, 22/7⟩
  box := fun _ _ => .ok ()
  seeded := fun n => n.toNat
  fresh := 0
  rng := countRng
  np := midRandom

/-- Repeat the same action. -/
def repeatStep {K ρ : Type} [Field K] [LinearOrder K] [FloorRing K] (c : EnvCtx K ρ) (u : List (X K)) :
    ℕ → Anm6 K ρ → Except PyErr (Anm6 K ρ × List (Env.StepOut K))
  | 0, a => .ok (a, [])
  | n + 1, a => do
    let (a, o) ← a.step c u
    let (a, os) ← repeatStep c u n a
    pure (a, o :: os)

theorem repeat_episode {K ρ : Type} [Field K] [LinearOrder K] [FloorRing K] {c : EnvCtx K ρ} {u : List (X K)} {n : ℕ}
    {a a' : Anm6 K ρ} {os : List (Env.StepOut K)} (h : repeatStep c u n a = .ok (a', os)) :
    Anm6Episode c a (List.replicate n u) os a' := by
  induction n generalizing a os with
  | zero => cases h; exact .nil _
  | succ n ih =>
    simp only [repeatStep, bind_ok, pure_ok, Prod.mk.injEq] at h
    obtain ⟨⟨a1, o⟩, h1, ⟨a2, os'⟩, h2, rfl, rfl⟩ := h
    exact .cons h1 (ih h2)

/-- Nothing is produced; the storage unit charges with 5 MW. -/
def customAct : List (X ℚ) := [0, 0, 0, 0, -5, 0].map .fin

/-- Make an environment, reset it, take `n` steps. -/
def customRun (n : ℕ) : Except PyErr (Anm6 ℚ ℕ × Anm6 ℚ ℕ × Anm6 ℚ ℕ × List (Env.StepOut ℚ)) := do
  let a ← mkAnm6 (customCtx exampleWorld easySim) customArgs
  let x ← a.reset (customCtx exampleWorld easySim) countRng none none
  let z ← repeatStep (customCtx exampleWorld easySim) customAct n x.1
  pure (a, x.1, z)

theorem customRun_ok : ∃ r, customRun 12 = .ok r ∧ (∀ o ∈ r.2.2.2, o.terminated = false) ∧
    (∃ y ∈ r.2.2.1.env.dyn, y.state.getLast? = some (.fin 12)) ∧
    r.2.2.2.map (fun o => o.obs.getLast?) = [1, 2, 3, 4, 5, 6, 7, 8, 9, 10, 10, 10].map fun x => some (.fin x) :=
  exOk (by decide +kernel)

/-- **C101, refutation.** An episode of twelve steps, none of which ends it: the time of day in the state at
the end is 12 (03:00), and the observations after the steps 10, 11 and 12 show the time 10. -/
theorem C101_counterexample : ∃ (a a1 a2 : Anm6 ℚ ℕ) (obs : List (X ℚ)) (us : List (List (X ℚ))) (os : List (Env.StepOut ℚ)),
    FairNumpy exampleWorld.np ∧ CustomOf exampleWorld easySim a ∧
    a.reset (customCtx exampleWorld easySim) exampleWorld.rng none none = .ok (a1, obs) ∧
    Anm6Episode (customCtx exampleWorld easySim) a1 us os a2 ∧ (∀ o ∈ os, o.terminated = false) ∧ Clock a2.env 12 ∧
    os.map (fun o => o.obs.getLast?) = [1, 2, 3, 4, 5, 6, 7, 8, 9, 10, 10, 10].map fun x => some (.fin x) := by
  obtain ⟨⟨a, a1, a2, os⟩, h, h1, ⟨y, hy, hl⟩, h3⟩ := customRun_ok
  simp only [customRun, bind_ok, pure_ok, Prod.mk.injEq] at h
  obtain ⟨a', h4, ⟨a1', obs⟩, h5, ⟨a2', os'⟩, h6, rfl, rfl, rfl, rfl⟩ := h
  exact ⟨_, _, _, _, _, _, fair_mid, .make h4, h5, repeat_episode h6, h1, ⟨y, hy, by simpa using hl⟩, h3⟩

end Anm
