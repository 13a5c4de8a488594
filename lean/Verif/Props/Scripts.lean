import Verif.Model.Scripts
import Verif.Props.Calendar
import Verif.Props.RenderPage
import Verif.Props.RenderEasy
import Verif.Props.MpcEasy
import Verif.Props.NewtonPlay
import Verif.Props.Collapse
import Verif.Props.EasyFacts

/-! # C155: the example scripts run to their end -/

namespace Anm

open Spec

noncomputable section

variable {ρ : Type} {w : EasyWorld ℝ ρ} {s0 : Sim ℝ} {a a' : Anm6 ℝ ρ}

/-- The object with another screen. -/
def onScreen (a : Anm6 ℝ ρ) (s : Screen) : Anm6 ℝ ρ := { a with screen := s }

theorem step_onScreen {c : EnvCtx ℝ ρ} {u : List (X ℝ)} {o : Env.StepOut ℝ} (s : Screen) (h : a.step c u = .ok (a', o)) :
    (onScreen a s).step c u = .ok (onScreen a' s, o) := by
  obtain ⟨e, d, d0, h1, h2, h3, h4⟩ := anm6_step_ok h
  simp only [Anm6.step, h1, h2, h3, Bind.bind, Except.bind] at h
  simp only [Anm6.step, onScreen, h1, h2, h3, Bind.bind, Except.bind]
  revert h
  cases dateAdd d a.tick with
  | error e => intro h; cases h
  | ok d1 => intro h; cases h; rfl

theorem step_screen {c : EnvCtx ℝ ρ} {u : List (X ℝ)} {o : Env.StepOut ℝ} (h : a.step c u = .ok (a', o)) : a'.screen = a.screen := by
  obtain ⟨e, d, d0, h1, h2, h3, rfl⟩ := anm6_step_ok h
  rfl

theorem reset_onScreen {c : EnvCtx ℝ ρ} {g : Rng ℝ ρ} {seed date : Option ℤ} {obs : List (X ℝ)} (s : Screen)
    (h : a.easyReset c g seed date = .ok (a', obs)) :
    (onScreen a s).easyReset c g seed date = .ok (onScreen a' (s.reset false), obs) := by
  simp only [Anm6.easyReset, Anm6.reset, bind_ok, pure_ok] at h
  obtain ⟨⟨a1, obs1⟩, ⟨⟨e, obs2⟩, h1, ⟨d, r⟩, h2, h3⟩, h4⟩ := h
  cases h3
  revert h4
  cases hd : e.dyn with
  | none => simp
  | some y =>
    simp only [Anm6.easyReset, Anm6.reset, bind_ok, pure_ok, onScreen]
    rintro ⟨x, h5, t, h6, d1, h7, h8⟩
    cases h8
    refine ⟨_, ⟨_, h1, _, h2, rfl⟩, ?_⟩
    simp only [hd, bind_ok]
    exact ⟨x, h5, t, h6, d1, h7, rfl⟩

theorem reset_screen {c : EnvCtx ℝ ρ} {g : Rng ℝ ρ} {seed date : Option ℤ} {obs : List (X ℝ)}
    (h : a.easyReset c g seed date = .ok (a', obs)) : a'.screen = a.screen.reset false := by
  have h1 := reset_onScreen a.screen h
  rw [show onScreen a a.screen = a from rfl, h] at h1
  injection h1 with h1
  injection h1 with h1
  rw [h1]; rfl

/-- An ANM6Easy environment, whatever has been displayed. -/
def EasySeen (w : EasyWorld ℝ ρ) (s0 : Sim ℝ) (a : Anm6 ℝ ρ) : Prop := ∃ s, EasyOf w s0 (onScreen a s)

theorem seen_step {u : List (X ℝ)} {o : Env.StepOut ℝ} (ha : EasySeen w s0 a) (h : a.step (easyCtx w s0) u = .ok (a', o)) :
    EasySeen w s0 a' := by
  obtain ⟨s, ha⟩ := ha
  exact ⟨s, ha.step (step_onScreen s h)⟩

theorem seen_reset {seed date : Option ℤ} {obs : List (X ℝ)} (ha : EasySeen w s0 a)
    (h : a.easyReset (easyCtx w s0) w.rng seed date = .ok (a', obs)) : EasySeen w s0 a' := by
  obtain ⟨s, ha⟩ := ha
  exact ⟨_, ha.reset (reset_onScreen s h)⟩

/-- `render()` on a display that works. -/
theorem render_healthy {s : Screen} {v : World} (hv : v.start = none ∧ v.update = none) (hl : s.live = true) (hs : Healthy s) :
    (s.render v "human" 0).2 = .ok true ∧ (s.render v "human" 0).1.live = true ∧ Healthy (s.render v "human" 0).1 := by
  obtain ⟨h1, h2⟩ := hv
  rcases hs with ⟨hm, hr⟩ | ⟨hm, hi, n, hn, hr⟩
  · simp [Screen.render, Screen.launch, Screen.refresh, hm, h1, h2, hl, hr, Healthy]
  · obtain ⟨m, hm⟩ := Option.isSome_iff_exists.1 hm
    simp [Screen.render, Screen.refresh, hm, h2, hl, hr, hn, hi, Healthy]

/-- `render()` on the whole object shows the frame. -/
theorem render_seen (ha : EasySeen w s0 a) (hg : Fair w.rng) (G : GoodSolvers w.sim (easySim : Sim ℝ)) {y : EnvDyn ℝ}
    (hy : a.env.dyn = some y) {v : World} (hv : v.start = none ∧ v.update = none) (hl : a.screen.live = true) (hs : Healthy a.screen) :
    ∃ s f, a.render v "ANM6Easy" "human" 0 = (onScreen a s, .ok (some f)) ∧ s.live = true ∧ Healthy s ∧
      a.frame = .ok f ∧ ShowsState a.env.sim f ∧ f.networkCollapsed = y.terminated ∧ f.energyLoss = y.eLoss ∧ f.penalty = y.penalty := by
  obtain ⟨s, ha⟩ := ha
  obtain ⟨d, f, -, h1, h2, -, -, h3, h4, h5⟩ := C84_frame_easy ha hg G hy
  have h1 : a.frame = .ok f := h1
  have h6 : a.firstMessage "ANM6Easy" = .ok (easyMessage "ANM6Easy") := C85_init ha "ANM6Easy"
  obtain ⟨r1, r2, r3⟩ := render_healthy hv hl hs
  refine ⟨_, f, ?_, r2, r3, h1, h2, h5, h3, h4⟩
  simp only [Anm6.render, h1, h6, Except.map]
  split_ifs <;> simp [r1, onScreen]

theorem seen_room (ha : EasySeen w s0 a) (hg : Fair w.rng) {obs : List (X ℝ)}
    (h : a.easyReset (easyCtx w s0) w.rng none none = .ok (a', obs)) :
    ∃ d, a'.date = some d ∧ d + 35040 * (15 * (60 * 1000000)) < 3652059 * dayMicros := by
  obtain ⟨s, ha⟩ := ha
  have h1 := reset_onScreen s h
  have h2 := reset_room ha hg h1
  exact h2

theorem healthy_reset {s : Screen} (hs : Healthy s) : Healthy (s.reset false) := hs

theorem seen_again {o : LFOracle} (ho : ExactLF o) (hw : w.sim.pf = realPF o) (ha : EasySeen w s0 a) (hg : Fair w.rng)
    (G : GoodSolvers w.sim (easySim : Sim ℝ)) (hs : Healthy a.screen) :
    ∃ a' obs y d, a.easyReset (easyCtx w s0) w.rng none none = .ok (a', obs) ∧ EasySeen w s0 a' ∧ a'.env.dyn = some y ∧ y.terminated = false ∧
      a'.date = some d ∧ d + 35040 * (15 * (60 * 1000000)) < 3652059 * dayMicros ∧ a'.screen.live = true ∧ Healthy a'.screen := by
  obtain ⟨s, ha'⟩ := ha
  obtain ⟨a1, obs, -, -, h1, -, -⟩ := C116_reset ho hw ha' hg G none none (by simp)
  have h2 := reset_onScreen a.screen h1
  rw [show onScreen (onScreen a s) a.screen = a from rfl] at h2
  have hw' : w.sim = ⟨w.sim.qp, realPF o, w.sim.pi⟩ := by rw [← hw]
  have hnum : NumericPF w.sim := by rw [hw']; exact C85_solver _ _ _
  obtain ⟨y, hy, hf⟩ : ∃ y, (onScreen a1 (a.screen.reset false)).env.dyn = some y ∧ y.terminated = false := by
    obtain ⟨n, q2, q4, soc, l1, l3, l5, m2, m4, v, r, r', y, p, q, g, ht', hi, hI, -, -, -, h0, h1, hy, hf, hv, -⟩ := C108_vector ha' hg G hnum h1
    exact ⟨y, hy, hf⟩
  obtain ⟨d, hd, hlt⟩ := seen_room ⟨s, ha'⟩ hg h2
  exact ⟨_, obs, y, d, h2, seen_reset ⟨s, ha'⟩ h2, hy, hf, hd, hlt, rfl, healthy_reset hs⟩

/-- One iteration: a frame is displayed.  It shows a collapse if and only if the step has ended the episode; the reward is -20000 then,
and otherwise minus the two costs displayed. -/
def Spec.Displayed (p : Env.StepOut ℝ × Option (Frame ℝ)) : Prop :=
  ∃ f, p.2 = some f ∧ f.networkCollapsed = p.1.terminated ∧
    p.1.reward = if p.1.terminated then .fin (-20000) else -(f.energyLoss + f.penalty)

theorem random_loop {o : LFOracle} (ho : ExactLF o) (hw : w.sim.pf = realPF o) (hg : Fair w.rng)
    (G : GoodSolvers w.sim (easySim : Sim ℝ)) {v : World} (hv : v.start = none ∧ v.update = none) (us : List (List (X ℝ)))
    (hu : ∀ u ∈ us, easyActions.contains u true) (hn : us.length ≤ 35040) :
    ∀ {a : Anm6 ℝ ρ} {y : EnvDyn ℝ} {d : ℤ}, EasySeen w s0 a → a.env.dyn = some y → y.terminated = false → a.date = some d →
      d + us.length * (15 * (60 * 1000000)) < 3652059 * dayMicros → a.screen.live = true → Healthy a.screen →
      ∃ a' l, randomLoop (easyCtx w s0) w.rng v a us = .ok (a', l) ∧ l.length = us.length ∧ (∀ p ∈ l, Displayed p) ∧ Healthy a'.screen := by
  induction us with
  | nil => exact fun {a} _ _ _ _ _ _ _ _ hs => ⟨a, [], rfl, rfl, by simp, hs⟩
  | cons u us ih =>
    intro a y d ha hy hyf hd hlt hl hs
    have ih := @ih (fun u h => hu u (by simp [h])) (by simp only [List.length_cons] at hn; omega)
    rw [List.length_cons, Nat.cast_add, Nat.cast_one] at hlt
    rw [List.length_cons] at hn
    obtain ⟨s, ha'⟩ := ha
    rcases C83_step ha' hg G hy (hu u (by simp)) with ⟨a1, out, h1⟩ | ⟨-, d', hd', h1⟩
    · have h2 := step_onScreen a.screen h1
      rw [show onScreen (onScreen a s) a.screen = a from rfl] at h2
      have ha2 := seen_step ⟨s, ha'⟩ h2
      obtain ⟨e, d1, d0, h3, h4, -, h5⟩ := anm6_step_ok h2
      obtain ⟨y1, hy1, hf⟩ := C46_flag h3
      have hy2 : (onScreen a1 a.screen).env.dyn = some y1 := by rw [h5]; exact hy1
      have hscr : (onScreen a1 a.screen).screen = a.screen := rfl
      rw [hd] at h4
      cases h4
      have hd2 : (onScreen a1 a.screen).date = some (d + 15 * (60 * 1000000)) := by
        have := easy_tick ha'
        rw [h5, show a.tick = _ from this]
      obtain ⟨s2, f, r1, r2, r3, r4, -, r5, r6, r7⟩ := render_seen ha2 hg G hy2 hv hl hs
      have ha3 : EasySeen w s0 (onScreen (onScreen a1 a.screen) s2) := by
        obtain ⟨s3, h⟩ := ha2
        exact ⟨s3, h⟩
      have hrew : out.reward = if out.terminated then .fin (-20000) else -(f.energyLoss + f.penalty) := by
        split_ifs with ht
        · have hw' : w.sim = ⟨w.sim.qp, realPF o, w.sim.pi⟩ := by rw [← hw]
          have hnum : NumericPF w.sim := by rw [hw']; exact C85_solver _ _ _
          obtain ⟨r, hr, -, hc, -⟩ := C98_step ha' hg G hnum hy h1
          rw [hr, hc hyf ht]
        · obtain ⟨c1, c2⟩ := easy_clipping ha'
          obtain ⟨-, -, y2, -, hy3, h6, -⟩ := C47_reward c1 c2 zero_le_one (by norm_num) h3 (by simpa using ht)
          rw [hy1] at hy3
          cases hy3
          rw [h6, r6, r7]
      by_cases ht : out.terminated = true
      · obtain ⟨a4, obs, y4, d4, k1, k2, k3, k3', k4, k5, k6, k7⟩ := seen_again ho hw ha3 hg G r3
        obtain ⟨a5, l, i1, i2, i3, i4⟩ := ih k2 k3 k3' k4 (by omega) k6 k7
        refine ⟨a5, (out, some f) :: l, ?_, by simp [i2], ?_, i4⟩
        · simp only [randomLoop, h2, r1, Bind.bind, Except.bind, ht, if_true, k1, i1, pure, Except.pure]
        · rintro p (_ | ⟨_, hp⟩)
          · exact ⟨f, rfl, by rw [r5]; exact hf, hrew⟩
          · exact i3 p hp
      · obtain ⟨a5, l, i1, i2, i3, i4⟩ := ih ha3 hy2 (by rw [hf]; simpa using ht) hd2 (by linarith) r2 r3
        refine ⟨a5, (out, some f) :: l, ?_, by simp [i2], ?_, i4⟩
        · simp only [randomLoop, h2, r1, Bind.bind, Except.bind, ht, i1, pure, Except.pure]
          rfl
        · rintro p (_ | ⟨_, hp⟩)
          · exact ⟨f, rfl, by rw [r5]; exact hf, hrew⟩
          · exact i3 p hp
    · rw [show (onScreen a s).date = a.date from rfl, hd] at hd'
      cases hd'
      push_cast at hlt
      have : (0 : ℤ) ≤ us.length := by positivity
      omega

/-- **C155, random agent.** With exactly solved linear systems and a display that works, `random_agent.py` raises no exception whatever
actions are sampled, for up to 35040 iterations, collapses included.  Every step is displayed, together with its costs or its collapse, and in the
end no server process runs. -/
theorem C155_random {o : LFOracle} (ho : ExactLF o) (hw : w.sim.pf = realPF o) (hb : BoxTotal w.box) (hg : Fair w.rng)
    (G : GoodSolvers w.sim (easySim : Sim ℝ)) {v : World} (hv : v.start = none ∧ v.update = none) {us : List (List (X ℝ))}
    (hu : ∀ u ∈ us, easyActions.contains u true) (hn : us.length ≤ 35040) :
    ∃ a l, randomScript (easyCtx w easySim) w.rng v easyArgs us = .ok (a, l) ∧ l.length = us.length ∧ (∀ p ∈ l, Displayed p) ∧
      a.screen.running = [] := by
  obtain ⟨a, h1, ha⟩ := C83_made hb
  have hs : a.screen = {} := by
    obtain ⟨e, m, n, -, -, -, rfl⟩ := mkAnm6_ok h1
    rfl
  obtain ⟨a1, obs, y, d, h2, h3, h4, hf, h5, h6, h7, h8⟩ := seen_again ho hw ⟨a.screen, ha⟩ hg G (by rw [hs]; exact .inl ⟨rfl, rfl⟩)
  obtain ⟨a2, l, i1, i2, i3, i4⟩ := random_loop ho hw hg G hv us hu hn h3 h4 hf h5 (by push_cast at *; omega) h7 h8
  have hc := healthy_apply (e := .close) i4 (by rw [(C62_modes _).2.1]; simp)
  have hm := (C62_modes a2.screen).2.2
  have hr := (C62_modes a2.screen).2.1
  simp only [apply] at hc hm hr
  cases hcl : a2.screen.close with
  | mk s r =>
    rw [hcl] at hc hm hr
    cases r with
    | error e => simp [Result.ofClose] at hr
    | ok _ =>
      refine ⟨{ a2 with screen := s }, l, ?_, i2, i3, ?_⟩
      · simp only [randomScript, h1, h2, i1, hcl, Bind.bind, Except.bind, pure, Except.pure]
      · rcases hc with ⟨-, h⟩ | ⟨h, -⟩
        · exact h
        · rw [hm] at h; cases h

theorem mpcLoop_run {c : EnvCtx ℝ ρ} {cv : Cvx ℝ} {pi : ℝ} {m : Mpc ℝ} {perfect : Bool} {os : List (Env.StepOut ℝ)}
    (h : AgentRun c cv pi m perfect a os a') : mpcLoop c cv pi m perfect os.length a = .ok (a', os) := by
  induction h with
  | nil => rfl
  | cons h1 h2 h3 h4 _ ih =>
    simp only [forecastOf] at h2
    rw [List.length_cons, mpcLoop, h1]
    cases perfect <;> simp only [if_true, Bool.false_eq_true, if_false] at h2 <;>
      simp [h2, h3, h4, ih, Bind.bind, Except.bind, pure, Except.pure]

/-- **C155, MPC agents.** With exactly solved linear systems and a solver that finds a feasible plan if there is one, `mpc_constant.py` and
`mpc_perfect.py` raise no exception, for any safety margin, at least one planning step and up to 35040 iterations, collapses included. -/
theorem C155_mpc {o : LFOracle} (ho : ExactLF o) (hw : w.sim.pf = realPF o) (hb : BoxTotal w.box) (hg : Fair w.rng)
    (G : GoodSolvers w.sim (easySim : Sim ℝ)) (perfect : Bool) (margin : X ℝ) {steps n : ℕ} (hN : 0 < steps) {cv : Cvx ℝ}
    (hcv : SolvesPlans cv 7 3 2 1 steps) (hn : n ≤ 35040) :
    ∃ a l, mpcScript (easyCtx w easySim) w.rng easyArgs cv Real.pi (bBus easyLines) perfect margin steps n = .ok (a, l) ∧
      l.length = n := by
  obtain ⟨a, h1, ha⟩ := C83_made hb
  obtain ⟨a1, obs, -, -, h2, -, -⟩ := C116_reset ho hw ha hg G none none (by simp)
  obtain ⟨t, -, y, hy, -⟩ := C56_reset hg ha h2
  obtain ⟨d, hd, hlt⟩ := reset_room ha hg h2
  obtain ⟨m, h3, h4, h5⟩ := C88_agent (ha.reset h2) cv (bBus easyLines) a1.env.gamma margin hN
  obtain ⟨os, a2, h6, h7⟩ := C88_run hg G (by rw [h4]; exact hN) (by rw [h4]; exact hcv) perfect n (ha.reset h2) hy hd h5 (by omega)
  refine ⟨a2, os, ?_, h7⟩
  have := mpcLoop_run h6
  rw [h7] at this
  simp only [mpcScript, h1, h2, h3, this, Bind.bind, Except.bind]

/-! ### Cases that meet all hypotheses -/

/-- The scripts as they are: ten actions that make the network collapse, and a hundred steps of the agents that plan ten steps ahead. -/
example : ∃ a l, randomScript (easyCtx (exactWorld exactOracle 48) easySim) (exactWorld exactOracle 48).rng {} easyArgs
    (List.replicate 10 drain) = .ok (a, l) ∧ l.length = 10 ∧ (∀ p ∈ l, Displayed p) ∧ a.screen.running = [] := by
  refine C155_random exactOracle_exact rfl (fun _ _ => rfl) (fair_play 48) (C83_solvers _ _) ⟨rfl, rfl⟩ ?_ (by simp)
  intro u hu
  rw [List.eq_of_mem_replicate hu]
  exact drain_contained

example (perfect : Bool) : ∃ a l, mpcScript (easyCtx (exactWorld exactOracle 48) easySim) (exactWorld exactOracle 48).rng easyArgs
    (exactCvx 7) Real.pi (bBus easyLines) perfect (.fin (96/100)) 10 100 = .ok (a, l) ∧ l.length = 100 :=
  C155_mpc exactOracle_exact rfl (fun _ _ => rfl) (fair_play 48) (C83_solvers _ _) perfect _ (by norm_num) (exactCvx_solves 7 3 2 1 10)
    (by norm_num)

end
end Anm
