import Verif.Props.VarsFlow
import Verif.Props.ExampleClock

/-!
# C103: demands and maximum productions in the six-bus example

`CustomANM6Environment.next_vars` (`examples/custom_anm6.py:50-72`) lists its values by device ID, but the
values are read as those of the loads followed by those of the generators (`anm_env.py:367-391`, and the
documentation of `next_vars`).
-/

namespace Anm
open Spec

variable {K ρ : Type} [Field K] [LinearOrder K] [IsStrictOrderedRing K] [FloorRing K] {w : ExampleWorld K ρ}

theorem customNext_vars (hn : FairNumpy w.np) {st vars : List (X K)} {r r' : ρ}
    (h : customNext w.np st r = .ok (vars, r')) : ∃ x1 x2 x3 x4 x5 t : K,
      vars = [.fin (-10 * x1), .fin (30 * x2), .fin (-30 * x3), .fin (50 * x4), .fin (-30 * x5), .fin t] ∧
      ∀ x ∈ [x1, x2, x3, x4, x5], 0 ≤ x ∧ x < 1 := by
  obtain ⟨z1, e1, i1⟩ := hn.rand r
  obtain ⟨z2, e2, i2⟩ := hn.rand (w.np.rand r).2
  obtain ⟨z3, e3, i3⟩ := hn.rand (w.np.rand (w.np.rand r).2).2
  obtain ⟨z4, e4, i4⟩ := hn.rand (w.np.rand (w.np.rand (w.np.rand r).2).2).2
  obtain ⟨z5, e5, i5⟩ := hn.rand (w.np.rand (w.np.rand (w.np.rand (w.np.rand r).2).2).2).2
  simp only [customNext, bind_ok, pure_ok, Prod.mk.injEq, e1, e2, e3, e4, e5, X.fin_mul_fin] at h
  obtain ⟨b, _, t, _, h, _⟩ := h
  refine ⟨z1, z2, z3, z4, z5, _, h.symm, ?_⟩
  simp only [List.forall_mem_cons]
  exact ⟨i1, i2, i3, i4, i5, by simp⟩

theorem sameMachine_limits {d d' : Device K} (h : SameMachine d d') : d'.pMin = d.pMin ∧ d'.pMax = d.pMax := by
  rw [h]; exact ⟨rfl, rfl⟩

/-- What a step of the six-bus example makes of the five numbers it draws. -/
theorem custom_step_vars (hn : FairNumpy w.np) {a a' : Anm6 K ρ} {u : List (X K)} {o : Env.StepOut K}
    (ha : CustomOf w easySim a) (h : a.step (customCtx w easySim) u = .ok (a', o)) (ho : o.terminated = false) :
    ∃ (y' : EnvDyn K) (x1 x2 x3 x4 : K), a'.env.dyn = some y' ∧ (∀ x ∈ [x1, x2, x3, x4], 0 ≤ x ∧ x < 1) ∧
      y'.state[1]? = some (.fin (-10 * x1)) ∧ y'.state[3]? = some (.fin 0) ∧ y'.state[5]? = some (.fin (-30 * x3)) ∧
      y'.state[15]? = some (.fin (min (50 * x4) 30)) ∧ y'.state[16]? = some (.fin 0) := by
  have ha' := ha.step h
  obtain ⟨e, d, d0, h1, _, _, rfl⟩ := anm6_step_ok h
  obtain ⟨y, y', vars, hy, hy', hv, hload, hgen⟩ := C102_vars_in_state (custom_env ha) anm6_clean h1 ho
  obtain ⟨x1, x2, x3, x4, x5, t, rfl, hx⟩ := customNext_vars hn hv
  obtain ⟨d0, d1, d2, d3, d4, d5, d6, hds, k0, k1, k2, k3, k4, k5, k6⟩ := easy_devices (custom_sameConfig ha')
  obtain ⟨c1, c2, c3, c4⟩ := custom_counts ha'
  simp only at hds c1 c2 c3 c4
  have c0 := k0.classes
  have c1' := k1.classes
  have c2' := k2.classes
  have c3' := k3.classes
  have c4' := k4.classes
  have c5' := k5.classes
  have c6' := k6.classes
  have fl : e.sim.devices.filter Device.isLoad = [d1, d3, d5] := by
    rw [hds]
    simp only [List.filter_cons, c0.2.1, c1'.2.1, c2'.2.1, c3'.2.1, c4'.2.1, c5'.2.1, c6'.2.1]
    rfl
  have fg : e.sim.devices.filter Device.isNonSlackGen = [d2, d4] := by
    rw [hds]
    simp only [List.filter_cons, c0.2.2.2, c1'.2.2.2, c2'.2.2.2, c3'.2.2.2, c4'.2.2.2, c5'.2.2.2, c6'.2.2.2]
    rfl
  rw [fl, hds] at hload
  rw [fg, c1, c2, c4] at hgen
  simp only [List.forall_mem_cons] at hx
  obtain ⟨i1, i2, i3, i4, i5, -⟩ := hx
  refine ⟨y', x1, x2, x3, x4, hy', ?_, ?_, ?_, ?_, ?_, ?_⟩
  · simp only [List.forall_mem_cons]
    exact ⟨i1, i2, i3, i4, by simp⟩
  · obtain ⟨x, z, hx, hz, hc⟩ := hload 0 1 d1 rfl rfl
    cases hx
    rw [(sameMachine_limits k1).1, (sameMachine_limits k1).2] at hc
    rw [hz, hc.1 (by simp only [anm6Load, X.fin_mul_fin, X.fin_le_fin]; linarith)
      (by simp only [anm6Load, X.fin_mul_fin, X.fin_le_fin]; linarith)]
  · obtain ⟨x, z, hx, hz, hc⟩ := hload 1 3 d3 rfl rfl
    cases hx
    rw [(sameMachine_limits k3).1, (sameMachine_limits k3).2] at hc
    rw [hz, hc.2.1 (by simp only [anm6Load, X.fin_mul_fin, X.fin_le_fin]; linarith)]
    simp [anm6Load, X.fin_mul_fin]
  · obtain ⟨x, z, hx, hz, hc⟩ := hload 2 5 d5 rfl rfl
    cases hx
    rw [(sameMachine_limits k5).1, (sameMachine_limits k5).2] at hc
    rw [hz, hc.1 (by simp only [anm6Load, X.fin_mul_fin, X.fin_le_fin]; linarith)
      (by simp only [anm6Load, X.fin_mul_fin, X.fin_le_fin]; linarith)]
  · obtain ⟨x, z, hx, hz, hc⟩ := hgen 0 d2 rfl
    cases hx
    rw [(sameMachine_limits k2).1, (sameMachine_limits k2).2] at hc
    rw [show y'.state[15]? = _ from hz]
    rcases le_total (50 * x4) 30 with hle | hle
    · rw [hc.1 (by simp only [anm6Gen, X.fin_mul_fin, X.fin_le_fin]; linarith)
        (by simp only [anm6Gen, X.fin_mul_fin, X.fin_le_fin]; linarith), min_eq_left hle]
    · rw [hc.2.1 (by simp only [anm6Gen, X.fin_mul_fin, X.fin_le_fin]; linarith), min_eq_right hle]
      simp only [anm6Gen, X.fin_mul_fin]
      norm_num
  · obtain ⟨x, z, hx, hz, hc⟩ := hgen 1 d4 rfl
    cases hx
    rw [(sameMachine_limits k4).1, (sameMachine_limits k4).2] at hc
    rw [show y'.state[16]? = _ from hz, hc.2.2 (by simp only [anm6Gen, X.fin_mul_fin, X.fin_le_fin]; linarith)]
    simp [anm6Gen, X.fin_mul_fin]

/-- **C103, positive part.** After a step that does not end the episode the demands of the residential area
and of the charging station and the maximum production of the PV plant are within the limits documented for
them.  Missing: that they are drawn at random for the device (`C103_counterexample`). -/
theorem C103_step_partial (hn : FairNumpy w.np) {a a' : Anm6 K ρ} {u : List (X K)} {o : Env.StepOut K}
    (ha : CustomOf w easySim a) (h : a.step (customCtx w easySim) u = .ok (a', o)) (ho : o.terminated = false) :
    ∃ (y' : EnvDyn K) (l1 l3 l5 g2 g4 : K), a'.env.dyn = some y' ∧ y'.state[1]? = some (.fin l1) ∧ y'.state[3]? = some (.fin l3) ∧
      y'.state[5]? = some (.fin l5) ∧ y'.state[15]? = some (.fin g2) ∧ y'.state[16]? = some (.fin g4) ∧
      -10 ≤ l1 ∧ l1 ≤ 0 ∧ -30 ≤ l3 ∧ l3 ≤ 0 ∧ -30 ≤ l5 ∧ l5 ≤ 0 ∧ 0 ≤ g2 ∧ g2 ≤ 30 ∧ 0 ≤ g4 ∧ g4 ≤ 50 := by
  obtain ⟨y', x1, x2, x3, x4, hy', hx, h1, h3, h5, h15, h16⟩ := custom_step_vars hn ha h ho
  simp only [List.forall_mem_cons] at hx
  obtain ⟨i1, i2, i3, i4, -⟩ := hx
  refine ⟨y', _, _, _, _, _, hy', h1, h3, h5, h15, h16, ?_⟩
  refine ⟨by linarith, by linarith, by norm_num, by norm_num, by linarith, by linarith, ?_, min_le_right _ _,
    by norm_num, by norm_num⟩
  exact le_min (by linarith) (by norm_num)

/-- **C103, refutation.** Whatever numbers are drawn and whatever the actions, after every step that does
not end the episode the industrial complex consumes nothing and the maximum production of the wind farm is
zero. -/
theorem C103_counterexample (hn : FairNumpy w.np) {a a' : Anm6 K ρ} {u : List (X K)} {o : Env.StepOut K}
    (ha : CustomOf w easySim a) (h : a.step (customCtx w easySim) u = .ok (a', o)) (ho : o.terminated = false) :
    ∃ y', a'.env.dyn = some y' ∧ y'.state[3]? = some (.fin 0) ∧ y'.state[16]? = some (.fin 0) := by
  obtain ⟨y', x1, x2, x3, x4, hy', hx, h1, h3, h5, h15, h16⟩ := custom_step_vars hn ha h ho
  exact ⟨y', hy', h3, h16⟩

/-- A step of a six-bus example, to which the theorems apply. -/
example : ∃ (a a' : Anm6 ℚ ℕ) (o : Env.StepOut ℚ), FairNumpy exampleWorld.np ∧ CustomOf exampleWorld easySim a ∧
    a.step (customCtx exampleWorld easySim) customAct = .ok (a', o) ∧ o.terminated = false := by
  obtain ⟨r, hr, ht⟩ : ∃ r, (do
      let a ← mkAnm6 (customCtx exampleWorld easySim) customArgs
      let x ← a.reset (customCtx exampleWorld easySim) countRng none none
      let z ← x.1.step (customCtx exampleWorld easySim) customAct
      pure (x, z)) = .ok r ∧ r.2.2.terminated = false := exOk (by decide +kernel)
  simp only [bind_ok, pure_ok] at hr
  obtain ⟨a, h1, ⟨a1, obs⟩, h2, ⟨a2, o⟩, h3, rfl⟩ := hr
  exact ⟨a1, a2, o, fair_mid, (CustomOf.make h1).reset h2, h3, ht⟩

end Anm
