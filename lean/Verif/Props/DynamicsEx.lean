import Verif.Props.Dynamics

/-! # C17–C24: concrete executions on the demo network (over ℚ) and counterexamples -/

namespace Anm

open Spec

instance (rows : List (HalfPlane ℚ)) (p q : X ℚ) : Decidable (Feasible rows p q) :=
  inferInstanceAs (Decidable (∀ r ∈ rows, _))

/-- A sound solver: it returns the request if it is feasible, and fails otherwise. -/
def demoQP : QP ℚ := fun rows r => if Feasible rows r.1 r.2 then some r else none

theorem demoQP_sound : QPSound 0 demoQP := by
  intro rows r x h
  unfold demoQP at h
  split at h
  · rename_i hf
    injection h with h
    subst h
    intro w hw
    have e : w.h + X.fin (0 : ℚ) = w.h := by
      cases w.h with
      | fin a => rw [X.fin_add_fin, add_zero]
      | _ => rfl
    rw [e]
    exact hf w hw
  · simp at h

theorem demoQP_keeps : QPKeeps demoQP := by
  intro rows p q _ h
  simp [demoQP, h]

/-- A power-flow solver that returns a flat voltage profile and no flows. -/
def demoPF : PF ℚ := fun _ =>
  let z : Phasor ℚ := ⟨0, 0, 0, 0⟩
  .ok { v := fun _ => ⟨1, 0, 1, 0⟩, i := fun _ => z, slackP := 0, slackQ := 0,
        flow := fun _ => {}, stable := true }

def demoCtx : Ctx ℚ := ⟨demoQP, demoPF, 22/7⟩

/-- Reset vector: P, Q of the four devices, SoC 50 MWh, potential 20 MW. -/
def demoInit : List (X ℚ) := [0, .fin (-5), .fin 10, .fin (-20), 0, .fin (-1), .fin 0, .fin 0, .fin 50, .fin 20]

/-- Control: load 5 MW, potential 20 MW, generator 15 MW, storage `p` MW. -/
def demoArgs (p : ℚ) : Sim.Args ℚ :=
  ⟨[(1, .fin (-5))], [(2, .fin 20)], [(2, .fin 15), (3, .fin p)], [(2, .fin 5), (3, .fin 0)]⟩

/-- Construct, reset, charge at 40 MW for 15 minutes, discharge at 32.4 MW for 15 minutes. -/
def demoRun : Except PyErr (Sim ℚ × Sim ℚ × Sim ℚ × Sim ℚ) := do
  let s0 ← mkSim demoNet (.fin (1/4)) (.fin 100)
  let (s1, _) ← s0.reset demoCtx demoInit
  let (s2, _) ← s1.transition demoCtx (demoArgs (-40))
  let (s3, _) ← s2.transition demoCtx (demoArgs (162/5))
  pure (s0, s1, s2, s3)

instance (s : Sim ℚ) : Decidable (SocOk s) :=
  decidable_of_iff (∀ d ∈ s.devices, d.isStorage = true →
    (d.soc.any fun x => decide (d.socMin ≤ x) && decide (x ≤ d.socMax)) = true) (by
    unfold SocOk
    refine forall_congr' fun d => forall_congr' fun _ => forall_congr' fun _ => ?_
    cases d.soc <;> simp)

instance (s : Sim ℚ) : Decidable (FiniteCapacity s) :=
  decidable_of_iff (∀ d ∈ s.devices, d.isStorage = true → 
    (match d.socMax with | .fin _ => true | _ => false) = true) (by
    unfold FiniteCapacity
    refine forall_congr' fun d => forall_congr' fun _ => forall_congr' fun _ => ?_
    cases d.socMax <;> simp)

theorem demo_clean : CleanFile demoNet 100 where
  base := rfl
  bus := by
    intro r hr
    simp only [demoNet, Network.ofLists, List.map_cons, List.map_nil, List.mem_cons, List.not_mem_nil,
      or_false] at hr
    rcases hr with rfl | rfl | rfl <;> exact rowOk_rowOf _ _ (by decide +kernel)
  branch := by
    intro r hr
    simp only [demoNet, Network.ofLists, List.map_cons, List.map_nil, List.mem_cons, List.not_mem_nil,
      or_false] at hr
    rcases hr with rfl | rfl <;> exact rowOk_rowOf _ _ (by decide +kernel)
  device := by
    intro r hr
    simp only [demoNet, Network.ofLists, List.map_cons, List.map_nil, List.mem_cons, List.not_mem_nil,
      or_false] at hr
    rcases hr with rfl | rfl | rfl | rfl <;> exact rowOk_rowOf _ _ (by decide +kernel)

/-- What the storage unit (the fourth device) looks like along the run. -/
def unitIs (s : Sim ℚ) (p soc : ℚ) : Prop :=
  (s.devices[3]?).any (fun d => d.id = 3 && d.isStorage && d.p = .fin p && d.soc = some (.fin soc) &&
    d.eff = .fin (9/10) && d.socMin = .fin 0) = true

instance (s : Sim ℚ) (p soc : ℚ) : Decidable (unitIs s p soc) := inferInstanceAs (Decidable (_ = true))

theorem unitIs_ex {s : Sim ℚ} {p soc : ℚ} (h : unitIs s p soc) : ∃ d ∈ s.devices, d.id = 3 ∧
    d.isStorage = true ∧ d.p = .fin p ∧ d.soc = some (.fin soc) ∧ d.eff = .fin (9/10) ∧
    d.socMin = .fin 0 := by
  unfold unitIs at h
  cases hd : s.devices[3]? with
  | none => simp [hd] at h
  | some d =>
    simp [hd] at h
    obtain ⟨⟨⟨⟨⟨h1, h2⟩, h3⟩, h4⟩, h5⟩, h6⟩ := h
    exact ⟨d, List.mem_of_getElem? hd, h1, h2, h3, h4, h5, h6⟩

/-- The demo run succeeds; the battery goes from 50 MWh to 59 MWh and back to 50 MWh. -/
theorem demoRun_ok : ∃ s0 s1 s2 s3, mkSim demoNet (.fin (1/4)) (.fin 100) = .ok s0 ∧
    (∃ b, s0.reset demoCtx demoInit = .ok (s1, b)) ∧ Step demoCtx s1 s2 ∧ Step demoCtx s2 s3 ∧
    SocOk s1 ∧ FiniteCapacity s1 ∧ unitIs s1 (-1/5) (1/2) ∧ unitIs s2 (-2/5) (59/100) ∧
    unitIs s3 (81/250) (1/2) := by
  obtain ⟨⟨s0, s1, s2, s3⟩, h, hp⟩ : ∃ r, demoRun = .ok r ∧ (SocOk r.2.1 ∧ FiniteCapacity r.2.1 ∧
    unitIs r.2.1 (-1/5) (1/2) ∧ unitIs r.2.2.1 (-2/5) (59/100) ∧ unitIs r.2.2.2 (81/250) (1/2)) :=
    exOk (by decide +kernel)
  simp only [demoRun, bind_ok, pure_ok] at h
  obtain ⟨s0', h0, ⟨s1', b⟩, h1, ⟨s2', o2⟩, h2, ⟨s3', o3⟩, h3, h4⟩ := h
  injection h4 with e1 h4
  injection h4 with e2 h4
  injection h4 with e3 e4
  subst e1 e2 e3 e4
  exact ⟨s0', s1', s2', s3', h0, ⟨b, h1⟩, ⟨_, _, h2⟩, ⟨_, _, h3⟩, hp⟩

/-- The hypotheses of C17–C23 are met by the demo run: the state of charge stays within its limits and
the unit gives back exactly the fraction `0.9^2` of what it drew. -/
theorem demo_cycle : ∃ s1 s3, SimOf demoNet (.fin (1/4)) (.fin 100) s1 ∧ SocOk s1 ∧ SocOk s3 ∧
    Trajectory demoCtx 3 s1 [-2/5, 81/250] s3 ∧ unitIs s1 (-1/5) (1/2) ∧ unitIs s3 (81/250) (1/2) ∧
    delivered (1/4) [-2/5, (81/250 : ℚ)] = (9/10) ^ 2 * drawn (1/4) [-2/5, (81/250 : ℚ)] := by
  obtain ⟨s0, s1, s2, s3, h0, ⟨b, h1⟩, h2, h3, hs, hf, u1, u2, u3⟩ := demoRun_ok
  have hs1 : SimOf demoNet (.fin (1/4)) (.fin 100) s1 := simOf_reset (simOf_mk h0) h1
  obtain ⟨d1, m1, i1, t1, p1, c1, e1, l1⟩ := unitIs_ex u1
  obtain ⟨d2, m2, i2, t2, p2, c2, e2, l2⟩ := unitIs_ex u2
  obtain ⟨d3, m3, i3, t3, p3, c3, e3, l3⟩ := unitIs_ex u3
  have tr : Trajectory demoCtx 3 s1 [-2/5, 81/250] s3 :=
    .cons h2 m2 i2 p2 (.cons h3 m3 i3 p3 (.nil _))
  have ht : (0 : ℚ) < 1/4 := by norm_num
  refine ⟨s1, s3, hs1, hs, ?_, tr, u1, u3, ?_⟩
  · have := socOk_step demo_clean hs1 ht (storageNotNan_of_sound demoQP_sound _) hf hs h2.choose_spec.choose_spec
    have hs2 := simOf_transition hs1 h2.choose_spec.choose_spec
    exact socOk_step demo_clean hs2 ht (storageNotNan_of_sound demoQP_sound _)
      (finiteCapacity_same (sameConfig_transition h2.choose_spec.choose_spec) hf) this
      h3.choose_spec.choose_spec
  · exact C22_round_trip demo_clean ht demoQP_sound hs1 hf hs tr m1 i1 t1 c1 e1 (by norm_num) m3 i3
      (by rw [c1, c3])

/-- **C23 is false**: on the demo network, with EFF = 0.9, drawing 10 MWh and discharging back to the
initial state of charge returns 8.1 MWh, not 9 MWh. -/
theorem C23_counterexample : ∃ s1 s3, SimOf demoNet (.fin (1/4)) (.fin 100) s1 ∧ SocOk s1 ∧
    ∃ ps : List ℚ, Trajectory demoCtx 3 s1 ps s3 ∧ unitIs s1 (-1/5) (1/2) ∧ unitIs s3 (81/250) (1/2) ∧
      drawn (1/4) ps = 1/10 ∧ delivered (1/4) ps = 81/1000 ∧
      delivered (1/4) ps ≠ 9/10 * drawn (1/4) ps := by
  obtain ⟨s1, s3, a, b, _, tr, u1, u3, _⟩ := demo_cycle
  exact ⟨s1, s3, a, b, _, tr, u1, u3, by decide +kernel, by decide +kernel, by decide +kernel⟩

/-- C24 applies to the demo reset: 20 MW of charging are sustainable from an empty battery. -/
example : ∃ s0 s1 b, ∃ d : Device ℚ, mkSim demoNet (.fin (1/4)) (.fin 100) = .ok s0 ∧
    s0.reset demoCtx demoInit = .ok (s1, b) ∧ s1.devices[3]? = some d ∧ d.p = .fin (-20/100) ∧
    d.q = .fin (0/100) ∧ d.soc = some (.fin (50/100)) := by
  obtain ⟨⟨s0, s1, b⟩, h, hp⟩ : ∃ r, (do
      let s0 ← mkSim demoNet (.fin (1/4)) (.fin 100)
      let r ← s0.reset demoCtx demoInit
      pure (s0, r.1, r.2) : Except PyErr (Sim ℚ × Sim ℚ × Bool)) = .ok r ∧
      ((r.2.1.devices[3]?).any (fun d => d.isStorage && decide (HasDesParams d desG)) = true ∧
        r.1.nDevice = 4 ∧ ((r.1.devices.take 3).filter Device.isStorage).length = 0) :=
    exOk (by decide +kernel)
  simp only [bind_ok, pure_ok] at h
  obtain ⟨s0', h0, ⟨s1', b'⟩, h1, h4⟩ := h
  injection h4 with e1 h4
  injection h4 with e2 e3
  subst e1 e2 e3
  obtain ⟨h2, h3, h4⟩ := hp
  cases hd : s1'.devices[3]? with
  | none => simp [hd] at h2
  | some d =>
    simp [hd] at h2
    refine ⟨_, _, _, d, h0, h1, hd, C24_reset_injection demo_clean (simOf_mk h0) (by norm_num)
      demoQP_keeps h1 hd h2.1 h2.2 (by norm_num [desG]) rfl ?_ ?_ ?_⟩
    · simp only at h3; rw [h3]; rfl
    · simp only at h3 h4; rw [h3, h4]; rfl
    · constructor <;> norm_num [desG, lineAt]

/-- C17 and C18 on the demo run: the generator injects (15 MW, 5 MVAr), the load -5 MW. -/
example : ∃ s2, (do
      let s0 ← mkSim demoNet (.fin (1/4)) (.fin 100)
      let (s1, _) ← s0.reset demoCtx demoInit
      let (s2, _) ← s1.transition demoCtx (demoArgs (-40))
      pure s2 : Except PyErr (Sim ℚ)) = .ok s2 ∧
    s2.devices.map (fun d => (d.isNonSlackGen, d.isLoad, d.p, d.q)) =
      [(false, false, 0, 0), (false, true, .fin (-1/20), .fin (-1/100)),
       (true, false, .fin (3/20), .fin (1/20)), (false, false, .fin (-2/5), .fin 0)] :=
  exOk (by decide +kernel)

/-- **C20 is false**: a reset vector that asks for 150 MWh in a 100 MWh battery is accepted and leaves
the battery with 150 MWh; no transition is possible from there, whatever the action, with any sound
solver. -/
theorem C20_counterexample : ∃ s0 s1 b, mkSim demoNet (.fin (1/4)) (.fin 100) = .ok s0 ∧
    s0.reset demoCtx (demoInit.set 8 (.fin 150)) = .ok (s1, b) ∧ ¬ SocOk s1 ∧ unitIs s1 (-1/5) (3/2) ∧
    ∀ (c : Ctx ℚ) a r, QPSound 0 c.qp → s1.transition c a ≠ .ok r := by
  obtain ⟨⟨s0, s1, b⟩, h, hp⟩ : ∃ r, (do
      let s0 ← mkSim demoNet (.fin (1/4)) (.fin 100)
      let r ← s0.reset demoCtx (demoInit.set 8 (.fin 150))
      pure (s0, r.1, r.2) : Except PyErr (Sim ℚ × Sim ℚ × Bool)) = .ok r ∧
      (¬ SocOk r.2.1 ∧ unitIs r.2.1 (-1/5) (3/2) ∧ (r.2.1.devices[3]?).any (fun d => d.isStorage &&
        decide (HasDesParams d desG) && decide (d.soc = some (.fin (3/2)))) = true) := exOk (by decide +kernel)
  simp only [bind_ok, pure_ok] at h
  obtain ⟨s0', h0, ⟨s1', b'⟩, h1, h4⟩ := h
  injection h4 with e1 h4
  injection h4 with e2 e3
  subst e1 e2 e3
  refine ⟨_, _, _, h0, h1, hp.1, hp.2.1, fun c a r hq => ?_⟩
  have h2 := hp.2.2
  cases hd : s1'.devices[3]? with
  | none => simp [hd] at h2
  | some d =>
    simp [hd] at h2
    exact C20_overfull_stuck demo_clean (simOf_reset (simOf_mk h0) h1) (by norm_num) hq
      (List.mem_of_getElem? hd) h2.1.1 h2.1.2 (by norm_num [desG]) h2.2 (by norm_num [desG])

end Anm
