import Verif.Props.Slack
import Verif.Props.DynamicsEx

/-!
# C122: the power of the slack bus is never NaN
-/

set_option linter.unusedSectionVars false

namespace Anm

open Spec

section
variable {K : Type} [Field K] [LinearOrder K] [IsStrictOrderedRing K] [FloorRing K] {c : Ctx K} {s s' : Sim K} {a : Sim.Args K}
  {out : Sim.TransOut K} {i j : ℤ}

namespace Spec

/-- A power as it is reported: the number that the load flow returned, or infinity if it returned NaN. -/
def ReportedAs (x y : X K) : Prop := (x = .nan → y = .pinf) ∧ (X.NotNan x → y = x)

end Spec

theorem nanToInf_reported (x : X K) : ReportedAs x (Sim.nanToInf x) := by
  cases x <;> simp [ReportedAs, Sim.nanToInf, X.NotNan]

theorem reportedAs_notNan {x y : X K} (h : ReportedAs x y) : X.NotNan y := by
  by_cases hx : x = .nan
  · rw [h.1 hx]; trivial
  · have : X.NotNan x := by cases x <;> simp_all [X.NotNan]
    rw [h.2 this]; exact this

/-- **C122.** Whatever the load flow returns, the active and reactive power of the slack bus and of the slack device are never NaN after a
transition: they are the powers that the load flow returned, infinity where it returned NaN. -/
theorem C122_slack_power (ho : OneSlack s i j) (h : s.transition c a = .ok (s', out)) :
    ∃ o, (∃ x, c.pf x = .ok o) ∧
      (∀ b ∈ s'.buses, b.isSlack = true → ReportedAs o.slackP b.p ∧ ReportedAs o.slackQ b.q ∧ X.NotNan b.p ∧ X.NotNan b.q) ∧
      ∀ d ∈ s'.devices, d.isSlack = true → ReportedAs o.slackP d.p ∧ ReportedAs o.slackQ d.q ∧ X.NotNan d.p ∧ X.NotNan d.q := by
  have ho' := oneSlack_same (sameConfig_transition h) ho
  obtain ⟨ds, o, I⟩ := transition_ok h
  have hbus : ∀ b ∈ s'.buses, b.isSlack = true → ReportedAs o.slackP b.p ∧ ReportedAs o.slackQ b.q ∧ X.NotNan b.p ∧ X.NotNan b.q := by
    intro b hb hbs
    rw [I.solve.apply.buses, List.mem_mapIdx] at hb
    obtain ⟨k, hk, rfl⟩ := hb
    dsimp only at hbs ⊢
    rw [if_pos hbs, if_pos hbs]
    exact ⟨nanToInf_reported _, nanToInf_reported _, reportedAs_notNan (nanToInf_reported _), reportedAs_notNan (nanToInf_reported _)⟩
  refine ⟨o, ⟨_, I.solve.pf⟩, hbus, fun d hd hds => ?_⟩
  obtain ⟨b, hb, hbi⟩ := ho'.busMem
  have hbs := (ho'.bus b hb).2 hbi
  obtain ⟨e1, e2⟩ := slack_device ho h hb hbs hd hds
  rw [e1, e2]
  exact hbus b hb hbs

end

/-! ### Example: a load flow that returns NaN -/

def nanSlackPF : PF ℚ := fun _ =>
  .ok { v := fun _ => ⟨.nan, .nan, .nan, .nan⟩, i := fun _ => ⟨.nan, .nan, .nan, .nan⟩, slackP := .nan, slackQ := .fin 2,
        flow := fun _ => {}, stable := false }

def nanSlackRun : Except PyErr (Sim ℚ × Sim ℚ × Sim ℚ × Sim.TransOut ℚ) := do
  let s0 ← mkSim demoNet (.fin (1/4)) (.fin 100)
  let (s1, _) ← s0.reset demoCtx demoInit
  let (s2, o) ← s1.transition { demoCtx with pf := nanSlackPF } (demoArgs (-40))
  pure (s0, s1, s2, o)

/-- A transition whose load flow returns NaN for the active power of the slack bus of a network that meets the hypothesis. -/
example : ∃ s s' out i j, OneSlack s i j ∧ s.transition { demoCtx with pf := nanSlackPF } (demoArgs (-40)) = .ok (s', out) ∧
    (s'.devices.map fun d => (d.id, d.isSlack, d.p, d.q)).head? = some (0, true, .pinf, .fin 2) := by
  obtain ⟨⟨s0, s1, s2, o⟩, hx, e1⟩ := exOk (r := nanSlackRun)
    (P := fun x => (x.2.2.1.devices.map fun d => (d.id, d.isSlack, d.p, d.q)).head? = some (0, true, .pinf, .fin 2)) (by decide +kernel)
  simp only [nanSlackRun, bind_ok, pure_ok, Prod.mk.injEq] at hx
  obtain ⟨_, h0, ⟨_, b⟩, h1, ⟨_, _⟩, h2, rfl, rfl, rfl, rfl⟩ := hx
  have hd : Documented demoNet := by
    refine ⟨demoNet_integral, ?_⟩
    have : ∀ r ∈ demoNet.bus, r BusCol.busType = some (.fin 0) ∨ r BusCol.busType = some (.fin 1) := by
      decide +kernel
    exact this
  obtain ⟨i, j, ho⟩ := oneSlack_of_file demo_clean hd (simOf_reset (simOf_mk h0) h1)
  exact ⟨_, _, _, i, j, ho, h2, e1⟩

end Anm
