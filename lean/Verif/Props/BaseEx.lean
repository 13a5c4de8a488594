import Verif.Props.BaseUnits
import Verif.Props.Reward

/-! # C133: where the base power matters, and a concrete network -/

set_option linter.unusedSectionVars false

namespace Anm

open Spec

/-- The demonstration network with other limits of the load, in MW, and another base power. -/
def loadNet (base : ℚ) (pmax pmin : Cell ℚ) : Network ℚ := Network.ofLists (.fin base)
  [[num 0, num 0, num 132, num 1, num 1], [num 1, num 1, num 33, num (11/10), num (9/10)],
   [num 2, num 1, num 33, num (11/10), num (9/10)]]
  [[num 0, num 1, num (1/100), num (1/10), num 0, num 32, num 1, num 0],
   [num 1, num 2, num (1/50), num (3/10), none, num 25, none, none]]
  [[num 0, num 0, num 0, none, num 200, num (-200), num 200, num (-200), none, none, none, none, none, none, none],
   [num 1, num 1, num (-1), num (1/5), pmax, pmin, none, none, none, none, none, none, none, none, none],
   [num 2, num 1, num 2, none, num 30, num 0, num 30, num (-30), num 20, none, num 15, num (-15), none, none, none],
   [num 3, num 2, num 3, none, num 50, num (-50), num 50, num (-50), num 30, num (-30), num 25, num (-25), num 100, num 0,
    num (9/10)]]

theorem demoQP_units {k : ℚ} (hk : 0 < k) : QPUnits k demoQP demoQP := by
  intro rows x
  have h : Feasible (rows.map (HalfPlane.sc k)) (x.1.sc k) (x.2.sc k) ↔ Feasible rows x.1 x.2 := by
    unfold Feasible
    simp only [List.forall_mem_map]
    refine forall_congr' fun r => forall_congr' fun _ => ?_
    show r.gP * X.sc k _ + r.gQ * X.sc k _ ≤ X.sc k r.h ↔ _
    rw [X.mul_sc hk, X.mul_sc hk, ← X.sc_add, X.sc_le hk]
  unfold demoQP
  by_cases hf : Feasible rows x.1 x.2
  · rw [if_pos hf, if_pos (h.2 hf)]; rfl
  · rw [if_neg hf, if_neg (fun h' => hf (h.1 h'))]; rfl

theorem flowPF_units (k v : ℚ) : PFUnits k (flowPF v 0) (flowPF v 0) := by
  intro i
  simp [flowPF, PFOut.sc, Phasor.sc, Flow.sc, Except.map, Phasor.undef]

/-- Construction, reset and one time step. -/
def unitsDemo (n : Network ℚ) (v : ℚ) : Except PyErr (Sim ℚ × Sim.TransOut ℚ) := do
  let s0 ← mkSim n (.fin (1/4)) (.fin 100)
  let c : Ctx ℚ := ⟨demoQP, flowPF v 0, 22/7⟩
  let (s1, _) ← s0.reset c demoInit
  s1.transition c (demoArgs (-40))

/-- The hypotheses of C133 are met by the demonstration network (base 100 MVA) and its description with a base of 10 MVA. -/
example : LoadsPlain demoNet ∧ (0 : ℚ) < 10 ∧ QPUnits 10 demoQP demoQP ∧ PFUnits 10 (flowPF 1 0) (flowPF 1 0) ∧
    ∃ x, unitsDemo demoNet 1 = .ok x ∧ x.2.converged = true ∧ x.2.eLoss ≠ 0 ∧ ∀ b ∈ x.1.buses, VoltageFine b := by
  refine ⟨?_, by norm_num, demoQP_units (by norm_num), flowPF_units _ _, ?_⟩
  · intro r hr hc
    simp only [demoNet, Network.ofLists, List.map, List.mem_cons, List.not_mem_nil, or_false] at hr
    rcases hr with rfl | rfl | rfl | rfl
    · exact absurd hc (by decide +kernel)
    · exact Or.inr (by decide +kernel)
    · exact absurd hc (by decide +kernel)
    · exact absurd hc (by decide +kernel)
  · have : ∃ x, unitsDemo demoNet 1 = .ok x ∧ (x.2.converged = true ∧ x.2.eLoss ≠ 0 ∧ ∀ b ∈ x.1.buses, b.v.abs = .fin 1 ∧
        (b.vMin.any fun m => decide (m ≤ .fin 1)) = true ∧ .fin 1 ≤ b.vMax) := exOk (by decide +kernel)
    obtain ⟨x, h1, h2, h3, h4⟩ := this
    refine ⟨x, h1, h2, h3, fun b hb => ?_⟩
    obtain ⟨a, e, f⟩ := h4 b hb
    cases hm : b.vMin with
    | none => rw [hm] at e; simp at e
    | some m => rw [hm] at e; exact ⟨m, 1, hm, a, by simpa using e, f⟩

/-- ... and both descriptions, evaluated: the same powers in MW, the same energy in MWh, ten times the loss in per-unit. -/
example : (∃ x, unitsDemo demoNet 1 = .ok x ∧ (x.1.devices.map (fun d => d.p * x.1.baseMVA) = [.fin 0, .fin (-5), .fin 15, .fin (-40)] ∧
      x.2.eLoss = .fin (3/80))) ∧
    ∃ x, unitsDemo (inBase 10 demoNet) 1 = .ok x ∧ (x.1.devices.map (fun d => d.p * x.1.baseMVA) = [.fin 0, .fin (-5), .fin 15, .fin (-40)] ∧
      x.2.eLoss = .fin (3/8)) := ⟨exOk (by decide +kernel), exOk (by decide +kernel)⟩

/-- **C133** is false for loads with a PMAX: the file is accepted for a base power of 1 MVA, and rejected for 100 MVA. -/
theorem C133_accepted_counterexample : ∃ (n : Network ℚ) (k : ℚ), 0 < k ∧ (∃ s, mkSim n (.fin 1) (.fin 100) = .ok s) ∧
    mkSim (inBase k n) (.fin 1) (.fin 100) = .error .loadSpecError := by
  refine ⟨loadNet 1 (num (-2)) (num (-10)), 1/100, by norm_num, ?_, ?_⟩
  · obtain ⟨s, h, -⟩ := exOk (r := mkSim (loadNet 1 (num (-2)) (num (-10))) (.fin 1) (.fin 100)) (P := fun _ => True) (by decide +kernel)
    exact ⟨s, h⟩
  · have h : (match mkSim (inBase (1/100) (loadNet 1 (num (-2)) (num (-10)))) (.fin 1) (.fin 100) with | .ok _ => false | .error e => decide (e = .loadSpecError)) = true := by
      decide +kernel
    split at h
    · cases h
    · rename_i e he
      rw [he, of_decide_eq_true h]

/-- **C133** is false for loads with a PMAX, even if both files are accepted: a demand of 5 MW is a consumption of 5 MW with the one base power, and of
200 MW with the other. -/
theorem C133_load_counterexample : ∃ (n : Network ℚ) (k : ℚ), 0 < k ∧
    (∃ x, unitsDemo n 1 = .ok x ∧ ∃ st, x.1.state = some st ∧ reading st .devP .mw (.node 1) = some (.fin (-5))) ∧
    ∃ x, unitsDemo (inBase k n) 1 = .ok x ∧ ∃ st, x.1.state = some st ∧ reading st .devP .mw (.node 1) = some (.fin (-200)) := by
  have key : ∀ (n : Network ℚ) (y : X ℚ), OkAnd (unitsDemo n 1) (fun x => (x.1.state.bind fun st => reading st .devP .mw (.node 1)) = some y) →
      ∃ x, unitsDemo n 1 = .ok x ∧ ∃ st, x.1.state = some st ∧ reading st .devP .mw (.node 1) = some y := by
    intro n y h
    obtain ⟨x, h1, h2⟩ := exOk h
    refine ⟨x, h1, ?_⟩
    cases hs : x.1.state with
    | none => rw [hs] at h2; cases h2
    | some st => exact ⟨st, rfl, by rw [hs] at h2; exact h2⟩
  exact ⟨loadNet 1 (num (-2)) (num (-400)), 1/100, by norm_num, key _ _ (by decide +kernel), key _ _ (by decide +kernel)⟩

/-- **C133** is false for the reward: with a voltage outside its limits, the energy loss is a hundred times larger and the penalty is the same.
What an agent should prefer depends on the base power of the file. -/
theorem C133_reward_counterexample : ∃ (n : Network ℚ) (k : ℚ), 0 < k ∧ ∃ x y, unitsDemo n 2 = .ok x ∧ unitsDemo (inBase k n) 2 = .ok y ∧
    y.2.eLoss = x.2.eLoss.sc k ∧ x.2.eLoss ≠ 0 ∧ y.2.penalty = x.2.penalty ∧ x.2.penalty ≠ 0 ∧ k ≠ 1 := by
  obtain ⟨x, h1, e1, p1⟩ := exOk (r := unitsDemo demoNet 2) (P := fun x => x.2.eLoss = .fin (3/80) ∧ x.2.penalty = .fin 70) (by decide +kernel)
  obtain ⟨y, h2, e2, p2⟩ := exOk (r := unitsDemo (inBase 100 demoNet) 2) (P := fun x => x.2.eLoss = .fin (15/4) ∧ x.2.penalty = .fin 70) (by decide +kernel)
  refine ⟨demoNet, 100, by norm_num, x, y, h1, h2, ?_, ?_, ?_, ?_, by norm_num⟩
  · rw [e1, e2, X.sc_fin]; norm_num
  · rw [e1]; simp [X.zero_def]
  · rw [p1, p2]
  · rw [p1]; simp [X.zero_def]

end Anm
