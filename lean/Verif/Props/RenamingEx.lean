import Verif.Props.RenamingEnv
import Verif.Props.EnvDemo
import Verif.Props.DynamicsEx
import Mathlib.Algebra.Group.Equiv.Basic

/-! # C134: examples -/

set_option linter.unusedSectionVars false

namespace Anm

open Spec

/-- The devices 0, 1, 2, 3 are called 0, -1, -2, -3: their order is reversed. -/
def negated : Equiv.Perm ℤ := Equiv.neg ℤ

/-- The initial vector of the renamed demo network: P and Q of the storage unit first. -/
def demoInitNeg : List (X ℚ) := [.fin (-20), .fin 10, .fin (-5), 0, .fin 0, .fin 0, .fin (-1), 0, .fin 50, .fin 20]

/-- The control of the demo network under the new names. -/
def demoArgsNeg (p : ℚ) : Sim.Args ℚ :=
  ⟨[(-1, .fin (-5))], [(-2, .fin 20)], [(-3, .fin p), (-2, .fin 15)], [(-3, .fin 0), (-2, .fin 5)]⟩

/-- The hypotheses of C134 hold for the demo network with reversed names. -/
theorem demo_negated : ∃ s s', mkSim demoNet (.fin (1/4)) (.fin 100) = .ok s ∧ mkSim (renamed negated demoNet) (.fin (1/4)) (.fin 100) = .ok s' ∧
    SameBut negated s s' ∧ VectorRenamed negated s s' demoInit demoInitNeg ∧ s'.devices.map Device.id = [-3, -2, -1, 0] ∧
    ∃ t, s.reset demoCtx demoInit = .ok (t, true) ∧ ∃ r, t.transition demoCtx (demoArgs (-40)) = .ok r := by
  have h : OkAnd (mkSim demoNet (.fin (1/4)) (.fin 100)) fun s => OkAnd (mkSim (renamed negated demoNet) (.fin (1/4)) (.fin 100)) fun s' =>
      (2 * s.nDevice + s.nDes + s.nNonSlackGen ≤ demoInit.length ∧ demoInitNeg.length = demoInit.length ∧
      (∀ d ∈ s.devices, demoInitNeg[place (fun _ => true) s' (negated d.id)]? = demoInit[place (fun _ => true) s d.id]?) ∧
      (∀ d ∈ s.devices, demoInitNeg[s.nDevice + place (fun _ => true) s' (negated d.id)]? = demoInit[s.nDevice + place (fun _ => true) s d.id]?) ∧
      (∀ d ∈ s.devices, d.isStorage = true → demoInitNeg[2 * s.nDevice + place Device.isStorage s' (negated d.id)]? = demoInit[2 * s.nDevice + place Device.isStorage s d.id]?) ∧
      (∀ d ∈ s.devices, d.isNonSlackGen = true →
        demoInitNeg[2 * s.nDevice + s.nDes + place Device.isNonSlackGen s' (negated d.id)]? = demoInit[2 * s.nDevice + s.nDes + place Device.isNonSlackGen s d.id]?)) ∧
      s'.devices.map Device.id = [-3, -2, -1, 0] ∧ OkAnd (s.reset demoCtx demoInit) fun r => r.2 = true ∧
        OkAnd (r.1.transition demoCtx (demoArgs (-40))) fun _ => True := by decide +kernel
  obtain ⟨s, hs, h⟩ := exOk h
  obtain ⟨s', hs', ⟨h1, h2, h3, h4, h5, h6⟩, h7, h8⟩ := exOk h
  obtain ⟨⟨t, b⟩, ht, rfl, h9⟩ := exOk h8
  obtain ⟨r, hr, -⟩ := exOk h9
  obtain ⟨s'', e, hb⟩ := C134_construct negated.injective (by decide) demoNet_integral hs
  rw [hs'] at e
  cases e
  exact ⟨s, s', hs, hs', hb, ⟨h1, h2, h3, h4, h5, h6⟩, h7, t, ht, r, hr⟩

/-- ... so is the control. -/
theorem demo_negated_args (p : ℚ) : ArgsRenamed negated (demoArgs p) (demoArgsNeg p) := by
  constructor <;> intro i <;> simp only [demoArgs, demoArgsNeg, Dict.get?, List.find?_cons, List.find?_nil, negated, Equiv.neg_apply]
  · by_cases h : i = 1
    · subst h; rfl
    · have h1 : ¬ (1 = i) := fun e => h e.symm
      have h2 : ¬ ((-1 : ℤ) = -i) := by omega
      simp [h1]
  · by_cases h : i = 2
    · subst h; rfl
    · have h1 : ¬ (2 = i) := fun e => h e.symm
      simp [h1]
  all_goals
    by_cases h : i = 2
    · subst h; rfl
    · by_cases h' : i = 3
      · subst h'; rfl
      · have h1 : ¬ (2 = i) := fun e => h e.symm
        have h2 : ¬ (3 = i) := fun e => h' e.symm
        simp [h1, h2]

/-- Construct, reset and one time step under the new names. -/
example : ∃ s' t' r, mkSim (renamed negated demoNet) (.fin (1/4)) (.fin 100) = .ok s' ∧ s'.reset demoCtx demoInitNeg = .ok (t', true) ∧
    t'.transition demoCtx (demoArgsNeg (-40)) = .ok r := by
  obtain ⟨s, s', -, hs', hb, hv, -, t, ht, ⟨u, o⟩, hu⟩ := demo_negated
  obtain ⟨t', _, _, h, hb', -⟩ := C134_reset negated.injective hb hv ht
  obtain ⟨u', _, _, h', -⟩ := C134_transition negated.injective hb' (demo_negated_args (-40)) hu
  exact ⟨s', t', (u', o), hs', h, h'⟩

/-! ### Environments -/

/-- Room between the IDs: the devices 0, 1, 2, 3 are called 7, 17, 27, 37. -/
def spaced (i : ℤ) : ℤ := 10 * i + 7

theorem spaced_mono : StrictMono spaced := fun a b h => by unfold spaced; omega

/-- `C134_episode` for an observation list that names devices: in the new file it asks for devices 37 and 17 where the old one asks for 3 and 1. -/
example : ∃ e e1 obs os, mkEnv (envCtx load1) (envArgs (.list demoObs) (99/100)) = .ok e ∧ e.reset (envCtx load1) (some 0) = .ok (e1, obs) ∧
    answers (envCtx load1) e1 [mildAct, mildAct, mildAct] = .ok os ∧ os.map (·.terminated) = [false, true, true] ∧
    ∃ e' e1', mkEnv (envCtx load1) (envArgsRenamed spaced (envArgs (.list demoObs) (99/100))) = .ok e' ∧ e'.sim.devices.map Device.id = [7, 17, 27, 37] ∧
      e'.reset (envCtx load1) (some 0) = .ok (e1', obs) ∧ answers (envCtx load1) e1' [mildAct, mildAct, mildAct] = .ok os := by
  have h : OkAnd (mkEnv (envCtx load1) (envArgs (.list demoObs) (99/100))) fun e => e.sim.devices.map Device.id = [0, 1, 2, 3] ∧
      OkAnd (e.reset (envCtx load1) (some 0)) fun r =>
        OkAnd (answers (envCtx load1) r.1 [mildAct, mildAct, mildAct]) fun os => os.map (·.terminated) = [false, true, true] := by decide +kernel
  obtain ⟨e, he, hd, h⟩ := exOk h
  obtain ⟨⟨e1, obs⟩, hr, h⟩ := exOk h
  obtain ⟨os, ho, ht⟩ := exOk h
  obtain ⟨e', e1', g1, -, -, g2, -, g3⟩ := C134_episode spaced_mono (show demoNet.baseMVA ≠ .nan by decide) demoNet_integral he hr ho
  refine ⟨e, e1, obs, os, he, hr, ho, ht, e', e1', g1, ?_, g2, g3⟩
  obtain ⟨e2, g4, g5⟩ := C134_env_make spaced_mono (show demoNet.baseMVA ≠ .nan by decide) demoNet_integral he
  rw [g1] at g4
  cases g4
  have : e.sim.devices.map (fun d => spaced d.id) = [7, 17, 27, 37] := by
    have := congrArg (List.map spaced) hd
    rw [List.map_map] at this
    exact this
  rw [devices_renamed spaced_mono g5.sim, List.map_map]
  exact this

end Anm
