import Verif.Props.Monotone
import Verif.Props.CurtailEx

/-! # Cases of C135 -/

namespace Anm

open Spec

/-- The storage unit of 4 MWh: one run delivers 1 MW in the next hour, the other one 0.5 MW, both from 2 MWh. -/
example (o : LFOracle) (pi : ℝ) : ∃ s s' u', MoreAndLess ⟨exactQP, realPF o, pi⟩ ⟨exactQP, realPF o, pi⟩ 2 s s s' u' ∧
    (∃ x' y', Stores s 2 storeDes 2 ∧ Stores s' 2 storeDes x' ∧ Stores u' 2 storeDes y' ∧ x' ≤ y') ∧
    ∃ d ∈ u'.devices, ∃ d₂ ∈ s'.devices, ∃ x x₂ e e₂, d.id = 2 ∧ d₂.id = 2 ∧ d.p = .fin x ∧ d₂.p = .fin x₂ ∧
      d.soc = some (.fin e) ∧ d₂.soc = some (.fin e₂) ∧ x ≤ x₂ ∧ x₂ ≤ x + (1 - 1/2) / 1 ∧ e₂ ≤ e := by
  obtain ⟨s0, h0, -⟩ := storeNet_mk
  have hs0 := simOf_mk h0
  obtain ⟨u, hr, hu, -⟩ := store_reset o pi hs0
  have hsu := simOf_reset hs0 hr
  have st : Stores u 2 storeDes 2 := by
    obtain ⟨F, hdes⟩ := storeNet_facts hsu
    obtain ⟨d0, d1, d2, hds, hd0, hd1, hd2⟩ := devs_three F
    simp only [slackAt, loadAt, storeAt, Prod.mk.injEq] at hd0 hd1 hd2
    have st2 : d2.isStorage = true := by simp [Device.isStorage, hd2]
    exact ⟨d2, by simp [hds], hd2.1, st2, hdes d2 (by simp [hds]) st2, hu d2 (by simp [hds]) st2, by norm_num [storeDes], by norm_num [storeDes]⟩
  let a : ℝ → Sim.Args ℝ := fun w => ⟨[(1, .fin (-w))], [], [(2, .fin w)], [(2, .fin 0)]⟩
  have a1 : ∀ w, (a w).pLoad.get? 1 = some (.fin (-w)) := fun w => by simp [a, Dict.get?]
  have a2 : ∀ w, (a w).pSet.get? 2 = some (.fin w) := fun w => by simp [a, Dict.get?]
  have a3 : ∀ w, (a w).qSet.get? 2 = some (.fin 0) := fun w => by simp [a, Dict.get?]
  obtain ⟨u', o1, _, k1, -⟩ := store_step o pi hsu hu (u := 1/2) (by norm_num) (by norm_num) (by norm_num) (by norm_num) (a1 _) (a2 _) (a3 _)
  obtain ⟨s', o2, _, k2, -⟩ := store_step o pi hsu hu (u := 1) (by norm_num) (by norm_num) (by norm_num) (by norm_num) (a1 _) (a2 _) (a3 _)
  have two : MoreAndLess ⟨exactQP, realPF o, pi⟩ ⟨exactQP, realPF o, pi⟩ 2 u u s' u' :=
    .cons k2 k1 (a2 _) (a3 _) (a2 _) (a3 _) (by norm_num) (.nil _ _)
  obtain ⟨x', y', l1, l2, l3⟩ := C135_run storeNet_clean hsu hsu one_pos (by norm_num [storeDes]) C16_exact_solver_exists C16_exact_solver_exists two st st le_rfl
  exact ⟨u, s', u', two, ⟨x', y', st, l1, l2, l3⟩,
    C135_storage_p storeNet_clean hsu one_pos (by norm_num [storeDes]) C16_exact_solver_exists k1 k2 st (a2 _) (a3 _) (a2 _) (a3 _) (by norm_num)⟩

/-- The solar farm of ANM6Easy with a potential of 20 MW, asked for 15 MW and for 25 MW. -/
example : ∃ (s s' s₂ : Sim ℝ) (out out₂ : Sim.TransOut ℝ) (d d₂ : Device ℝ) (x x₂ : ℝ),
    s.transition calmWorld.sim (solarArgs 20 15 0) = .ok (s', out) ∧ s.transition calmWorld.sim (solarArgs 20 25 0) = .ok (s₂, out₂) ∧
    d ∈ s'.devices ∧ d₂ ∈ s₂.devices ∧ d.id = 2 ∧ d₂.id = 2 ∧ d.p = .fin x ∧ d₂.p = .fin x₂ ∧ x ≤ x₂ ∧ x₂ ≤ x + (25 - 15) / 100 := by
  obtain ⟨s, hsim, hsoc, hcfg, hall⟩ := solar_cases
  obtain ⟨s', out, h1, d, hd, hid, hg, hp⟩ := hall 20 15 0
  obtain ⟨s₂, out₂, h2, d₂, hd₂, hid₂, -⟩ := hall 20 25 0
  obtain ⟨x, x₂, e1, e2, e3, e4⟩ := C135_generator_p (pot := 20) (p := 15) (p₂ := 25) (q := 0) anm6_clean hsim calm_good.exact h1 h2 hd hd₂ (hid₂.trans hid.symm) hg hp
    (by rw [hid]; rfl) (by rw [hid]; rfl) (by rw [hid]; rfl) (by rw [hid]; rfl) (by rw [hid]; rfl) (by rw [hid]; rfl) (by norm_num)
  exact ⟨s, s', s₂, out, out₂, d, d₂, x, x₂, h1, h2, hd, hd₂, hid, hid₂, e1, e2, e3, e4⟩

/-- The same farm asked for −5 and for 5 MVAr. -/
example : ∃ (s s' s₂ : Sim ℝ) (out out₂ : Sim.TransOut ℝ) (d d₂ : Device ℝ) (y y₂ : ℝ),
    s.transition calmWorld.sim (solarArgs 20 15 (-5)) = .ok (s', out) ∧ s.transition calmWorld.sim (solarArgs 20 15 5) = .ok (s₂, out₂) ∧
    d ∈ s'.devices ∧ d₂ ∈ s₂.devices ∧ d.id = 2 ∧ d₂.id = 2 ∧ d.q = .fin y ∧ d₂.q = .fin y₂ ∧ y ≤ y₂ ∧ y₂ ≤ y + (5 - (-5)) / 100 := by
  obtain ⟨s, hsim, hsoc, hcfg, hall⟩ := solar_cases
  obtain ⟨s', out, h1, d, hd, hid, hg, hp⟩ := hall 20 15 (-5)
  obtain ⟨s₂, out₂, h2, d₂, hd₂, hid₂, -⟩ := hall 20 15 5
  obtain ⟨y, y₂, e1, e2, e3, e4⟩ := C135_generator_q (pot := 20) (p := 15) (q := -5) (q₂ := 5) anm6_clean hsim calm_good.exact h1 h2 hd hd₂ (hid₂.trans hid.symm) hg hp
    (by rw [hid]; rfl) (by rw [hid]; rfl) (by rw [hid]; rfl) (by rw [hid]; rfl) (by rw [hid]; rfl) (by rw [hid]; rfl) (by norm_num)
  exact ⟨s, s', s₂, out, out₂, d, d₂, y, y₂, h1, h2, hd, hd₂, hid, hid₂, e1, e2, e3, e4⟩

end Anm
