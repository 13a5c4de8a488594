import Verif.Props.Curtail
import Verif.Props.MpcApplied

/-! # A case of C94 in ANM6Easy -/

namespace Anm

open Spec

/-- The sun allows `pot` MW, `p` MW and `q` MVAr are asked for; the battery is asked for 100 MW. -/
noncomputable def solarArgs (pot p q : ℝ) : Sim.Args ℝ :=
  ⟨[(1, .fin (-1)), (3, .fin (-4)), (5, .fin 0)], [(2, .fin pot), (4, .fin 40)],
   [(2, .fin p), (4, .fin 11), (6, .fin 100)], [(2, .fin q), (4, .fin 0), (6, .fin 0)]⟩

/-- The sun allows `pot` MW, 15 MW are asked for; the battery is asked for 100 MW. -/
noncomputable def sunArgs (pot : ℝ) : Sim.Args ℝ := solarArgs pot 15 0

/-- ANM6Easy after a reset: transitions for any of these arguments succeed, and device 2 is the solar farm. -/
theorem solar_cases : ∃ s : Sim ℝ, SimOf anm6Net (.fin (1/4)) (.fin 100) s ∧ SocFin s ∧ SameConfig easySim s ∧
    ∀ pot p q, ∃ s' out, s.transition calmWorld.sim (solarArgs pot p q) = .ok (s', out) ∧
      ∃ d ∈ s'.devices, d.id = 2 ∧ d.isNonSlackGen = true ∧ HasGenParams d easyGen2 := by
  obtain ⟨a0, a, obs, y, dt, ha0, h0, hy, ht, hd, hlt⟩ := calm_start
  have ha := ha0.reset h0
  have hsim : SimOf anm6Net (.fin (1/4)) (.fin 100) a.env.sim := envOf_simOf (easy_env ha)
  have hcfg := easy_sameConfig ha
  have G := calm_good
  have hsoc : SocFin a.env.sim := ((easy_live ha fair_real G).2 y hy).1
  obtain ⟨d0, d1, d2, d3, d4, d5, d6, hds, k0, k1, k2, k3, k4, k5, k6⟩ := easy_devices hcfg
  have hfa : ∀ pot p q, FiniteArgs a.env.sim (solarArgs pot p q) := by
    intro pot p q
    have hid : d0.id = 0 ∧ d1.id = 1 ∧ d2.id = 2 ∧ d3.id = 3 ∧ d4.id = 4 ∧ d5.id = 5 ∧ d6.id = 6 := by
      rw [k0, k1, k2, k3, k4, k5, k6]
      exact ⟨rfl, rfl, rfl, rfl, rfl, rfl, rfl⟩
    obtain ⟨j0, j1, j2, j3, j4, j5, j6⟩ := hid
    have c0 : d0.isLoad = false ∧ d0.isNonSlackGen = false ∧ d0.isStorage = false := by rw [k0]; exact ⟨rfl, rfl, rfl⟩
    have c1 : d1.isNonSlackGen = false ∧ d1.isStorage = false := by rw [k1]; exact ⟨rfl, rfl⟩
    have c2 : d2.isLoad = false := by rw [k2]; rfl
    have c3 : d3.isNonSlackGen = false ∧ d3.isStorage = false := by rw [k3]; exact ⟨rfl, rfl⟩
    have c4 : d4.isLoad = false := by rw [k4]; rfl
    have c5 : d5.isNonSlackGen = false ∧ d5.isStorage = false := by rw [k5]; exact ⟨rfl, rfl⟩
    have c6 : d6.isLoad = false ∧ d6.isNonSlackGen = false := by rw [k6]; exact ⟨rfl, rfl⟩
    constructor
    · intro d hd hl
      rw [hds] at hd
      simp only [List.mem_cons, List.not_mem_nil, or_false] at hd
      rcases hd with rfl | rfl | rfl | rfl | rfl | rfl | rfl
      all_goals first
        | (simp [c0, c2, c4, c6] at hl; done)
        | (rw [j1]; exact ⟨_, rfl⟩)
        | (rw [j3]; exact ⟨_, rfl⟩)
        | (rw [j5]; exact ⟨_, rfl⟩)
    · intro d hd hl
      rw [hds] at hd
      simp only [List.mem_cons, List.not_mem_nil, or_false] at hd
      rcases hd with rfl | rfl | rfl | rfl | rfl | rfl | rfl
      all_goals first
        | (simp [c0, c1, c3, c5, c6] at hl; done)
        | (rw [j2]; exact ⟨_, rfl⟩)
        | (rw [j4]; exact ⟨_, rfl⟩)
    · intro d hd hl
      rw [hds] at hd
      simp only [List.mem_cons, List.not_mem_nil, or_false] at hd
      rcases hd with rfl | rfl | rfl | rfl | rfl | rfl | rfl
      all_goals first
        | (simp [c0, c1, c3, c5] at hl; done)
        | (rw [j2]; exact ⟨_, _, rfl, rfl⟩)
        | (rw [j4]; exact ⟨_, _, rfl, rfl⟩)
        | (rw [j6]; exact ⟨_, _, rfl, rfl⟩)
  have hw : Workable a.env.sim := workable_same hcfg easy_workable
  refine ⟨_, hsim, hsoc, hcfg, fun pot p q => ?_⟩
  obtain ⟨s', out, h1⟩ := C72_transition_total (c := calmWorld.sim) G.exact (by norm_num) anm6_clean hsim hw (fun _ => ⟨_, rfl⟩) hsoc (hfa pot p q)
  obtain ⟨f0, f1, f2, f3, f4, f5, f6, hfs, m0, m1, m2, m3, m4, m5, m6⟩ :=
    easy_devices (sameConfig_trans hcfg (sameConfig_transition h1))
  exact ⟨s', out, h1, f2, by rw [hfs]; simp, by rw [m2]; rfl, by rw [m2]; rfl, by rw [m2]; exact ⟨rfl, rfl, rfl, rfl, rfl, rfl, rfl⟩⟩

/-- With a potential of 20 MW the solar farm injects 15 MW, with one of 10 MW only 10 MW; the battery gives as much
as its energy allows, up to 50 MW. -/
example : ∃ (s s' s₂ : Sim ℝ) (out out₂ : Sim.TransOut ℝ) (d d₂ e : Device ℝ) (z : ℝ),
    SimOf anm6Net (.fin (1/4)) (.fin 100) s ∧ s.transition calmWorld.sim (sunArgs 10) = .ok (s', out) ∧
    s.transition calmWorld.sim (sunArgs 20) = .ok (s₂, out₂) ∧ d ∈ s'.devices ∧ d₂ ∈ s₂.devices ∧ e ∈ s'.devices ∧
    d.id = 2 ∧ d₂.id = 2 ∧ e.id = 6 ∧ d₂.p = .fin (15/100) ∧ d.p = .fin (10/100) ∧
    0 ≤ z ∧ z ≤ 1 ∧ e.p = .fin (min (18/5 * z) (1/2)) := by
  obtain ⟨s, hsim, hsoc, hcfg, hall⟩ := solar_cases
  have G := calm_good
  obtain ⟨d0, d1, d2, d3, d4, d5, d6, hds, k0, k1, k2, k3, k4, k5, k6⟩ := easy_devices hcfg
  obtain ⟨s', out, h1, -⟩ := hall 10 15 0
  obtain ⟨s₂, out₂, h2, -⟩ := hall 20 15 0
  obtain ⟨f0, f1, f2, f3, f4, f5, f6, hfs, m0, m1, m2, m3, m4, m5, m6⟩ :=
    easy_devices (sameConfig_trans hcfg (sameConfig_transition h1))
  obtain ⟨g0, g1, g2, g3, g4, g5, g6, hgs, n0, n1, n2, n3, n4, n5, n6⟩ :=
    easy_devices (sameConfig_trans hcfg (sameConfig_transition h2))
  have i2 : f2.id = 2 := by rw [m2]; rfl
  have i2' : g2.id = 2 := by rw [n2]; rfl
  have i6 : f6.id = 6 := by rw [m6]; rfl
  have hf2 : HasGenParams f2 easyGen2 := by
    rw [m2]; exact ⟨rfl, rfl, rfl, rfl, rfl, rfl, rfl⟩
  have hg2 : HasGenParams g2 easyGen2 := by
    rw [n2]; exact ⟨rfl, rfl, rfl, rfl, rfl, rfl, rfl⟩
  have hf6 : HasDesParams f6 easyDes := by
    rw [m6]; exact ⟨rfl, rfl, rfl, rfl, rfl, rfl, rfl, rfl, rfl, rfl, rfl⟩
  obtain ⟨z, hz, z1, z2⟩ := hsoc d6 (by rw [hds]; simp) (by rw [k6]; rfl)
  rw [show d6.socMin = .fin 0 by rw [k6]; rfl] at z1
  rw [show d6.socMax = .fin 1 by rw [k6]; rfl] at z2
  have z1' : 0 ≤ z := by simpa using z1
  have z2' : z ≤ 1 := by simpa using z2
  obtain ⟨x, y', x₂, y₂, e1, e2, e3, e4, e5, -⟩ := C94_generator (pot := 10) (pot₂ := 20) (p := 15) (q := 0) anm6_clean hsim G.exact h1 h2
    (d := f2) (d₂ := g2) (by rw [hfs]; simp) (by rw [hgs]; simp) (by rw [i2, i2']) (by rw [m2]; rfl) hf2
    (by rw [i2]; rfl) (by rw [i2]; rfl) (by norm_num) (by rw [i2]; rfl) (by rw [i2]; rfl) (by rw [i2]; rfl) (by rw [i2]; rfl)
  have hk := C89_generator (pot := 20) (p := 15) (q := 0) anm6_clean hsim (qpExact_keeps G.exact) h2 (d := g2) (by rw [hgs]; simp)
    (by rw [n2]; rfl) hg2 (by rw [i2']; rfl) (by rw [i2']; rfl) (by rw [i2']; rfl) (by
      rw [zero_div]; exact easyGen2_region (by norm_num) (by norm_num) (by norm_num))
  rw [hk.1] at e3
  injection e3 with e3
  subst e3
  have hfree : ClosestIn (DesCurve easyDes) (100 / 100) (0 / 100) (1/2) 0 := by
    refine ⟨by constructor <;> norm_num [easyDes, lineAt], fun p' q' h => ?_⟩
    have := h.pHi
    simp only [easyDes] at this
    simp only [sqDist]
    nlinarith [sq_nonneg q']
  obtain ⟨u, v, u1, -, u3, -⟩ := C94_storage (p := 100) (q := 0) anm6_clean hsim (by norm_num) G.exact h1 (d := f6) (by rw [hfs]; simp)
    (by rw [m6]; rfl) hf6 (by norm_num [easyDes]) (d0 := d6) (by rw [hds]; simp) (by rw [i6, k6]; rfl) hz (by simpa [easyDes] using z1')
    (by simpa [easyDes] using z2') (by rw [i6]; rfl) (by rw [i6]; rfl) hfree
  refine ⟨_, _, _, _, _, f2, g2, f6, z, hsim, h1, h2, by rw [hfs]; simp, by rw [hgs]; simp, by rw [hfs]; simp, i2, i2', i6,
    hk.1, ?_, z1', z2', ?_⟩
  · rw [e1, e5]
    norm_num [easyGen2]
  · rw [u1, u3]
    congr 1
    simp only [easyDes]
    rw [max_eq_right]
    · congr 1; ring
    · have : -((1 - z) / (1/4 * (9/10))) ≤ 0 := by
        rw [neg_nonpos]; exact div_nonneg (by linarith) (by norm_num)
      refine this.trans (le_min ?_ (by norm_num))
      have : 9/10 * (z - 0) / (1/4) = 18/5 * z := by ring
      rw [this]; linarith

end Anm
