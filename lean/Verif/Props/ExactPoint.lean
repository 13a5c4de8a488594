import Verif.Props.OneSolution
import Mathlib.Topology.MetricSpace.Contracting
import Mathlib.Analysis.Normed.Group.Constructions

/-!
C151: next to every converged result of the load flow of ANM6, at usual voltages, there is an exact solution of the load flow equations.

The load flow stops when the equations hold up to a tolerance (`solve_load_flow.py:176-215`). The exact solution is the fixed point of the map
that computes the currents from the voltages and the voltages from the currents, which contracts around the converged voltages.
-/

namespace Anm

open Complex Spec NR ComplexConjugate

noncomputable section

/-- One sweep: the currents that the voltages `U` need for the powers `S`, and the voltages that follow from them. -/
def sweep (S U : Fin 5 → ℂ) (k : Fin 5) : ℂ :=
  1 + ∑ l ∈ easyRadial.path k, easyRadial.z l * ∑ i ∈ easyRadial.sub l, conj (S i / U i)

theorem sweep_ok : (∀ k, ∑ l ∈ easyRadial.path k, easyZn l * ∑ i ∈ easyRadial.sub l, powO i / (79/100 * (79/100)) ≤ 83/100) ∧
    (∀ k, ∑ l ∈ easyRadial.path k, easyZn l * ∑ _i ∈ easyRadial.sub l, (18/1000000 : ℚ) ≤ 1/10000) ∧
    (∀ k, ∑ l ∈ easyRadial.path k, easyZn l * (∑ _i ∈ easyRadial.sub l, (18/1000000 + 0 : ℚ) +
      ∑ i ∈ easyRadial.sub l, powO i / (4/5 * (79/100)) * oneE i) < oneE k) ∧
    (∀ k, ∑ l ∈ easyRadial.path k, easyZn l * (∑ _i ∈ easyRadial.sub l, (0 + 0 : ℚ) +
      ∑ i ∈ easyRadial.sub l, powO i / (4/5 * (79/100)) * oneE i) < oneE k) ∧
    (∑ _i ∈ easyRadial.sub 0, (18/1000000 + 0 : ℚ) + ∑ i ∈ easyRadial.sub 0, powO i / (4/5 * (79/100)) * oneE i ≤ 8/10000) := by
  decide +kernel

theorem sweep_sub (S U U' : Fin 5 → ℂ) (k : Fin 5) : sweep S U k - sweep S U' k =
    ∑ l ∈ easyRadial.path k, easyRadial.z l * ∑ i ∈ easyRadial.sub l, (conj (S i / U i) - conj (S i / U' i)) := by
  simp only [sweep, Finset.sum_sub_distrib, mul_sub]
  ring

theorem sweep_le {c : Fin 5 → ℂ} {b : Fin 5 → ℝ} (h : ∀ i, ‖c i‖ ≤ b i) (k : Fin 5) :
    ‖∑ l ∈ easyRadial.path k, easyRadial.z l * ∑ i ∈ easyRadial.sub l, c i‖ ≤
      ∑ l ∈ easyRadial.path k, (easyZn l : ℝ) * ∑ i ∈ easyRadial.sub l, b i := by
  refine (norm_sum_le _ _).trans (Finset.sum_le_sum fun l _ => ?_)
  rw [norm_mul]
  exact mul_le_mul (easyZ_le l) ((norm_sum_le _ _).trans (Finset.sum_le_sum fun i _ => h i)) (norm_nonneg _) ((norm_nonneg _).trans (easyZ_le l))

/-- The sweep contracts where the voltages are at least 79 %. -/
theorem sweep_contracts {S U U' : Fin 5 → ℂ} (hS : ∀ k, ‖S k‖ ≤ powO k) (h : ∀ k, 79/100 ≤ ‖U k‖) (h' : ∀ k, 79/100 ≤ ‖U' k‖) :
    dist (sweep S U) (sweep S U') ≤ 83/100 * dist U U' := by
  refine (dist_pi_le_iff (by positivity)).2 fun k => ?_
  rw [dist_eq_norm, sweep_sub]
  refine (sweep_le (b := fun i => powO i / (79/100 * (79/100)) * dist U U') (fun i => ?_) k).trans ?_
  · have u0 : U i ≠ 0 := norm_pos_iff.1 (lt_of_lt_of_le (by norm_num) (h i))
    have u1 : U' i ≠ 0 := norm_pos_iff.1 (lt_of_lt_of_le (by norm_num) (h' i))
    have e : S i / U i - S i / U' i = S i * (U' i - U i) / (U i * U' i) := by field_simp
    rw [← map_sub, RCLike.norm_conj, e, norm_div, norm_mul, norm_mul, mul_div_right_comm]
    have hd : ‖U' i - U i‖ ≤ dist U U' := by
      rw [← dist_eq_norm, dist_comm]
      exact dist_le_pi_dist U U' i
    have hp : (79/100 * (79/100) : ℝ) ≤ ‖U i‖ * ‖U' i‖ := mul_le_mul (h i) (h' i) (by norm_num) (norm_nonneg _)
    exact mul_le_mul (div_le_div₀ ((norm_nonneg _).trans (hS i)) (hS i) (by norm_num) hp) hd (norm_nonneg _)
      (div_nonneg ((norm_nonneg _).trans (hS i)) (by norm_num))
  · have h1 := sweep_ok.1 k
    rify at h1
    refine le_trans (le_of_eq ?_) (mul_le_mul_of_nonneg_right h1 (dist_nonneg (x := U) (y := U')))
    rw [Finset.sum_mul]
    refine Finset.sum_congr rfl fun l _ => ?_
    rw [mul_assoc, Finset.sum_mul]

/-- A fixed point of the sweep solves the load flow equations. -/
theorem sweep_fixed {S U : Fin 5 → ℂ} (h : sweep S U = U) (k : Fin 5) :
    NR.curr (ymat 5 easyLines) (Fin.cons 1 U) k.succ = conj (S k / U k) := by
  set x : Fin 6 → ℂ := Fin.cons 1 U with hx
  have hl : ∀ l, easyRadial.line x l = ∑ i ∈ easyRadial.sub l, conj (S i / U i) := by
    intro l
    have g : ∀ k, x k.succ = sweep S U k := fun k => by rw [h]; rfl
    have x0 : x 0 = 1 := rfl
    rw [Radial.line, div_eq_iff (easyRadial.z_ne l), g]
    have g0 := g 0
    have g1 := g 1
    fin_cases l
    · change _ - x 0 = _
      rw [x0]
      simp [sweep, easyRadial]
      ring
    · change _ - x (Fin.succ 0) = _
      rw [g0]
      simp [sweep, easyRadial]
      ring
    · change _ - x (Fin.succ 0) = _
      rw [g0]
      simp [sweep, easyRadial]
      ring
    · change _ - x (Fin.succ 1) = _
      rw [g1]
      simp [sweep, easyRadial]
      ring
    · change _ - x (Fin.succ 1) = _
      rw [g1]
      simp [sweep, easyRadial]
      ring
  have hs : ∀ l, ∑ i ∈ easyRadial.sub l, NR.curr (ymat 5 easyLines) x i.succ = ∑ i ∈ easyRadial.sub l, conj (S i / U i) := fun l => by
    rw [easyRadial.subtree, ← hl l]; rfl
  rw [easyRadial.own (fun i => NR.curr (ymat 5 easyLines) x i.succ) k, easyRadial.own (fun i => conj (S i / U i)) k, hs k]
  congr 1
  exact Finset.sum_congr rfl fun l _ => hs l

/-- The voltages nearly are a fixed point of the sweep. -/
theorem sweep_near {S : Fin 5 → ℂ} {W : Fin 6 → ℂ} (h0 : W 0 = 1) (hm : ∀ k, ‖missing (ymat 5 easyLines) S W k‖ ≤ 18/1000000) :
    dist (sweep S fun k => W k.succ) (fun k => W k.succ) ≤ 1/10000 := by
  refine (dist_pi_le_iff (by norm_num)).2 fun k => ?_
  have e : W k.succ - sweep S (fun k => W k.succ) k = ∑ l ∈ easyRadial.path k, easyRadial.z l * ∑ i ∈ easyRadial.sub l, missing (ymat 5 easyLines) S W i := by
    have h1 := easyRadial.sum_line W k
    have h2 : ∀ l, easyRadial.line W l = ∑ i ∈ easyRadial.sub l, (missing (ymat 5 easyLines) S W i + conj (S i / W i.succ)) := by
      intro l
      rw [Radial.line, ← easyRadial.subtree]
      exact Finset.sum_congr rfl fun i _ => by rw [missing]; ring
    rw [h0, sub_eq_iff_eq_add] at h1
    rw [h1, sweep]
    simp only [h2, Finset.sum_add_distrib, mul_add]
    ring
  rw [dist_comm, dist_eq_norm, e]
  refine (sweep_le hm k).trans ?_
  have h1 := sweep_ok.2.1 k
  rify at h1
  exact h1

/-- The exact voltages next to the converged ones. -/
theorem sweep_exists {S : Fin 5 → ℂ} {W : Fin 6 → ℂ} (hS : ∀ k, ‖S k‖ ≤ powO k) (h0 : W 0 = 1) (hm : ∀ k, ‖missing (ymat 5 easyLines) S W k‖ ≤ 18/1000000)
    (hv : ∀ k : Fin 5, 4/5 ≤ ‖W k.succ‖) : ∃ U : Fin 5 → ℂ, sweep S U = U ∧ ∀ k, 79/100 ≤ ‖U k‖ := by
  set C : Fin 5 → ℂ := fun k => W k.succ with hC
  have low : ∀ U ∈ Metric.closedBall C (1/100), ∀ k, 79/100 ≤ ‖U k‖ := by
    intro U hU k
    have h1 := (dist_le_pi_dist U C k).trans (Metric.mem_closedBall.1 hU)
    rw [dist_eq_norm] at h1
    have h2 := norm_sub_norm_le (C k) (U k)
    rw [norm_sub_rev] at h2
    have := hv k
    change 4/5 ≤ ‖C k‖ at this
    linarith
  have hmaps : Set.MapsTo (sweep S) (Metric.closedBall C (1/100)) (Metric.closedBall C (1/100)) := by
    intro U hU
    rw [Metric.mem_closedBall] at hU ⊢
    have h1 := dist_triangle (sweep S U) (sweep S C) C
    have h2 := sweep_contracts hS (low U (Metric.mem_closedBall.2 hU)) (low C (Metric.mem_closedBall_self (by norm_num)))
    have h3 := sweep_near h0 hm
    linarith
  have hcon : ContractingWith (83/100) (hmaps.restrict (sweep S) _ _) := by
    refine ⟨by rw [← NNReal.coe_lt_coe]; norm_num, LipschitzWith.of_dist_le_mul fun x y => ?_⟩
    have := sweep_contracts hS (low x.1 x.2) (low y.1 y.2)
    rw [show ((83/100 : NNReal) : ℝ) = 83/100 by norm_num]
    exact this
  obtain ⟨U, hU, hf, -⟩ := ContractingWith.exists_fixedPoint' Metric.isClosed_closedBall.isComplete hmaps hcon (Metric.mem_closedBall_self (by norm_num : (0:ℝ) ≤ 1/100)) (edist_ne_top _ _)
  exact ⟨U, hf, low U hU⟩

/-- **C151, equations.** Next to every solution up to the tolerance of the code, with voltages of at least 80 %, there is an exact solution of the load flow
equations of ANM6, and no other one has voltages of at least 80 %. -/
theorem C151_exact {S W : ℤ → ℂ} (hS : InReach S) (hW : FlowOf (144/10000000) S W) (h : HighVoltage W) :
    ∃ V : ℤ → ℂ, FlowOf 0 S V ∧ (∀ k : ℤ, 0 ≤ k → k < 6 → ‖V k - W k‖ ≤ 2/10000) ∧
      ‖V 0 * conj (leaving easyLines V 0) - W 0 * conj (leaving easyLines W 0)‖ ≤ 8/10000 ∧
      ∀ V' : ℤ → ℂ, FlowOf 0 S V' → HighVoltage V' → ∀ k : ℤ, 0 ≤ k → k < 6 → V' k = V k := by
  have hk := missing_six hW h
  rw [show (144/10000000 : ℝ) / (4/5) = 18/1000000 by norm_num] at hk
  have hv6 : ∀ k : Fin 5, 4/5 ≤ ‖six W k.succ‖ := fun k => by simpa [six] using h k
  obtain ⟨U, hU, lowU⟩ := sweep_exists (reach_pow hS) hW.1 hk hv6
  set V : ℤ → ℂ := atId (Fin.cons 1 U : Fin 6 → ℂ) with hV
  have V6 : six V = Fin.cons 1 U := by
    funext k
    fin_cases k <;> rfl
  have Vs : ∀ k : Fin 5, V (k.1 + 1) = U k := fun k => by
    fin_cases k <;> rfl
  have V0 : V 0 = 1 := rfl
  have F : FlowOf 0 S V := by
    refine ⟨V0, fun k => ?_⟩
    have u0 : U k ≠ 0 := norm_pos_iff.1 (lt_of_lt_of_le (by norm_num) (lowU k))
    have h1 := sweep_fixed hU k
    rw [curr_eq_leaving (m := 5) easyLines_good.1 easyLines_good.2] at h1
    have e1 : ((k.succ : Fin 6).1 : ℤ) = k.1 + 1 := by simp
    rw [e1] at h1
    rw [Vs, hV, h1, conj_conj, mul_div_cancel₀ _ u0, sub_self, norm_zero]
  have mV : ∀ k, ‖missing (ymat 5 easyLines) (fun k => S (k.1 + 1)) (six V) k‖ ≤ 0 := fun k => by
    rw [missing, V6, sweep_fixed hU k]
    simp
  have low : ∀ k : Fin 5, 79/100 ≤ ‖six V k.succ‖ := fun k => by
    rw [V6]
    exact lowU k
  refine ⟨V, F, ?_⟩
  obtain ⟨r1, r2⟩ := easyRadial.close (lo := fun _ => 4/5) (lo' := fun _ => 79/100) (e := fun k => oneE k) (c := fun _ => 18/1000000) (c' := fun _ => 0)
      (s := fun k => powO k) (zn := fun l => easyZn l) hW.1 (W := six V) V0 (reach_pow hS) easyZ_le (fun _ => by norm_num) (fun _ => by norm_num)
      hv6 low hk mV (fun k => by exact_mod_cast (one_ok.2.2.2 k).2) (fun k => by
        have := sweep_ok.2.2.1 k
        rify at this
        exact this)
  refine ⟨fun k hk0 hk => ?_, ?_, fun V' F' H' => ?_⟩
  · obtain ⟨j, rfl⟩ : ∃ j : ℕ, k = j := ⟨k.toNat, (Int.toNat_of_nonneg hk0).symm⟩
    rcases j with _ | j
    · have : V ((0 : ℕ) : ℤ) - W ((0 : ℕ) : ℤ) = 0 := sub_eq_zero.2 (V0.trans hW.1.symm)
      rw [this]
      norm_num
    · have := (r1 ⟨j, by omega⟩).trans (show ((oneE ⟨j, by omega⟩ : ℚ) : ℝ) ≤ 2/10000 by
        have := (one_ok.2.2.2 ⟨j, by omega⟩).1
        rify at this
        exact this)
      rw [norm_sub_rev]
      simpa [six] using this
  · have h3 := r2 0
    have h4 := sweep_ok.2.2.2.2
    rify at h4
    have h5 := h3.trans h4
    have e : ∀ x : Fin 6 → ℂ, x 0 = 1 → leaving easyLines (atId x) 0 = -easyRadial.line x 0 := by
      intro x hx
      rw [show (0 : ℤ) = ((0 : Fin 6).1 : ℤ) from rfl, ← curr_eq_leaving (m := 5) easyLines_good.1 easyLines_good.2, easy_currents]
      simp [Radial.line, easyRadial]
    have eV := e (six V) V0
    have eW := e (six W) hW.1
    rw [leaving_six] at eV eW
    rw [V0, hW.1, one_mul, one_mul, ← map_sub, RCLike.norm_conj, eV, eW, show -easyRadial.line (six V) 0 - -easyRadial.line (six W) 0 =
      easyRadial.line (six W) 0 - easyRadial.line (six V) 0 by ring]
    exact h5
  · have z1 := missing_six F' H'
    rw [zero_div] at z1
    have key : ∀ t : ℝ, 0 < t → ∀ k : Fin 5, ‖six V' k.succ - six V k.succ‖ ≤ t * oneE k := by
      intro t ht
      refine (easyRadial.close (lo := fun _ => 4/5) (lo' := fun _ => 79/100) (e := fun k => t * oneE k) (c := fun _ => 0) (c' := fun _ => 0)
        (s := fun k => powO k) (zn := fun l => easyZn l) F'.1 (W := six V) V0 (reach_pow hS) easyZ_le (fun _ => by norm_num) (fun _ => by norm_num)
        (fun k => by simpa [six] using H' k) low z1 mV (fun k => ?_) (fun k => ?_)).1
      · have := (one_ok.2.2.2 k).2
        exact mul_pos ht (by exact_mod_cast this)
      · have := sweep_ok.2.2.2.1 k
        rify at this
        have := mul_lt_mul_of_pos_left this ht
        refine lt_of_eq_of_lt ?_ this
        rw [Finset.mul_sum]
        refine Finset.sum_congr rfl fun l _ => ?_
        rw [mul_left_comm, mul_add t, Finset.mul_sum, Finset.mul_sum]
        congr 2
        · exact Finset.sum_congr rfl fun i _ => by simp
        · exact Finset.sum_congr rfl fun i _ => by ring
    have key' : ∀ k : Fin 5, six V' k.succ = six V k.succ := by
      intro k
      rw [← sub_eq_zero, ← norm_le_zero_iff]
      refine le_of_forall_pos_le_add fun ε hε => ?_
      refine (key ε hε k).trans ?_
      have := (one_ok.2.2.2 k).1
      have h3 : ((oneE k : ℚ) : ℝ) ≤ 1 := by exact_mod_cast this.trans (by norm_num)
      nlinarith
    intro k hk0 hk
    obtain ⟨j, rfl⟩ : ∃ j : ℕ, k = j := ⟨k.toNat, (Int.toNat_of_nonneg hk0).symm⟩
    rcases j with _ | j
    · exact F'.1.trans V0.symm
    · have := key' ⟨j, by omega⟩
      simpa [six] using this

section
variable {o : LFOracle} {qp : QP ℝ} {pi : ℝ} {s s' : Sim ℝ} {a : Sim.Args ℝ} {out : Sim.TransOut ℝ} {p q : ℕ → ℝ} {d0 d1 d2 d3 d4 d5 d6 : Device ℝ}

/-- **C151, transitions.** If the load flow of a transition of ANM6 converges to voltages of at least 80 %, then the load flow equations for the powers
of the devices have an exact solution; it is the only one with voltages of at least 80 %, and the reported voltages and the reported power of the slack
device differ from it by at most 0.0002 and 0.0008 p.u., whatever the accuracy of the linear solver. -/
theorem C151_transition (hs : SimOf anm6Net (.fin (1/4)) (.fin 100) s) (hc : SameConfig easySim s) (h : s.transition ⟨qp, realPF o, pi⟩ a = .ok (s', out))
    (hcv : out.converged = true) (hv : HighVoltage (busVoltage s')) (D : Injects s' p q d0 d1 d2 d3 d4 d5 d6) (R : InReach (busPowers p q)) :
    ∃ V : ℤ → ℂ, FlowOf 0 (busPowers p q) V ∧ (∀ k : ℤ, 0 ≤ k → k < 6 → ‖V k - busVoltage s' k‖ ≤ 2/10000) ∧
      (∃ P Q : ℝ, d0.p = .fin P ∧ d0.q = .fin Q ∧ ‖V 0 * conj (leaving easyLines V 0) - ⟨P, Q⟩‖ ≤ 8/10000) ∧
      ∀ V' : ℤ → ℂ, FlowOf 0 (busPowers p q) V' → HighVoltage V' → ∀ k : ℤ, 0 ≤ k → k < 6 → V' k = V k := by
  obtain ⟨W, hW, FW⟩ := easy_flow hs hc h hcv D
  obtain ⟨e0, -, m0, -⟩ := easy_inject h h hc D
  have hm' := numbered_same (sameConfig_transition h) (numbered_same hc easy_numbered)
  have bv : ∀ k : ℤ, 0 ≤ k → k < 6 → busVoltage s' k = W k := by
    intro k hk0 hk
    have hmem : k ∈ s'.buses.map Bus.id := by
      rw [hm'.ids]
      exact List.mem_map.2 ⟨k.toNat, List.mem_range.2 (by omega), Int.toNat_of_nonneg hk0⟩
    obtain ⟨b, hb, hid⟩ := List.mem_map.1 hmem
    exact busVoltage_eq hm' ⟨b, hb, hid, by rw [hW.v b hb, hid]⟩
  have w1 : HighVoltage W := fun k => by
    have := hv k
    rwa [bv _ (by omega) (by omega)] at this
  obtain ⟨V, F, h1, h2, h3⟩ := C151_exact R FW w1
  refine ⟨V, F, fun k hk0 hk => by rw [bv k hk0 hk]; exact h1 k hk0 hk, ⟨_, _, (easy_slack_power hs hc h D m0 hW).1, (easy_slack_power hs hc h D m0 hW).2, h2⟩, h3⟩

/-- C151 applies to the steps of ANM6Easy in which nothing is done. -/
example {k : ℕ} (hk : k < 96) : ∃ (s' : Sim ℝ) (p q : ℕ → ℝ) (d0 d1 d2 d3 d4 d5 d6 : Device ℝ) (V : ℤ → ℂ),
    Injects s' p q d0 d1 d2 d3 d4 d5 d6 ∧ FlowOf 0 (busPowers p q) V ∧ ∀ k : ℤ, 0 ≤ k → k < 6 → ‖V k - busVoltage s' k‖ ≤ 2/10000 := by
  obtain ⟨s, s', a, out, p, q, d0, d1, d2, d3, d4, d5, d6, h1, h2, h3, h4, h5, h6, h7, -⟩ := idle_usual hk
  obtain ⟨V, F, G, -⟩ := C151_transition h1 h2 h3 h4 h5 h6 h7
  exact ⟨s', p, q, d0, d1, d2, d3, d4, d5, d6, V, h6, F, G⟩

end

end

end Anm
