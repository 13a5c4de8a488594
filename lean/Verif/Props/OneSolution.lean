import Verif.Props.NewtonClose
import Verif.Props.NothingCost
import Verif.Props.Losses
import Verif.Props.Clipped

/-!
# C150: the load flow of ANM6 has one solution at usual voltages

The result of a converged load flow does not depend on the linear solver, on its rounding errors or on the number of iterations.
-/

set_option linter.unusedSectionVars false

namespace Anm

open Spec Complex ComplexConjugate Radial

noncomputable section

namespace Spec

/-- The complex powers injected at the buses 3, 4 and 5 are among those that the devices of ANM6 can inject (44, 76 and 98 MVA), and nothing is injected
at the buses 1 and 2. -/
def InReach (S : ℤ → ℂ) : Prop := S 1 = 0 ∧ S 2 = 0 ∧ ‖S 3‖ ≤ 44/100 ∧ ‖S 4‖ ≤ 76/100 ∧ ‖S 5‖ ≤ 98/100

/-- The voltages of the buses 1 to 5 are at least 80 % of their nominal values. -/
def HighVoltage (V : ℤ → ℂ) : Prop := ∀ k : Fin 5, 4/5 ≤ ‖V (k.1 + 1)‖

/-- The voltages `V` solve the load flow equations of ANM6 for the injections `S`, up to `ε` in every complex power. -/
def FlowOf (ε : ℝ) (S V : ℤ → ℂ) : Prop :=
  V 0 = 1 ∧ ∀ k : Fin 5, ‖V (k.1 + 1) * conj (leaving easyLines V (k.1 + 1)) - S (k.1 + 1)‖ ≤ ε

end Spec

/-- Bounds on the powers of the buses, and on the differences of the voltages and of the currents through the lines. -/
def powO : Fin 5 → ℚ := ![0, 0, 44/100, 76/100, 98/100]
def oneE : Fin 5 → ℚ := ![146/1000000, 169/1000000, 156/1000000, 187/1000000, 186/1000000]

theorem one_ok : (∀ k, ∑ l ∈ easyRadial.path k, easyZn l * (∑ i ∈ easyRadial.sub l, (18/1000000 + 18/1000000 : ℚ) +
      ∑ i ∈ easyRadial.sub l, powO i / (4/5 * (4/5)) * oneE i) < oneE k) ∧
    (∀ l, ∑ i ∈ easyRadial.sub l, (18/1000000 + 18/1000000 : ℚ) + ∑ i ∈ easyRadial.sub l, powO i / (4/5 * (4/5)) * oneE i ≤ 8/10000) ∧
    (∀ k, ∑ l ∈ easyRadial.path k, easyZn l * (∑ i ∈ easyRadial.sub l, (0 + 0 : ℚ) +
      ∑ i ∈ easyRadial.sub l, powO i / (4/5 * (4/5)) * oneE i) < oneE k) ∧ ∀ k, oneE k ≤ 2/10000 ∧ 0 < oneE k := by
  decide +kernel

/-- The voltages of the six buses. -/
def six (V : ℤ → ℂ) (k : Fin 6) : ℂ := V k.1

theorem atId_six (V : ℤ → ℂ) {i : ℤ} (h0 : 0 ≤ i) (h : i < 6) : atId (six V) i = V i := by
  unfold atId six
  rw [dif_pos (by omega)]
  simp only [Int.toNat_of_nonneg h0]

theorem leaving_six (V : ℤ → ℂ) (i : ℤ) : leaving easyLines (atId (six V)) i = leaving easyLines V i := by
  unfold leaving
  refine congrArg List.sum (List.map_congr_left fun l hl => ?_)
  obtain ⟨h1, h2⟩ := easyLines_good.2 l hl
  rw [atId_six V h1.1 (by simpa using h1.2), atId_six V h2.1 (by simpa using h2.2)]

theorem missing_six {ε : ℝ} {S V : ℤ → ℂ} (h : FlowOf ε S V) (hv : HighVoltage V) (k : Fin 5) :
    ‖missing (ymat 5 easyLines) (fun k => S (k.1 + 1)) (six V) k‖ ≤ ε / (4/5) := by
  have hk := hv k
  have e0 : six V k.succ = V (k.1 + 1) := by simp [six]
  have v0 : V (k.1 + 1) ≠ 0 := norm_pos_iff.1 (lt_of_lt_of_le (by norm_num) hk)
  have e : V (k.1 + 1) * conj (missing (ymat 5 easyLines) (fun k => S (k.1 + 1)) (six V) k) =
      V (k.1 + 1) * conj (leaving easyLines V (k.1 + 1)) - S (k.1 + 1) := by
    rw [missing, map_sub, conj_conj, curr_eq_leaving (m := 5) easyLines_good.1 easyLines_good.2, leaving_six, e0]
    simp only [Fin.val_succ, Nat.cast_add, Nat.cast_one]
    field_simp
  have h1 := h.2 k
  rw [← e, norm_mul, RCLike.norm_conj] at h1
  rw [le_div_iff₀ (by norm_num)]
  nlinarith [norm_nonneg (missing (ymat 5 easyLines) (fun k => S (k.1 + 1)) (six V) k)]

theorem reach_pow {S : ℤ → ℂ} (h : InReach S) (k : Fin 5) : ‖S (k.1 + 1)‖ ≤ powO k := by
  obtain ⟨h1, h2, h3, h4, h5⟩ := h
  fin_cases k
  · simp [h1, powO]
  · simp [h2, powO]
  · simpa [powO] using h3
  · simpa [powO] using h4
  · simpa [powO] using h5

/-- **C150, exact solutions.** For given injections, the load flow equations of ANM6 have at most one solution with voltages of at least 80 %. -/
theorem C150_only {S V W : ℤ → ℂ} (hS : InReach S) (hV : FlowOf 0 S V) (hW : FlowOf 0 S W) (h1 : HighVoltage V) (h2 : HighVoltage W) :
    ∀ k : ℤ, 0 ≤ k → k < 6 → V k = W k := by
  have key : ∀ t : ℝ, 0 < t → ∀ k : Fin 5, ‖six V k.succ - six W k.succ‖ ≤ t * oneE k := by
    intro t ht
    have z1 := missing_six hV h1
    have z2 := missing_six hW h2
    refine (easyRadial.close (lo := fun _ => 4/5) (lo' := fun _ => 4/5) (e := fun k => t * oneE k) (c := fun _ => 0 / (4/5)) (c' := fun _ => 0 / (4/5))
      (s := fun k => powO k) (zn := fun l => easyZn l) hV.1 hW.1 (reach_pow hS) easyZ_le (fun _ => by norm_num) (fun _ => by norm_num)
      (fun k => by simpa [six] using h1 k) (fun k => by simpa [six] using h2 k) z1 z2 (fun k => ?_) (fun k => ?_)).1
    · have := (one_ok.2.2.2 k).2
      exact mul_pos ht (by exact_mod_cast this)
    · have := one_ok.2.2.1 k
      rify at this
      have := mul_lt_mul_of_pos_left this ht
      refine lt_of_eq_of_lt ?_ this
      rw [Finset.mul_sum]
      refine Finset.sum_congr rfl fun l _ => ?_
      rw [mul_left_comm, mul_add t, Finset.mul_sum, Finset.mul_sum]
      congr 2
      · exact Finset.sum_congr rfl fun i _ => by simp
      · exact Finset.sum_congr rfl fun i _ => by ring
  have key' : ∀ k : Fin 5, six V k.succ = six W k.succ := by
    intro k
    rw [← sub_eq_zero, ← norm_le_zero_iff]
    refine le_of_forall_pos_le_add fun ε hε => ?_
    refine (key ε hε k).trans ?_
    have := (one_ok.2.2.2 k).1
    have h3 : ((oneE k : ℚ) : ℝ) ≤ 1 := by exact_mod_cast this.trans (by norm_num)
    nlinarith
  intro k hk0 hk
  obtain ⟨j, rfl⟩ : ∃ j : ℕ, k = j := ⟨k.toNat, (Int.toNat_of_nonneg hk0).symm⟩
  rcases j with _ | j
  · exact hV.1.trans hW.1.symm
  · have := key' ⟨j, by omega⟩
    simpa [six] using this

/-- **C150, solutions up to the tolerance.** Two solutions up to the tolerance of the code, with voltages of at least 80 %, differ by at most 0.0002 p.u. in
every voltage and by at most 0.0008 p.u. in the power of the slack bus. -/
theorem C150_near {S V W : ℤ → ℂ} (hS : InReach S) (hV : FlowOf (144/10000000) S V) (hW : FlowOf (144/10000000) S W)
    (h1 : HighVoltage V) (h2 : HighVoltage W) :
    (∀ k : ℤ, 0 ≤ k → k < 6 → ‖V k - W k‖ ≤ 2/10000) ∧
      ‖V 0 * conj (leaving easyLines V 0) - W 0 * conj (leaving easyLines W 0)‖ ≤ 8/10000 := by
  have cc : (144/10000000 : ℝ) / (4/5) = 18/1000000 := by norm_num
  have z1 := missing_six hV h1
  have z2 := missing_six hW h2
  rw [cc] at z1 z2
  obtain ⟨r1, r2⟩ := easyRadial.close (lo := fun _ => 4/5) (lo' := fun _ => 4/5) (e := fun k => oneE k) (c := fun _ => 18/1000000) (c' := fun _ => 18/1000000)
      (s := fun k => powO k) (zn := fun l => easyZn l) hV.1 hW.1 (reach_pow hS) easyZ_le (fun _ => by norm_num) (fun _ => by norm_num)
      (fun k => by simpa [six] using h1 k) (fun k => by simpa [six] using h2 k) z1 z2 (fun k => by exact_mod_cast (one_ok.2.2.2 k).2) (fun k => by
        have := one_ok.1 k
        rify at this
        exact this)
  constructor
  · intro k hk0 hk
    obtain ⟨j, rfl⟩ : ∃ j : ℕ, k = j := ⟨k.toNat, (Int.toNat_of_nonneg hk0).symm⟩
    rcases j with _ | j
    · have : V ((0 : ℕ) : ℤ) - W ((0 : ℕ) : ℤ) = 0 := sub_eq_zero.2 (hV.1.trans hW.1.symm)
      rw [this]
      norm_num
    · have := (r1 ⟨j, by omega⟩).trans (show ((oneE ⟨j, by omega⟩ : ℚ) : ℝ) ≤ 2/10000 by
        have := (one_ok.2.2.2 ⟨j, by omega⟩).1
        rify at this
        exact this)
      simpa [six] using this
  · have h3 := r2 0
    have h4 := one_ok.2.1 0
    rify at h4
    have h5 := h3.trans h4
    have e : ∀ x : Fin 6 → ℂ, x 0 = 1 → leaving easyLines (atId x) 0 = -easyRadial.line x 0 := by
      intro x hx
      rw [show (0 : ℤ) = ((0 : Fin 6).1 : ℤ) from rfl, ← curr_eq_leaving (m := 5) easyLines_good.1 easyLines_good.2, easy_currents]
      simp [Radial.line, easyRadial]
    have eV := e (six V) hV.1
    have eW := e (six W) hW.1
    rw [leaving_six] at eV eW
    rw [hV.1, hW.1, one_mul, one_mul, ← map_sub, RCLike.norm_conj, eV, eW, show -easyRadial.line (six V) 0 - -easyRadial.line (six W) 0 =
      -(easyRadial.line (six V) 0 - easyRadial.line (six W) 0) by ring, norm_neg]
    exact h5

namespace Spec

/-- The powers at the buses 3, 4 and 5, from the powers of the devices in MW and MVAr. -/
def busPowers (p q : ℕ → ℝ) (i : ℤ) : ℂ :=
  if i = 3 then ⟨(p 1 + p 2) / 100, (q 1 + q 2) / 100⟩ else if i = 4 then ⟨(p 3 + p 4) / 100, (q 3 + q 4) / 100⟩
  else if i = 5 then ⟨(p 5 + p 6) / 100, (q 5 + q 6) / 100⟩ else 0

end Spec

section
variable {o o₁ o₂ : LFOracle} {qp : QP ℝ} {pi : ℝ} {s s' s₁ s₂ : Sim ℝ} {a : Sim.Args ℝ} {out out₁ out₂ : Sim.TransOut ℝ} {p q : ℕ → ℝ}
  {d0 d1 d2 d3 d4 d5 d6 : Device ℝ}

theorem easy_flow (hs : SimOf anm6Net (.fin (1/4)) (.fin 100) s) (hc : SameConfig easySim s) (h : s.transition ⟨qp, realPF o, pi⟩ a = .ok (s', out))
    (hcv : out.converged = true) (D : Injects s' p q d0 d1 d2 d3 d4 d5 d6) :
    ∃ V, Solved s' easyLines V ∧ FlowOf (144/10000000) (busPowers p q) V := by
  have hm := numbered_same hc easy_numbered
  have hm' := numbered_same (sameConfig_transition h) hm
  obtain ⟨V, hV, hB⟩ := C25_converged (ls := easyLines) anm6_clean hs hm (finiteLines_same hc easy_finiteLines) h hcv
  obtain ⟨i, j, hone⟩ := oneSlack_of_file anm6_clean anm6_documented hs
  have two : ∀ x y : ℝ, sumX [.fin x, .fin y] = .fin (x + y) := by
    intro x y
    simp [sumX, X.zero_def]
  obtain ⟨f0, f1, f2, f3, f4, f5, f6⟩ := D.bus
  refine ⟨V, hV, hV.ref, fun k => ?_⟩
  have hmem : ((k.1 + 1 : ℕ) : ℤ) ∈ s'.buses.map Bus.id := by
    rw [hm'.ids]
    exact List.mem_map.2 ⟨k.1 + 1, List.mem_range.2 (by omega), rfl⟩
  obtain ⟨b, hb, hid⟩ := List.mem_map.1 hmem
  have hsl : b.isSlack = false := by
    by_contra hx
    have := (hm'.slack b hb).1 (by simpa using hx)
    rw [hid] at this
    omega
  obtain ⟨P, Q, e1, e2, g1, g2⟩ := hB b hb hsl
  obtain ⟨S1, S2⟩ := C33_bus_sum_partial hone h hb (by rw [hsl]; simp)
  have hPQ : (⟨P, Q⟩ : ℂ) = busPowers p q (k.1 + 1) := by
    rw [e1, hid] at S1
    rw [e2, hid] at S2
    fin_cases k
    · simp [devicesAt, D.list, f0, f1, f2, f3, f4, f5, f6, sumX, X.zero_def] at S1 S2
      simp [busPowers, S1, S2, Complex.ext_iff]
    · simp [devicesAt, D.list, f0, f1, f2, f3, f4, f5, f6, sumX, X.zero_def] at S1 S2
      simp [busPowers, S1, S2, Complex.ext_iff]
    · simp [devicesAt, D.list, f0, f1, f2, f3, f4, f5, f6, two, D.pq1, D.pq2] at S1 S2
      simp [busPowers, S1, S2, add_div]
    · simp [devicesAt, D.list, f0, f1, f2, f3, f4, f5, f6, two, D.pq3, D.pq4] at S1 S2
      simp [busPowers, S1, S2, add_div]
    · simp [devicesAt, D.list, f0, f1, f2, f3, f4, f5, f6, two, D.pq5, D.pq6] at S1 S2
      simp [busPowers, S1, S2, add_div]
  rw [hid] at g1 g2
  push_cast at g1 g2
  rw [← hPQ]
  refine (sq_le_sq₀ (norm_nonneg _) (by norm_num)).1 ?_
  rw [Complex.sq_norm, Complex.normSq_apply, Complex.sub_re, Complex.sub_im]
  simp only
  generalize (V (k.1 + 1) * conj (leaving easyLines V (k.1 + 1))).re - P = u at g1 ⊢
  generalize (V (k.1 + 1) * conj (leaving easyLines V (k.1 + 1))).im - Q = v at g2 ⊢
  have h3 := sq_abs u
  have h4 := sq_abs v
  have h5 : (1e-5 : ℝ) = 1/100000 := by norm_num
  rw [h5] at g1 g2
  nlinarith [abs_nonneg u, abs_nonneg v]

/-- The devices other than the slack are the same, whatever the load flow gives. -/
theorem easy_inject (h₁ : s.transition ⟨qp, realPF o₁, pi⟩ a = .ok (s₁, out₁)) (h₂ : s.transition ⟨qp, realPF o₂, pi⟩ a = .ok (s₂, out₂))
    (hc : SameConfig easySim s) (D : Injects s₁ p q d0 d1 d2 d3 d4 d5 d6) :
    ∃ e0, Injects s₂ p q e0 d1 d2 d3 d4 d5 d6 ∧ SameMachine anm6Slack d0 ∧ SameMachine anm6Slack e0 := by
  obtain ⟨ds, po, I⟩ := transition_ok h₁
  obtain ⟨ds₂, po₂, I₂⟩ := transition_ok h₂
  have hds : ds₂ = ds := by
    have k1 := mapE_ok.2 I.solve.step
    have k2 := mapE_ok.2 I₂.solve.step
    rw [k1] at k2
    exact (Except.ok.inj k2).symm
  subst hds
  have A := I.solve.apply.devices
  have B := I₂.solve.apply.devices
  simp only at A B
  obtain ⟨x0, x1, x2, x3, x4, x5, x6, hx, m0, m1, m2, m3, m4, m5, m6⟩ := easy_devices (sameConfig_trans hc (sameConfig_transition h₁))
  obtain ⟨y0, y1, y2, y3, y4, y5, y6, hy, n0, n1, n2, n3, n4, n5, n6⟩ := easy_devices (sameConfig_trans hc (sameConfig_transition h₂))
  have hl := D.list
  rw [hx] at hl
  simp only [List.cons.injEq, and_true] at hl
  obtain ⟨rfl, rfl, rfl, rfl, rfl, rfl, rfl⟩ := hl
  rw [hx] at A
  rw [hy] at B
  have one : ∀ {b₁ b₂ : List (Bus ℝ)} {z x y : Device ℝ}, ((z.isSlack = false → x = z) ∧ (z.isSlack = true → ∃ b, b₁.find? (fun b => b.id = z.busId) = some b ∧
      x = { z with p := b.p, q := b.q })) → ((z.isSlack = false → y = z) ∧ (z.isSlack = true → ∃ b, b₂.find? (fun b => b.id = z.busId) = some b ∧
      y = { z with p := b.p, q := b.q })) → x.isSlack = false → y = x := by
    intro b₁ b₂ z x y hx hy h0
    cases hz : z.isSlack with
    | false => rw [hx.1 hz, hy.1 hz]
    | true =>
      obtain ⟨b, -, e⟩ := hx.2 hz
      rw [e] at h0
      simp [hz] at h0
  have all : List.Forall₂ (fun x y : Device ℝ => x.isSlack = false → y = x) [x0, x1, x2, x3, x4, x5, x6] [y0, y1, y2, y3, y4, y5, y6] := by
    generalize [x0, x1, x2, x3, x4, x5, x6] = L at A
    generalize [y0, y1, y2, y3, y4, y5, y6] = M at B
    clear hx hy D I I₂
    induction A generalizing M with
    | nil => cases B; exact .nil
    | cons h1 _ ih =>
      cases B with
      | cons h2 t => exact .cons (one h1 h2) (ih _ t)
  simp only [List.forall₂_cons, List.forall₂_nil_left_iff, and_true] at all
  obtain ⟨-, a1, a2, a3, a4, a5, a6⟩ := all
  obtain rfl := a1 (by rw [m1]; rfl)
  obtain rfl := a2 (by rw [m2]; rfl)
  obtain rfl := a3 (by rw [m3]; rfl)
  obtain rfl := a4 (by rw [m4]; rfl)
  obtain rfl := a5 (by rw [m5]; rfl)
  obtain rfl := a6 (by rw [m6]; rfl)
  refine ⟨y0, ⟨hy, ⟨by rw [n0]; rfl, D.bus.2⟩, D.pq1, D.pq2, D.pq3, D.pq4, D.pq5, D.pq6⟩, m0, n0⟩

theorem easy_slack_power (hs : SimOf anm6Net (.fin (1/4)) (.fin 100) s) (hc : SameConfig easySim s) (h : s.transition ⟨qp, realPF o, pi⟩ a = .ok (s', out))
    (D : Injects s' p q d0 d1 d2 d3 d4 d5 d6) (h0 : SameMachine anm6Slack d0) {V : ℤ → ℂ} (hV : Solved s' easyLines V) :
    d0.p = .fin (V 0 * conj (leaving easyLines V 0)).re ∧ d0.q = .fin (V 0 * conj (leaving easyLines V 0)).im := by
  have hm' := numbered_same (sameConfig_transition h) (numbered_same hc easy_numbered)
  obtain ⟨i, j, hone⟩ := oneSlack_of_file anm6_clean anm6_documented hs
  have hmem : (0 : ℤ) ∈ s'.buses.map Bus.id := by
    rw [hm'.ids]
    exact List.mem_map.2 ⟨0, List.mem_range.2 (by omega), rfl⟩
  obtain ⟨b, hb, hid⟩ := List.mem_map.1 hmem
  obtain ⟨f0, f1, f2, f3, f4, f5, f6⟩ := D.bus
  obtain ⟨S1, S2⟩ := C33_bus_sum_partial hone h hb (fun _ d hd hbus => by
    rw [D.list] at hd
    rw [hid] at hbus
    simp only [List.mem_cons, List.not_mem_nil, or_false] at hd
    rcases hd with rfl | rfl | rfl | rfl | rfl | rfl | rfl
    · rw [h0]; rfl
    all_goals omega)
  rw [(hV.slack b hb ((hm'.slack b hb).2 hid)).1, hid] at S1
  rw [(hV.slack b hb ((hm'.slack b hb).2 hid)).2, hid] at S2
  simp [devicesAt, D.list, f0, f1, f2, f3, f4, f5, f6, sumX, zero_add_X] at S1 S2
  rw [← S1, ← S2]
  simp [Complex.mul_re, Complex.mul_im]

/-- **C150, transitions.** Two linear solvers, however inexact, and the same action: if both load flows of ANM6 converge to voltages of at least 80 %,
then the voltages differ by at most 0.0002 p.u. and the energy losses by at most 0.0002 p.u. (0.02 MWh). -/
theorem C150_solver (hs : SimOf anm6Net (.fin (1/4)) (.fin 100) s) (hc : SameConfig easySim s)
    (h₁ : s.transition ⟨qp, realPF o₁, pi⟩ a = .ok (s₁, out₁)) (h₂ : s.transition ⟨qp, realPF o₂, pi⟩ a = .ok (s₂, out₂))
    (c₁ : out₁.converged = true) (c₂ : out₂.converged = true) (v₁ : HighVoltage (busVoltage s₁)) (v₂ : HighVoltage (busVoltage s₂))
    (D : Injects s₁ p q d0 d1 d2 d3 d4 d5 d6) (R : InReach (busPowers p q))
    (hpot : ∀ d ∈ s₁.devices, d.isRenewable = true → ∃ x, d.pPot = .fin x) :
    (∀ k : ℤ, 0 ≤ k → k < 6 → ‖busVoltage s₁ k - busVoltage s₂ k‖ ≤ 2/10000) ∧
      ∃ e₁ e₂, out₁.eLoss = .fin e₁ ∧ out₂.eLoss = .fin e₂ ∧ |e₁ - e₂| ≤ 2/10000 := by
  obtain ⟨e0, E, m0, n0⟩ := easy_inject h₁ h₂ hc D
  obtain ⟨V, hV, FV⟩ := easy_flow hs hc h₁ c₁ D
  obtain ⟨W, hW, FW⟩ := easy_flow hs hc h₂ c₂ E
  have bv : ∀ {t : Sim ℝ} {U : ℤ → ℂ}, SameConfig s t → Solved t easyLines U → ∀ k : ℤ, 0 ≤ k → k < 6 → busVoltage t k = U k := by
    intro t U hst hU k hk0 hk
    have hm' := numbered_same hst (numbered_same hc easy_numbered)
    have hmem : k ∈ t.buses.map Bus.id := by
      rw [hm'.ids]
      exact List.mem_map.2 ⟨k.toNat, List.mem_range.2 (by omega), Int.toNat_of_nonneg hk0⟩
    obtain ⟨b, hb, hid⟩ := List.mem_map.1 hmem
    exact busVoltage_eq hm' ⟨b, hb, hid, by rw [hU.v b hb, hid]⟩
  have b1 := bv (sameConfig_transition h₁) hV
  have b2 := bv (sameConfig_transition h₂) hW
  have w1 : HighVoltage V := fun k => by
    have := v₁ k
    rwa [b1 _ (by omega) (by omega)] at this
  have w2 : HighVoltage W := fun k => by
    have := v₂ k
    rwa [b2 _ (by omega) (by omega)] at this
  obtain ⟨r1, r2⟩ := C150_near R FV FW w1 w2
  refine ⟨fun k hk0 hk => by rw [b1 k hk0 hk, b2 k hk0 hk]; exact r1 k hk0 hk, ?_⟩
  have p1 := (easy_slack_power hs hc h₁ D m0 hV).1
  have p2 := (easy_slack_power hs hc h₂ E n0 hW).1
  have loss : ∀ {t : Sim ℝ} {x0 : Device ℝ} {oo : LFOracle} {ou : Sim.TransOut ℝ} {P : ℝ}, s.transition ⟨qp, realPF oo, pi⟩ a = .ok (t, ou) →
      Injects t p q x0 d1 d2 d3 d4 d5 d6 → SameMachine anm6Slack x0 → x0.p = .fin P →
      ou.eLoss = .fin ((P + ([d1, d2, d3, d4, d5, d6].map fun d => (if d.isGen || d.isLoad then finVal d.p else 0) + curtailed d).sum) * (1/4)) := by
    intro t x0 oo ou P ht J hx hP
    obtain ⟨ds, po, I⟩ := transition_ok ht
    have hr := I.reward
    simp only [Sim.computeReward, bind_ok, pure_ok, Prod.mk.injEq] at hr
    obtain ⟨bp, -, -, h3, -⟩ := hr
    have hd : t.deltaT = .fin (1/4) := (simOf_base (simOf_transition hs ht)).2.1
    have hren : x0.isRenewable = false := by rw [hx]; rfl
    rw [← h3, hd, X.zero_def, eLoss_fold (fun d hd => ?_) (fun d hd hr => ?_), X.fin_mul_fin, J.list, List.map_cons, List.sum_cons]
    · have hg : x0.isGen = true := by rw [hx]; rfl
      rw [hP, hg, curtailed, hren]
      simp only [Bool.true_or, if_true, finVal, Bool.false_eq_true, if_false, add_zero, zero_add]
    · rw [J.list] at hd
      simp only [List.mem_cons, List.not_mem_nil, or_false] at hd
      rcases hd with rfl | rfl | rfl | rfl | rfl | rfl | rfl
      exacts [⟨_, hP⟩, ⟨_, J.pq1.1⟩, ⟨_, J.pq2.1⟩, ⟨_, J.pq3.1⟩, ⟨_, J.pq4.1⟩, ⟨_, J.pq5.1⟩, ⟨_, J.pq6.1⟩]
    · rw [J.list] at hd
      rcases List.mem_cons.1 hd with rfl | hd
      · rw [hren] at hr; cases hr
      · exact hpot d (by rw [D.list]; exact List.mem_cons_of_mem _ hd) hr
  refine ⟨_, _, loss h₁ D m0 p1, loss h₂ E n0 p2, ?_⟩
  have h3 := (Complex.abs_re_le_norm _).trans r2
  rw [Complex.sub_re] at h3
  rw [← sub_mul, add_sub_add_right_eq_sub, abs_mul, abs_of_nonneg (by norm_num : (0 : ℝ) ≤ 1/4)]
  linarith

/-- **C150, injections.** With exact projections the injections are always within reach, whatever the action, the demands and the potentials. -/
theorem C150_reach (hs : SimOf anm6Net (.fin (1/4)) (.fin 100) s) (hc : SameConfig easySim s) (hq : QPSound 0 qp)
    (ha : ∀ d ∈ s.devices, d.isLoad = true → ∀ x, a.pLoad.get? d.id = some x → X.IsFin x)
    (hp : ∀ d ∈ s.devices, d.isNonSlackGen = true → ∀ x, a.pPot.get? d.id = some x → X.NotNan x)
    (h : s.transition ⟨qp, realPF o, pi⟩ a = .ok (s', out)) :
    ∃ p q d0 d1 d2 d3 d4 d5 d6, Injects s' p q d0 d1 d2 d3 d4 d5 d6 ∧ InReach (busPowers p q) := by
  have hT : TameInputs s a := by
    refine ⟨fun d hd hl x hx => ha d hd hl x hx, fun d hd hl x hx => hp d hd hl x hx, fun d hd hl => ?_⟩
    obtain ⟨x0, x1, x2, x3, x4, x5, x6, hx, m0, m1, m2, m3, m4, m5, m6⟩ := easy_devices hc
    rw [hx] at hd
    simp only [List.mem_cons, List.not_mem_nil, or_false] at hd
    rcases hd with rfl | rfl | rfl | rfl | rfl | rfl | rfl
    · rw [m0] at hl; cases hl
    · exact ⟨1/5, -1/10, by rw [m1]; rfl, by norm_num, by rw [m1]; rfl⟩
    · rw [m2] at hl; cases hl
    · exact ⟨1/5, -3/10, by rw [m3]; rfl, by norm_num, by rw [m3]; rfl⟩
    · rw [m4] at hl; cases hl
    · exact ⟨1/5, -3/10, by rw [m5]; rfl, by norm_num, by rw [m5]; rfl⟩
    · rw [m6] at hl; cases hl
  obtain ⟨x0, x1, x2, x3, x4, x5, x6, hx, m0, m1, m2, m3, m4, m5, m6⟩ := easy_devices (sameConfig_trans hc (sameConfig_transition h))
  have lim : ∀ d ∈ s'.devices, d.isSlack = false → _ := fun d hd hsl => device_limits anm6_clean hs hq hT h hd hsl
  have get : ∀ {x : Device ℝ} {l u l' u' : ℝ}, x ∈ s'.devices → x.isSlack = false → x.pMin = .fin l → x.pMax = .fin u → x.qMin = .fin l' → x.qMax = .fin u' →
      ∃ p q : ℝ, x.p = .fin (p / 100) ∧ x.q = .fin (q / 100) ∧ (100 * l ≤ p ∧ p ≤ 100 * u) ∧ 100 * l' ≤ q ∧ q ≤ 100 * u' := by
    intro x l u l' u' hx hsl h1 h2 h3 h4
    obtain ⟨p, q, e1, e2, g1, g2, g3, g4⟩ := device_limits anm6_clean hs hq hT h hx hsl
    rw [h1] at g1
    rw [h2] at g2
    rw [h3] at g3
    rw [h4] at g4
    simp only [X.fin_le_fin] at g1 g2 g3 g4
    refine ⟨100 * p, 100 * q, by rw [e1]; congr 1; ring, by rw [e2]; congr 1; ring, ⟨by linarith, by linarith⟩, by linarith, by linarith⟩
  obtain ⟨p1, q1, a1, b1, c1, k1⟩ := get (x := x1) (by simp [hx]) (by rw [m1]; rfl) (by rw [m1]; rfl) (by rw [m1]; rfl) (by rw [m1]; rfl) (by rw [m1]; rfl)
  obtain ⟨p2, q2, a2, b2, c2, k2⟩ := get (x := x2) (by simp [hx]) (by rw [m2]; rfl) (by rw [m2]; rfl) (by rw [m2]; rfl) (by rw [m2]; rfl) (by rw [m2]; rfl)
  obtain ⟨p3, q3, a3, b3, c3, k3⟩ := get (x := x3) (by simp [hx]) (by rw [m3]; rfl) (by rw [m3]; rfl) (by rw [m3]; rfl) (by rw [m3]; rfl) (by rw [m3]; rfl)
  obtain ⟨p4, q4, a4, b4, c4, k4⟩ := get (x := x4) (by simp [hx]) (by rw [m4]; rfl) (by rw [m4]; rfl) (by rw [m4]; rfl) (by rw [m4]; rfl) (by rw [m4]; rfl)
  obtain ⟨p5, q5, a5, b5, c5, k5⟩ := get (x := x5) (by simp [hx]) (by rw [m5]; rfl) (by rw [m5]; rfl) (by rw [m5]; rfl) (by rw [m5]; rfl) (by rw [m5]; rfl)
  obtain ⟨p6, q6, a6, b6, c6, k6⟩ := get (x := x6) (by simp [hx]) (by rw [m6]; rfl) (by rw [m6]; rfl) (by rw [m6]; rfl) (by rw [m6]; rfl) (by rw [m6]; rfl)
  refine ⟨fun i => [0, p1, p2, p3, p4, p5, p6].getD i 0, fun i => [0, q1, q2, q3, q4, q5, q6].getD i 0, x0, x1, x2, x3, x4, x5, x6,
    ⟨hx, ⟨by rw [m0]; rfl, by rw [m1]; rfl, by rw [m2]; rfl, by rw [m3]; rfl, by rw [m4]; rfl, by rw [m5]; rfl, by rw [m6]; rfl⟩,
      ⟨a1, b1⟩, ⟨a2, b2⟩, ⟨a3, b3⟩, ⟨a4, b4⟩, ⟨a5, b5⟩, ⟨a6, b6⟩⟩, by simp [busPowers], by simp [busPowers], ?_, ?_, ?_⟩
  all_goals
    refine (sq_le_sq₀ (norm_nonneg _) (by norm_num)).1 ?_
    rw [Complex.sq_norm, Complex.normSq_apply]
    simp [busPowers]
    norm_num at c1 c2 c3 c4 c5 c6 k1 k2 k3 k4 k5 k6
  · nlinarith
  · nlinarith
  · nlinarith

/-! ### Cases that meet the hypotheses -/

/-- C150 applies to an exact solution with a demand at bus 3. -/
example : ∃ S V : ℤ → ℂ, InReach S ∧ S 3 ≠ 0 ∧ FlowOf 0 S V ∧ HighVoltage V := by
  set V : ℤ → ℂ := fun i => if i = 0 then 1 else if i = 3 then ⟨1 - 343/100000, -2455/100000⟩ else ⟨1 - 36/100000, -1834/100000⟩ with hV
  have n1 : ((36/10000 : ℝ) : ℂ) + Complex.I * ((1834/10000 : ℝ) : ℂ) ≠ 0 := fun h => by
    have := congrArg Complex.re h
    norm_num at this
  have n3 : ((307/10000 : ℝ) : ℂ) + Complex.I * ((621/10000 : ℝ) : ℂ) ≠ 0 := fun h => by
    have := congrArg Complex.re h
    norm_num at this
  have l1 : leaving easyLines V 1 = 0 := by
    simp [leaving, easyLines, hV, LineC.iFrom, LineC.iTo, LineC.series, LineC.shunt, LineC.tap, LineC.shift]
    field_simp
    apply Complex.ext <;> simp [Complex.div_re, Complex.div_im, Complex.normSq_apply] <;> norm_num [Complex.normSq_apply]
  have l2 : leaving easyLines V 2 = 0 := by
    simp [leaving, easyLines, hV, LineC.iFrom, LineC.iTo, LineC.series, LineC.shunt, LineC.tap, LineC.shift]
  have l3 : leaving easyLines V 3 = -1/10 := by
    simp [leaving, easyLines, hV, LineC.iFrom, LineC.iTo, LineC.series, LineC.shunt, LineC.tap, LineC.shift]
    field_simp
    apply Complex.ext <;> simp [Complex.div_re, Complex.div_im, Complex.normSq_apply] <;> norm_num [Complex.normSq_apply]
  have l4 : leaving easyLines V 4 = 0 := by
    simp [leaving, easyLines, hV, LineC.iFrom, LineC.iTo, LineC.series, LineC.shunt, LineC.tap, LineC.shift]
  have l5 : leaving easyLines V 5 = 0 := by
    simp [leaving, easyLines, hV, LineC.iFrom, LineC.iTo, LineC.series, LineC.shunt, LineC.tap, LineC.shift]
  have c3 : conj (-1 / 10 : ℂ) = ⟨-1/10, 0⟩ := by
    apply Complex.ext <;> norm_num
  refine ⟨fun i => V i * conj (leaving easyLines V i), V, ⟨by simp [l1], by simp [l2], ?_, by simp [l4]; norm_num, by simp [l5]; norm_num⟩, ?_, ⟨by simp [hV], fun k => by simp⟩, fun k => ?_⟩
  · simp only [l3, c3]
    refine (sq_le_sq₀ (norm_nonneg _) (by norm_num)).1 ?_
    rw [Complex.sq_norm, Complex.normSq_apply]
    simp [hV]
    norm_num
  · simp only [l3, c3]
    intro h
    have := congrArg Complex.re h
    simp [hV] at this
    norm_num at this
  · refine (Complex.abs_re_le_norm _).trans' ?_
    refine (le_abs_self _).trans' ?_
    fin_cases k <;> simp [hV] <;> norm_num

/-- C150 applies to a step of ANM6Easy in which nothing is done. -/
theorem idle_usual {k : ℕ} (hk : k < 96) : ∃ (s s₁ : Sim ℝ) (a : Sim.Args ℝ) (out₁ : Sim.TransOut ℝ) (p q : ℕ → ℝ) (d0 d1 d2 d3 d4 d5 d6 : Device ℝ),
    SimOf anm6Net (.fin (1/4)) (.fin 100) s ∧ SameConfig easySim s ∧ s.transition ⟨exactQP, realPF exactOracle, Real.pi⟩ a = .ok (s₁, out₁) ∧
    out₁.converged = true ∧ HighVoltage (busVoltage s₁) ∧ Injects s₁ p q d0 d1 d2 d3 d4 d5 d6 ∧ InReach (busPowers p q) ∧
    ∀ d ∈ s₁.devices, d.isRenewable = true → ∃ x, d.pPot = .fin x := by
  have hg : Fair (exactWorld exactOracle k).rng := fair_play k
  have G : GoodSolvers (exactWorld exactOracle k).sim (easySim : Sim ℝ) := C83_solvers _ _
  have hpf : NumericPF (exactWorld exactOracle k).sim := C85_solver _ _ _
  obtain ⟨a, a', obs, ha, h, hc, he⟩ := exact_start exactOracle_exact (k := k) hk
  obtain ⟨-, -, -, y, p, q, g, hy, hf, hv⟩ := reset_vector ha hg G rfl h hc he
  obtain ⟨d, hd, hlt⟩ := reset_room ha hg h
  replace ha := ha.reset h
  rcases C83_step ha hg G hy idle_contained with ⟨a1, o1, h1⟩ | ⟨-, d', hd', hlt'⟩
  swap
  · rw [hd] at hd'
    cases hd'
    omega
  obtain ⟨l1, l3, l5, m2, m4, T⟩ := table_at (t := (k + 1) % 96) (Nat.mod_lt _ (by norm_num))
  obtain ⟨args, tr, c0, c1, c2, c3, c4, c5, c6, htr, hflag, -⟩ := easy_inputs ha hg G hpf hy hf hv T h1
  obtain ⟨d0, d1, d2, d3, d4, d5, d6, J, hsoc⟩ := C125_easy ha hg G hpf hy hf hv T h1
  have J' : Injects a1.env.sim (powers l1 ((min m2 30 : ℚ) : ℝ) l3 m4 l5 0) (powers (l1 / 5) 0 (l3 / 5) 0 (l5 / 5) 0) d0 d1 d2 d3 d4 d5 d6 := by
    push_cast
    exact J
  have R := initial_ranges T (q2 := 0) (q4 := 0) (by norm_num) (by norm_num)
  obtain ⟨hconv, V, hV, hb, -⟩ := C115_converges exactOracle_exact (envOf_simOf (easy_env ha)) (easy_sameConfig ha) htr J' R
  have ho : o1.terminated = false := by rw [hflag, hconv]; rfl
  obtain ⟨y0, y', args', tr', hy0, ht0, hy', ht', L, hc, hclip⟩ := easy_step_last ha hg G h1 ho
  have ha' := ha.step h1
  obtain ⟨p', q', g', fl, vv, e', loss', pen, t', -, hv', -⟩ := easy_vector ha' hg G hpf hy' ht'
  obtain ⟨E, f0, f1, f2, f3, f4, f5, f6, D⟩ := easy_vector_devices ha' hg G hpf hy' ht' hv'
  have hm' := numbered_same (sameConfig_transition htr) (numbered_same (easy_sameConfig ha) easy_numbered)
  refine ⟨_, _, _, _, _, _, _, _, _, _, _, _, _, envOf_simOf (easy_env ha), easy_sameConfig ha, htr, hconv, fun k => ?_, J', ?_, fun d hd hr => ?_⟩
  · have hmem : ((k.1 : ℤ) + 1) ∈ a1.env.sim.buses.map Bus.id := by
      rw [hm'.ids]
      exact List.mem_map.2 ⟨k.1 + 1, List.mem_range.2 (by omega), by push_cast; rfl⟩
    obtain ⟨b, hb', hid⟩ := List.mem_map.1 hmem
    rw [busVoltage_eq hm' ⟨b, hb', hid, by rw [hV.v b hb', hid]⟩]
    have e : atId V ((k.1 : ℤ) + 1) = V k.succ := by
      fin_cases k <;> rfl
    rw [e]
    linarith [(hb k).1]
  · obtain ⟨-, -, r⟩ := R
    refine ⟨by simp [busPowers], by simp [busPowers], ?_⟩
    have e3 : ∀ p q, busPowers p q 3 = ⟨busInj p 2, busInj q 2⟩ := fun _ _ => rfl
    have e4 : ∀ p q, busPowers p q 4 = ⟨busInj p 3, busInj q 3⟩ := fun _ _ => rfl
    have e5 : ∀ p q, busPowers p q 5 = ⟨busInj p 4, busInj q 4⟩ := fun _ _ => rfl
    rw [e3, e4, e5]
    rcases r with ⟨r1, r2, r3⟩ | ⟨r1, r2, r3⟩ | ⟨r1, r2, r3⟩ | ⟨r1, r2, r3⟩ <;>
      exact ⟨r1.trans (by norm_num), r2.trans (by norm_num), r3.trans (by norm_num)⟩
  · rw [D.list] at hd
    simp only [List.mem_cons, List.not_mem_nil, or_false] at hd
    rcases hd with rfl | rfl | rfl | rfl | rfl | rfl | rfl
    · rw [D.m0] at hr; cases hr
    · rw [D.m1] at hr; cases hr
    · exact ⟨_, D.pot.1⟩
    · rw [D.m3] at hr; cases hr
    · exact ⟨_, D.pot.2⟩
    · rw [D.m5] at hr; cases hr
    · rw [D.m6] at hr; cases hr

end

end

end Anm
