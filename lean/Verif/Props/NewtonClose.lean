import Verif.Props.NewtonEasy
import Verif.Props.EasyGood

/-!
# C117: with exactly solved linear systems the load flow of ANM6 ends near a solution within the limits

Two solutions of the load flow equations, up to the tolerance, are close to each other.
-/

namespace Anm

open Spec Complex ComplexConjugate Radial

noncomputable section

namespace Radial
variable {m : ℕ} {Y : Matrix (Fin (m + 1)) (Fin (m + 1)) ℂ} (R : Radial Y)

/-- Two solutions of the load flow equations of a radial network, up to tolerances, are close to each other. -/
theorem close {S : Fin m → ℂ} {V W : Fin (m + 1) → ℂ} {s lo lo' c c' zn e : Fin m → ℝ} (hV : V 0 = 1) (hW : W 0 = 1) (hs : ∀ k, ‖S k‖ ≤ s k)
    (hz : ∀ l, ‖R.z l‖ ≤ zn l) (hp : ∀ k, 0 < lo k) (hp' : ∀ k, 0 < lo' k) (hl : ∀ k, lo k ≤ ‖V k.succ‖) (hl' : ∀ k, lo' k ≤ ‖W k.succ‖)
    (hc : ∀ k, ‖missing Y S V k‖ ≤ c k) (hc' : ∀ k, ‖missing Y S W k‖ ≤ c' k) (he : ∀ k, 0 < e k)
    (h : ∀ k, ∑ l ∈ R.path k, zn l * (∑ i ∈ R.sub l, (c i + c' i) + ∑ i ∈ R.sub l, s i / (lo i * lo' i) * e i) < e k) :
    (∀ k, ‖V k.succ - W k.succ‖ ≤ e k) ∧
      ∀ l, ‖R.line V l - R.line W l‖ ≤ ∑ i ∈ R.sub l, (c i + c' i) + ∑ i ∈ R.sub l, s i / (lo i * lo' i) * e i := by
  have c0 : ∀ k, 0 ≤ c k + c' k := fun k => add_nonneg ((norm_nonneg _).trans (hc k)) ((norm_nonneg _).trans (hc' k))
  have s0 : ∀ k, 0 ≤ s k / (lo k * lo' k) := fun k => div_nonneg ((norm_nonneg _).trans (hs k)) (mul_pos (hp k) (hp' k)).le
  have bus : ∀ i, ‖NR.curr Y V i.succ - NR.curr Y W i.succ‖ ≤ (c i + c' i) + s i / (lo i * lo' i) * ‖V i.succ - W i.succ‖ := by
    intro i
    have v0 : V i.succ ≠ 0 := norm_pos_iff.1 ((hp i).trans_le (hl i))
    have w0 : W i.succ ≠ 0 := norm_pos_iff.1 ((hp' i).trans_le (hl' i))
    have e1 : NR.curr Y V i.succ - NR.curr Y W i.succ = missing Y S V i - missing Y S W i + conj (S i * (W i.succ - V i.succ) / (V i.succ * W i.succ)) := by
      have : S i * (W i.succ - V i.succ) / (V i.succ * W i.succ) = S i / V i.succ - S i / W i.succ := by field_simp
      rw [this, map_sub, missing, missing]
      ring
    rw [e1]
    refine (norm_add_le _ _).trans (add_le_add ((norm_sub_le _ _).trans (add_le_add (hc i) (hc' i))) ?_)
    rw [RCLike.norm_conj, norm_div, norm_mul, norm_mul, norm_sub_rev, div_mul_eq_mul_div]
    refine div_le_div₀ (mul_nonneg ((norm_nonneg _).trans (hs i)) (norm_nonneg _)) (mul_le_mul_of_nonneg_right (hs i) (norm_nonneg _))
      (mul_pos (hp i) (hp' i)) (mul_le_mul (hl i) (hl' i) (hp' i).le (norm_nonneg _))
  have line : ∀ l, ‖R.line V l - R.line W l‖ ≤ ∑ i ∈ R.sub l, (c i + c' i) + ∑ i ∈ R.sub l, s i / (lo i * lo' i) * ‖V i.succ - W i.succ‖ := by
    intro l
    rw [Radial.line, Radial.line, ← R.subtree, ← R.subtree, ← Finset.sum_sub_distrib, ← Finset.sum_add_distrib]
    exact (norm_sum_le _ _).trans (Finset.sum_le_sum fun i _ => bus i)
  have volt : ∀ k, ‖V k.succ - W k.succ‖ ≤ e k := by
    refine super_bound (path := R.path) (sub := R.sub) (zn := zn) (r := fun l => ∑ i ∈ R.sub l, (c i + c' i)) (J := fun i => s i / (lo i * lo' i))
      (lo := fun _ => 1) (fun l => (norm_nonneg _).trans (hz l)) (fun l => Finset.sum_nonneg fun i _ => c0 i) s0 he (fun k => ?_)
      (fun k => by simpa only [one_mul] using h k)
    rw [one_mul]
    have e1 : V k.succ - W k.succ = ∑ l ∈ R.path k, R.z l * (R.line V l - R.line W l) := by
      simp only [mul_sub, Finset.sum_sub_distrib]
      rw [← R.sum_line, ← R.sum_line, hV, hW]
      ring
    rw [e1]
    refine (norm_sum_le _ _).trans (Finset.sum_le_sum fun l _ => ?_)
    rw [norm_mul]
    exact mul_le_mul (hz l) (line l) (norm_nonneg _) ((norm_nonneg _).trans (hz l))
  refine ⟨volt, fun l => (line l).trans (add_le_add le_rfl (Finset.sum_le_sum fun i _ => mul_le_mul_of_nonneg_left (volt i) (s0 i)))⟩

end Radial

/-! ### ANM6 -/

theorem cur_line (c : Cur) (l : Fin 5) : easyRadial.line c.v l = ![c.i3 + c.i4 + c.i5, c.i4 + c.i5, c.i3, c.i4, c.i5] l := by
  have key : ∀ {x y z j : ℂ}, z ≠ 0 → x = y + z * j → (x - y) / z = j := by
    rintro x y z j hz rfl
    field_simp
    ring
  fin_cases l
  · exact key (easyZ_ne 0) rfl
  · exact key (easyZ_ne 1) rfl
  · exact key (easyZ_ne 2) rfl
  · exact key (easyZ_ne 3) rfl
  · exact key (easyZ_ne 4) rfl

/-- Bounds on the powers of the buses, and on the differences of the currents through the lines. -/
def powR : Fin 5 → ℚ := ![0, 0, 18/100, 18/100, 18/100]
def nearC : Fin 5 → ℚ := ![0, 0, 159/10000000, 159/10000000, 159/10000000]
def nearJ : Fin 5 → ℚ := ![173/1000000, 109/1000000, 45/1000000, 45/1000000, 45/1000000]

theorem near_ok : (∀ k, ∑ l ∈ easyRadial.path k, easyZn l * (∑ i ∈ easyRadial.sub l, (19/1000000 + nearC i) +
      ∑ i ∈ easyRadial.sub l, powR i / (41/50 * (9001/10000)) * (4/100000)) < 4/100000) ∧
    ∀ l, ∑ i ∈ easyRadial.sub l, (19/1000000 + nearC i) + ∑ i ∈ easyRadial.sub l, powR i / (41/50 * (9001/10000)) * (4/100000) ≤ nearJ l := by
  decide +kernel

theorem match_dist {c : Cur} {p q : Fin 5 → ℝ} (M : Spec.Cur.Match c p q) (k : Fin 5) :
    ‖c.v k.succ * conj (c.i k.succ) - powersOf p q k‖ ≤ 14143/1000000000 := by
  obtain ⟨h1, h2⟩ := M k
  refine (sq_le_sq₀ (norm_nonneg _) (by norm_num)).1 ?_
  rw [Complex.sq_norm, Complex.normSq_apply, Complex.sub_re, Complex.sub_im]
  change |(c.v k.succ * conj (c.i k.succ)).re - (powersOf p q k).re| ≤ xtol at h1
  change |(c.v k.succ * conj (c.i k.succ)).im - (powersOf p q k).im| ≤ xtol at h2
  set u := (c.v k.succ * conj (c.i k.succ)).re - (powersOf p q k).re
  set v := (c.v k.succ * conj (c.i k.succ)).im - (powersOf p q k).im
  have hx : xtol = 1/100000 := by norm_num [xtol]
  rw [hx] at h1 h2
  have := sq_abs u
  have := sq_abs v
  nlinarith [abs_nonneg u, abs_nonneg v]

/-- The powers of a solution within the limits. -/
theorem roomy_powers {c : Cur} {p q : ℕ → ℝ} (M : Spec.Cur.Match c (busInj p) (busInj q)) (C : Spec.Cur.Roomy c) :
    ∀ k, ‖powersOf (busInj p) (busInj q) k‖ ≤ powR k := by
  have key : ∀ k, ‖powersOf (busInj p) (busInj q) k‖ ≤ ‖c.v k.succ‖ * ‖c.i k.succ‖ + 14143/1000000000 := by
    intro k
    have h1 := match_dist M k
    have h2 := norm_sub_norm_le (powersOf (busInj p) (busInj q) k) (c.v k.succ * conj (c.i k.succ))
    rw [norm_sub_rev, norm_mul, RCLike.norm_conj] at h2
    linarith
  intro k
  fin_cases k
  · simp [powersOf, busInj, powR, Complex.ext_iff]
  · simp [powersOf, busInj, powR, Complex.ext_iff]
  · have : ‖c.v (Fin.succ 2)‖ * ‖c.i (Fin.succ 2)‖ ≤ 999/1000 * (18/100) := C.s13.2
    exact (key 2).trans ((add_le_add this le_rfl).trans (by simp [powR]; norm_num))
  · have : ‖c.v (Fin.succ 3)‖ * ‖c.i (Fin.succ 3)‖ ≤ 999/1000 * (18/100) := C.s24.2
    exact (key 3).trans ((add_le_add this le_rfl).trans (by simp [powR]; norm_num))
  · have : ‖c.v (Fin.succ 4)‖ * ‖c.i (Fin.succ 4)‖ ≤ 999/1000 * (18/100) := C.s25.2
    exact (key 4).trans ((add_le_add this le_rfl).trans (by simp [powR]; norm_num))

/-- The load flow ends close to a solution within the limits. -/
theorem easy_close {c : Cur} {p q : ℕ → ℝ} (M : Spec.Cur.Match c (busInj p) (busInj q)) (C : Spec.Cur.Roomy c) {V : Fin 6 → ℂ} (hV : V 0 = 1)
    (h1 : ∀ k : Fin 5, 41/50 ≤ ‖V k.succ‖) (h2 : ∀ k, ‖missing (ymat 5 easyLines) (powersOf (busInj p) (busInj q)) V k‖ ≤ 19/1000000) :
    (∀ k : Fin 5, ‖V k.succ - c.v k.succ‖ ≤ 4/100000) ∧ ∀ l, ‖easyRadial.line V l - easyRadial.line c.v l‖ ≤ nearJ l := by
  have hm : ∀ k, ‖missing (ymat 5 easyLines) (powersOf (busInj p) (busInj q)) c.v k‖ ≤ nearC k := by
    intro k
    have v0 : c.v k.succ ≠ 0 := norm_pos_iff.1 (lt_of_lt_of_le (by norm_num) (C.v k).1)
    have e : c.v k.succ * conj (missing (ymat 5 easyLines) (powersOf (busInj p) (busInj q)) c.v k) =
        c.v k.succ * conj (c.i k.succ) - powersOf (busInj p) (busInj q) k := by
      rw [missing, map_sub, conj_conj, easy_curr]
      field_simp
    have h3 := match_dist M k
    have h4 := congrArg norm e
    rw [norm_mul, RCLike.norm_conj] at h4
    have gen : ‖missing (ymat 5 easyLines) (powersOf (busInj p) (busInj q)) c.v k‖ ≤ 159/10000000 := by
      have := norm_nonneg (missing (ymat 5 easyLines) (powersOf (busInj p) (busInj q)) c.v k)
      nlinarith [(C.v k).1]
    fin_cases k
    · have z : powersOf (busInj p) (busInj q) 0 = 0 := by simp [powersOf, busInj, Complex.ext_iff]
      change ‖missing (ymat 5 easyLines) (powersOf (busInj p) (busInj q)) c.v 0‖ ≤ _
      rw [missing, easy_curr, z]
      simp [Cur.i, nearC]
    · have z : powersOf (busInj p) (busInj q) 1 = 0 := by simp [powersOf, busInj, Complex.ext_iff]
      change ‖missing (ymat 5 easyLines) (powersOf (busInj p) (busInj q)) c.v 1‖ ≤ _
      rw [missing, easy_curr, z]
      simp [Cur.i, nearC]
    · exact gen.trans (by simp [nearC])
    · exact gen.trans (by simp [nearC])
    · exact gen.trans (by simp [nearC])
  have ok := near_ok
  obtain ⟨r1, r2⟩ := easyRadial.close (lo := fun _ => 41/50) (lo' := fun _ => 9001/10000) (e := fun _ => 4/100000) (c := fun _ => 19/1000000)
    (c' := fun k => nearC k) (s := fun k => powR k) (zn := fun l => easyZn l) hV rfl (roomy_powers M C) easyZ_le (fun _ => by norm_num)
    (fun _ => by norm_num) h1 (fun k => (C.v k).1) h2 hm (fun _ => by norm_num) (fun k => by
      have := ok.1 k
      rify at this
      exact this)
  refine ⟨r1, fun l => (r2 l).trans ?_⟩
  have := ok.2 l
  rify at this
  exact this

/-- The ratings of the lines of ANM6, in p.u. -/
def easyRates : Fin 5 → ℚ := ![32/100, 25/100, 18/100, 18/100, 18/100]

theorem volts_apparent {V : Fin 6 → ℂ} {l : LineC} {j : ℂ} {r : ℝ} (h1 : l.iFrom (atId V l.fBus) (atId V l.tBus) = -j)
    (h2 : l.iTo (atId V l.fBus) (atId V l.tBus) = j) (h3 : ‖atId V l.fBus‖ * ‖j‖ ≤ r) (h4 : ‖atId V l.tBus‖ * ‖j‖ ≤ r) (h0 : 0 ≤ r) :
    X.abs (l.sApparentMax (atId V l.fBus) (atId V l.tBus)) ≤ .fin r := by
  have e1 : ‖l.sFrom (atId V l.fBus) (atId V l.tBus)‖ = ‖atId V l.fBus‖ * ‖j‖ := by
    rw [LineC.sFrom, h1, map_neg, mul_neg, norm_neg, norm_mul, RCLike.norm_conj]
  have e2 : ‖l.sTo (atId V l.fBus) (atId V l.tBus)‖ = ‖atId V l.tBus‖ * ‖j‖ := by
    rw [LineC.sTo, h2, norm_mul, RCLike.norm_conj]
  rw [LineC.sApparentMax, X.maximum_fin, e1, e2]
  set m := max (‖atId V l.fBus‖ * ‖j‖) (‖atId V l.tBus‖ * ‖j‖)
  have hm : m ≤ r := max_le h3 h4
  have hm0 : 0 ≤ m := le_max_of_le_left (by positivity)
  rcases lt_trichotomy (l.sFrom (atId V l.fBus) (atId V l.tBus)).re 0 with h | h | h <;>
    simp [X.sign, X.abs, h, h.le, abs_of_nonneg hm0, hm, h0, not_lt.2 h.le]

/-- A solution of the load flow of ANM6 is within the limits if its voltages and flows are. -/
theorem within_volts {s' : Sim ℝ} (hc' : SameConfig easySim s') {V : Fin 6 → ℂ} (S : Solved s' easyLines (atId V)) (hV : V 0 = 1)
    (hv : ∀ k : Fin 5, 9/10 ≤ ‖V k.succ‖ ∧ ‖V k.succ‖ ≤ 11/10)
    (hj : ∀ l, ‖V (easyRadial.par l)‖ * ‖easyRadial.line V l‖ ≤ easyRates l ∧ ‖V l.succ‖ * ‖easyRadial.line V l‖ ≤ easyRates l) :
    WithinLimits s' := by
  have a0 : atId V 0 = V 0 := rfl
  have a1 : atId V 1 = V 1 := rfl
  have a2 : atId V 2 = V 2 := rfl
  have a3 : atId V 3 = V 3 := rfl
  have a4 : atId V 4 = V 4 := rfl
  have a5 : atId V 5 = V 5 := rfl
  constructor
  · intro b hb
    have hids := (numbered_same hc' easy_numbered).ids
    obtain ⟨b0, b1, b2, b3, b4, b5, hbs, ⟨l1, l2⟩, hlim⟩ := easy_buses hc'
    rw [hbs] at hids hb
    simp only [List.map_cons, List.map_nil, List.range_succ, List.range_zero, List.nil_append, List.cons_append, List.cons.injEq, and_true] at hids
    obtain ⟨j0, j1, j2, j3, j4, j5⟩ := hids
    have hw := S.v
    rw [hbs] at hw
    simp only [List.forall_mem_cons] at hw hlim
    obtain ⟨v0, v1, v2, v3, v4, v5, -⟩ := hw
    obtain ⟨m1, m2, m3, m4, m5, -⟩ := hlim
    have n1 : 9/10 ≤ ‖V 1‖ ∧ ‖V 1‖ ≤ 11/10 := hv 0
    have n2 : 9/10 ≤ ‖V 2‖ ∧ ‖V 2‖ ≤ 11/10 := hv 1
    have n3 : 9/10 ≤ ‖V 3‖ ∧ ‖V 3‖ ≤ 11/10 := hv 2
    have n4 : 9/10 ≤ ‖V 4‖ ∧ ‖V 4‖ ≤ 11/10 := hv 3
    have n5 : 9/10 ≤ ‖V 5‖ ∧ ‖V 5‖ ≤ 11/10 := hv 4
    simp only [List.mem_cons, List.not_mem_nil, or_false] at hb
    rcases hb with rfl | rfl | rfl | rfl | rfl | rfl
    · refine ⟨_, l1, ?_⟩
      rw [v0, l2, show b.id = 0 from j0, a0, hV]
      simp [Phasor.ofC]
    · refine ⟨_, m1.1, ?_⟩
      rw [v1, m1.2, show b.id = 1 from j1, a1]
      simpa [Phasor.ofC] using n1
    · refine ⟨_, m2.1, ?_⟩
      rw [v2, m2.2, show b.id = 2 from j2, a2]
      simpa [Phasor.ofC] using n2
    · refine ⟨_, m3.1, ?_⟩
      rw [v3, m3.2, show b.id = 3 from j3, a3]
      simpa [Phasor.ofC] using n3
    · refine ⟨_, m4.1, ?_⟩
      rw [v4, m4.2, show b.id = 4 from j4, a4]
      simpa [Phasor.ofC] using n4
    · refine ⟨_, m5.1, ?_⟩
      rw [v5, m5.2, show b.id = 5 from j5, a5]
      simpa [Phasor.ofC] using n5
  · intro b hb
    obtain ⟨b1, b2, b3, b4, b5, hbs, k1, k2, k3, k4, k5⟩ := easy_branches hc'
    have hfl := S.flow
    have hcur := easy_line_volts V
    unfold easyLines at hcur hfl
    rw [hbs] at hfl hb
    simp only [List.forall₂_cons, List.forall₂_nil_right_iff, and_true] at hfl hcur
    obtain ⟨⟨-, g1⟩, ⟨-, g2⟩, ⟨-, g3⟩, ⟨-, g4⟩, ⟨-, g5⟩⟩ := hfl
    obtain ⟨c1, c2, c3, c4, c5⟩ := hcur
    have r0 := hj 0
    have r1 := hj 1
    have r2 := hj 2
    have r3 := hj 3
    have r4 := hj 4
    simp only [easyRates, Matrix.cons_val_zero, Matrix.cons_val_one, Matrix.cons_val] at r0 r1 r2 r3 r4
    push_cast at r0 r1 r2 r3 r4
    simp only [List.mem_cons, List.not_mem_nil, or_false] at hb
    rcases hb with rfl | rfl | rfl | rfl | rfl
    · rw [g1, k1]
      exact volts_apparent c1.1 c1.2 r0.1 r0.2 (by norm_num)
    · rw [g2, k2]
      exact volts_apparent c2.1 c2.2 r1.1 r1.2 (by norm_num)
    · rw [g3, k3]
      exact volts_apparent c3.1 c3.2 r2.1 r2.2 (by norm_num)
    · rw [g4, k4]
      exact volts_apparent c4.1 c4.2 r3.1 r3.2 (by norm_num)
    · rw [g5, k5]
      exact volts_apparent c5.1 c5.2 r4.1 r4.2 (by norm_num)

/-- The losses of the lines of ANM6 from the voltages. -/
theorem volt_loss (V : Fin 6 → ℂ) : (easyLines.map fun l => loss l (atId V)).sum = 36/10000 * ‖easyRadial.line V 0‖ ^ 2 +
    3/100 * ‖easyRadial.line V 1‖ ^ 2 + 307/10000 * ‖easyRadial.line V 2‖ ^ 2 + 303/10000 * ‖easyRadial.line V 3‖ ^ 2 +
    159/10000 * ‖easyRadial.line V 4‖ ^ 2 := by
  have hcur := easy_line_volts V
  have key : ∀ {x y z : ℂ}, z ≠ 0 → x = y + z * ((x - y) / z) := by
    intro x y z hz
    field_simp
    ring
  unfold easyLines at hcur ⊢
  simp only [List.forall₂_cons] at hcur
  obtain ⟨⟨f1, g1⟩, ⟨f2, g2⟩, ⟨f3, g3⟩, ⟨f4, g4⟩, ⟨f5, g5⟩, -⟩ := hcur
  simp only [List.map_cons, List.map_nil, List.sum_cons, List.sum_nil, loss]
  rw [current_loss f1 g1 (key (easyZ_ne 0)), current_loss f2 g2 (key (easyZ_ne 1)), current_loss f3 g3 (key (easyZ_ne 2)),
    current_loss f4 g4 (key (easyZ_ne 3)), current_loss f5 g5 (key (easyZ_ne 4))]
  change _ = 36/10000 * ‖(V 1 - V 0) / easyZ 0‖ ^ 2 + 3/100 * ‖(V 2 - V 1) / easyZ 1‖ ^ 2 + 307/10000 * ‖(V 3 - V 1) / easyZ 2‖ ^ 2 +
    303/10000 * ‖(V 4 - V 2) / easyZ 3‖ ^ 2 + 159/10000 * ‖(V 5 - V 2) / easyZ 4‖ ^ 2
  ring

/-- **C117.** With exactly solved linear systems: if the load flow equations of ANM6 have a solution within the limits by 0.01 % of the
nominal voltages and 0.1 % of the ratings, up to the tolerance of the solver, then a transition converges and ends within the limits, with voltages
that differ by at most 0.004 % from those of this solution. -/
theorem C117_finds {o : LFOracle} (ho : ExactLF o) {qp : QP ℝ} {pi : ℝ} {s s' : Sim ℝ} {a : Sim.Args ℝ} {out : Sim.TransOut ℝ}
    (hs : SimOf anm6Net (.fin (1/4)) (.fin 100) s) (hc : SameConfig easySim s) (h : s.transition ⟨qp, realPF o, pi⟩ a = .ok (s', out))
    {p q : ℕ → ℝ} {d0 d1 d2 d3 d4 d5 d6 : Device ℝ} (D : Injects s' p q d0 d1 d2 d3 d4 d5 d6) {c : Cur}
    (M : Spec.Cur.Match c (busInj p) (busInj q)) (C : Spec.Cur.Roomy c) :
    out.converged = true ∧ WithinLimits s' ∧ ∃ V : Fin 6 → ℂ, Solved s' easyLines (atId V) ∧ (∀ k, ‖V k - c.v k‖ ≤ 4/100000) ∧
      (easyLines.map fun l => loss l (atId V)).sum ≤ (easyLines.map fun l => loss l (atId c.v)).sum + 5/1000000 := by
  obtain ⟨h1, h2⟩ := inject_run hs hc h D
  have hP := roomy_powers M C
  have hR : PowerRanges (powersOf (busInj p) (busInj q)) := by
    refine ⟨by simp [powersOf, busInj, Complex.ext_iff], by simp [powersOf, busInj, Complex.ext_iff], .inl ⟨(hP 2).trans ?_, (hP 3).trans ?_, (hP 4).trans ?_⟩⟩ <;>
      · simp [powR]
        norm_num
  obtain ⟨g, e1, e2, e3, e4⟩ := easy_settled ho hR
  have S := h2 g e1
  obtain ⟨n1, n2⟩ := easy_close M C (V := NR.volt g) rfl (fun k => (e3 k).1) e4
  set V := NR.volt g with hVg
  have hv : ∀ k : Fin 5, ‖V k.succ‖ ≤ ‖c.v k.succ‖ + 4/100000 ∧ ‖c.v k.succ‖ - 4/100000 ≤ ‖V k.succ‖ := by
    intro k
    have h3 := norm_sub_norm_le (V k.succ) (c.v k.succ)
    have h4 := norm_sub_norm_le (c.v k.succ) (V k.succ)
    rw [norm_sub_rev] at h4
    exact ⟨by linarith [n1 k], by linarith [n1 k]⟩
  have hj : ∀ l, ‖easyRadial.line V l‖ ≤ ‖easyRadial.line c.v l‖ + nearJ l := by
    intro l
    have h3 := norm_sub_norm_le (easyRadial.line V l) (easyRadial.line c.v l)
    linarith [n2 l]
  have j0 : ‖easyRadial.line V 0‖ ≤ ‖c.i3 + c.i4 + c.i5‖ + 173/1000000 := by simpa [cur_line, nearJ] using hj 0
  have j1 : ‖easyRadial.line V 1‖ ≤ ‖c.i4 + c.i5‖ + 109/1000000 := by simpa [cur_line, nearJ] using hj 1
  have j2 : ‖easyRadial.line V 2‖ ≤ ‖c.i3‖ + 45/1000000 := by simpa [cur_line, nearJ] using hj 2
  have j3 : ‖easyRadial.line V 3‖ ≤ ‖c.i4‖ + 45/1000000 := by simpa [cur_line, nearJ] using hj 3
  have j4 : ‖easyRadial.line V 4‖ ≤ ‖c.i5‖ + 45/1000000 := by simpa [cur_line, nearJ] using hj 4
  have u1 : ‖V 1‖ ≤ ‖c.v1‖ + 4/100000 := (hv 0).1
  have u2 : ‖V 2‖ ≤ ‖c.v2‖ + 4/100000 := (hv 1).1
  have u3 : ‖V 3‖ ≤ ‖c.v3‖ + 4/100000 := (hv 2).1
  have u4 : ‖V 4‖ ≤ ‖c.v4‖ + 4/100000 := (hv 3).1
  have u5 : ‖V 5‖ ≤ ‖c.v5‖ + 4/100000 := (hv 4).1
  have w1 : 9001/10000 ≤ ‖c.v1‖ ∧ ‖c.v1‖ ≤ 10999/10000 := C.v 0
  have w2 : 9001/10000 ≤ ‖c.v2‖ ∧ ‖c.v2‖ ≤ 10999/10000 := C.v 1
  have w3 : 9001/10000 ≤ ‖c.v3‖ ∧ ‖c.v3‖ ≤ 10999/10000 := C.v 2
  have w4 : 9001/10000 ≤ ‖c.v4‖ ∧ ‖c.v4‖ ≤ 10999/10000 := C.v 3
  have w5 : 9001/10000 ≤ ‖c.v5‖ ∧ ‖c.v5‖ ≤ 10999/10000 := C.v 4
  have b0 : ‖c.i3 + c.i4 + c.i5‖ ≤ 32/100 := by linarith [C.s01.1]
  have cur : ∀ {v i : ℂ} {r : ℝ}, 9001/10000 ≤ ‖v‖ → ‖v‖ * ‖i‖ ≤ r → ‖i‖ ≤ r / (9/10) := by
    intro v i r k1 k2
    rw [le_div_iff₀ (by norm_num)]
    nlinarith [norm_nonneg i]
  have b1 := cur w2.1 C.s12.2
  have b2 := cur w3.1 C.s13.2
  have b3 := cur w4.1 C.s24.2
  have b4 := cur w5.1 C.s25.2
  have prod : ∀ {x y v i r d : ℝ}, 0 ≤ x → 0 ≤ y → 0 ≤ v → 0 ≤ i → x ≤ v + 4/100000 → y ≤ i + d → v ≤ 10999/10000 → i ≤ 33/100 → 0 ≤ d → v * i ≤ 999/1000 * r →
      11/10 * d + 14/1000000 ≤ r / 1000 → x * y ≤ r := by
    intro x y v i r d x0 y0 v0 i0 hx hy hv hi hd hvi hr
    have k1 : x * y ≤ (v + 4/100000) * (i + d) := mul_le_mul hx hy y0 (by linarith)
    have k2 : v * d ≤ 10999/10000 * d := mul_le_mul_of_nonneg_right hv hd
    nlinarith
  have one : ‖V 0‖ = 1 := by rw [show V 0 = 1 from rfl, norm_one]
  have hlim : WithinLimits s' := by
    refine within_volts (sameConfig_trans hc (sameConfig_transition h)) S rfl (fun k => ?_) (fun l => ?_)
    · have h3 := C.v k
      have h4 := hv k
      exact ⟨by linarith, by linarith⟩
    · have N := fun z : ℂ => norm_nonneg z
      fin_cases l
      · constructor
        · change ‖V 0‖ * ‖easyRadial.line V 0‖ ≤ ((32/100 : ℚ) : ℝ)
          rw [one]
          push_cast
          linarith [C.s01.1]
        · change ‖V 1‖ * ‖easyRadial.line V 0‖ ≤ ((32/100 : ℚ) : ℝ)
          push_cast
          exact prod (N _) (N _) (N _) (N _) u1 j0 w1.2 (by linarith) (by norm_num) C.s01.2 (by norm_num)
      · constructor
        · change ‖V 1‖ * ‖easyRadial.line V 1‖ ≤ ((25/100 : ℚ) : ℝ)
          push_cast
          exact prod (N _) (N _) (N _) (N _) u1 j1 w1.2 (by linarith) (by norm_num) C.s12.1 (by norm_num)
        · change ‖V 2‖ * ‖easyRadial.line V 1‖ ≤ ((25/100 : ℚ) : ℝ)
          push_cast
          exact prod (N _) (N _) (N _) (N _) u2 j1 w2.2 (by linarith) (by norm_num) C.s12.2 (by norm_num)
      · constructor
        · change ‖V 1‖ * ‖easyRadial.line V 2‖ ≤ ((18/100 : ℚ) : ℝ)
          push_cast
          exact prod (N _) (N _) (N _) (N _) u1 j2 w1.2 (by linarith) (by norm_num) C.s13.1 (by norm_num)
        · change ‖V 3‖ * ‖easyRadial.line V 2‖ ≤ ((18/100 : ℚ) : ℝ)
          push_cast
          exact prod (N _) (N _) (N _) (N _) u3 j2 w3.2 (by linarith) (by norm_num) C.s13.2 (by norm_num)
      · constructor
        · change ‖V 2‖ * ‖easyRadial.line V 3‖ ≤ ((18/100 : ℚ) : ℝ)
          push_cast
          exact prod (N _) (N _) (N _) (N _) u2 j3 w2.2 (by linarith) (by norm_num) C.s24.1 (by norm_num)
        · change ‖V 4‖ * ‖easyRadial.line V 3‖ ≤ ((18/100 : ℚ) : ℝ)
          push_cast
          exact prod (N _) (N _) (N _) (N _) u4 j3 w4.2 (by linarith) (by norm_num) C.s24.2 (by norm_num)
      · constructor
        · change ‖V 2‖ * ‖easyRadial.line V 4‖ ≤ ((18/100 : ℚ) : ℝ)
          push_cast
          exact prod (N _) (N _) (N _) (N _) u2 j4 w2.2 (by linarith) (by norm_num) C.s25.1 (by norm_num)
        · change ‖V 5‖ * ‖easyRadial.line V 4‖ ≤ ((18/100 : ℚ) : ℝ)
          push_cast
          exact prod (N _) (N _) (N _) (N _) u5 j4 w5.2 (by linarith) (by norm_num) C.s25.2 (by norm_num)
  refine ⟨h1.trans e2, hlim, V, S, fun k => ?_, ?_⟩
  · refine Fin.cases ?_ (fun k => n1 k) k
    show ‖(1 : ℂ) - 1‖ ≤ _
    norm_num
  · rw [volt_loss, cur_loss]
    have sq_le : ∀ {x i d B : ℝ}, 0 ≤ x → 0 ≤ i → x ≤ i + d → i ≤ B → 0 ≤ d → x ^ 2 ≤ i ^ 2 + (2 * B * d + d ^ 2) := by
      intro x i d B x0 i0 hx hi hd
      nlinarith [pow_le_pow_left₀ x0 hx 2, mul_le_mul_of_nonneg_right hi hd]
    have N := fun z : ℂ => norm_nonneg z
    have q0 := sq_le (N _) (N _) j0 b0 (by norm_num)
    have q1 := sq_le (N _) (N _) j1 b1 (by norm_num)
    have q2 := sq_le (N _) (N _) j2 b2 (by norm_num)
    have q3 := sq_le (N _) (N _) j3 b3 (by norm_num)
    have q4 := sq_le (N _) (N _) j4 b4 (by norm_num)
    norm_num at q0 q1 q2 q3 q4
    linarith

theorem steers_exact {o : LFOracle} (ho : ExactLF o) : Steers o := by
  intro qp pi s s' a out hs hc h p q d0 d1 d2 d3 d4 d5 d6 D ⟨c, M, C⟩
  obtain ⟨h1, h2, V, S, -, hl⟩ := C117_finds ho hs hc h D M C
  exact ⟨h1, h2, V, c, S, M, C.safe, hl⟩

end

end Anm
