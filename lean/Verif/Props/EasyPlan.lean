import Verif.Props.EasyApplied

/-! # A plan for a day of ANM6Easy, checked with rational numbers -/

namespace Anm

open Spec Complex ComplexConjugate

/-! ### Complex numbers with rational parts -/

/-- Real and imaginary part. -/
abbrev QC := ℚ × ℚ

namespace QC
def mul (x y : QC) : QC := (x.1 * y.1 - x.2 * y.2, x.1 * y.2 + x.2 * y.1)
def add (x y : QC) : QC := (x.1 + y.1, x.2 + y.2)
def nsq (x : QC) : ℚ := x.1 ^ 2 + x.2 ^ 2
/-- The power that belongs to a voltage and a current. -/
def power (v i : QC) : QC := (v.1 * i.1 + v.2 * i.2, v.2 * i.1 - v.1 * i.2)
noncomputable def toC (x : QC) : ℂ := ⟨x.1, x.2⟩

theorem toC_mul (x y : QC) : toC (x.mul y) = toC x * toC y := by
  apply Complex.ext <;> simp [toC, mul]
theorem toC_add (x y : QC) : toC (x.add y) = toC x + toC y := by
  apply Complex.ext <;> simp [toC, add]
theorem toC_power (v i : QC) : toC v * conj (toC i) = toC (power v i) := by
  apply Complex.ext <;> simp [toC, power] <;> ring
theorem toC_norm (x : QC) : ‖toC x‖ ^ 2 = ((nsq x : ℚ) : ℝ) := by
  rw [Complex.sq_norm, Complex.normSq_apply]
  simp [toC, nsq]
  ring

theorem norm_le' {x : QC} {r : ℚ} (h0 : 0 ≤ r) (h : nsq x ≤ r ^ 2) : ‖toC x‖ ≤ (r : ℝ) := by
  have hr : (0 : ℝ) ≤ r := by exact_mod_cast h0
  refine (sq_le_sq₀ (norm_nonneg _) hr).1 ?_
  rw [toC_norm]
  exact_mod_cast h
theorem le_norm' {x : QC} {r : ℚ} (h0 : 0 ≤ r) (h : r ^ 2 ≤ nsq x) : (r : ℝ) ≤ ‖toC x‖ := by
  have hr : (0 : ℝ) ≤ r := by exact_mod_cast h0
  refine (sq_le_sq₀ hr (norm_nonneg _)).1 ?_
  rw [toC_norm]
  exact_mod_cast h
theorem mul_norm_le {x y : QC} {r : ℚ} (h0 : 0 ≤ r) (h : nsq x * nsq y ≤ r ^ 2) : ‖toC x‖ * ‖toC y‖ ≤ (r : ℝ) := by
  have hr : (0 : ℝ) ≤ r := by exact_mod_cast h0
  refine (sq_le_sq₀ (by positivity) hr).1 ?_
  rw [mul_pow, toC_norm, toC_norm]
  exact_mod_cast h
end QC

open QC

/-- Currents at the buses 3, 4 and 5. -/
structure QCur where
  i3 : QC
  i4 : QC
  i5 : QC

namespace QCur
variable (c : QCur)
def i45 : QC := c.i4.add c.i5
def i345 : QC := (c.i3.add c.i4).add c.i5
def v1 : QC := add (1, 0) (mul (36/10000, 1834/10000) c.i345)
def v2 : QC := add c.v1 (mul (3/100, 22/1000) c.i45)
def v3 : QC := add c.v1 (mul (307/10000, 621/10000) c.i3)
def v4 : QC := add c.v2 (mul (303/10000, 611/10000) c.i4)
def v5 : QC := add c.v2 (mul (159/10000, 502/10000) c.i5)
noncomputable def cur : Cur := ⟨toC c.i3, toC c.i4, toC c.i5⟩

theorem cur_i : c.cur.i3 = toC c.i3 ∧ c.cur.i4 = toC c.i4 ∧ c.cur.i5 = toC c.i5 ∧ c.cur.i4 + c.cur.i5 = toC c.i45 ∧
    c.cur.i3 + c.cur.i4 + c.cur.i5 = toC c.i345 := by
  refine ⟨rfl, rfl, rfl, ?_, ?_⟩ <;> simp only [i45, i345, toC_add] <;> rfl

theorem cur_v : c.cur.v1 = toC c.v1 ∧ c.cur.v2 = toC c.v2 ∧ c.cur.v3 = toC c.v3 ∧ c.cur.v4 = toC c.v4 ∧ c.cur.v5 = toC c.v5 := by
  obtain ⟨a3, a4, a5, a45, a345⟩ := c.cur_i
  have h1 : c.cur.v1 = toC c.v1 := by
    rw [Cur.v1, a345, v1, toC_add, toC_mul]
    congr 1
    · simp [toC, Complex.ext_iff]
    · congr 1; simp [toC]
  have h2 : c.cur.v2 = toC c.v2 := by
    rw [Cur.v2, a45, v2, toC_add, toC_mul, h1]
    congr 2; simp [toC]
  refine ⟨h1, h2, ?_, ?_, ?_⟩
  · rw [Cur.v3, a3, v3, toC_add, toC_mul, h1]; congr 2; simp [toC]
  · rw [Cur.v4, a4, v4, toC_add, toC_mul, h2]; congr 2; simp [toC]
  · rw [Cur.v5, a5, v5, toC_add, toC_mul, h2]; congr 2; simp [toC]

/-- The powers at a bus differ by at most 0.00001 from the given ones (MW, MVAr). -/
def Close (s : QC) (p q : ℚ) : Prop := |s.1 - p / 100| ≤ 1/100000 ∧ |s.2 - q / 100| ≤ 1/100000

instance (s : QC) (p q : ℚ) : Decidable (Close s p q) := by unfold Close; infer_instance

/-- The currents belong to the powers at the buses 3, 4 and 5. -/
def Fits (c : QCur) (p3 q3 p4 q4 p5 q5 : ℚ) : Prop :=
  Close (power c.v3 c.i3) p3 q3 ∧ Close (power c.v4 c.i4) p4 q4 ∧ Close (power c.v5 c.i5) p5 q5

instance (p3 q3 p4 q4 p5 q5 : ℚ) : Decidable (Fits c p3 q3 p4 q4 p5 q5) := by unfold Fits; infer_instance

/-- Voltages and flows are within the limits by a small margin. -/
def InLimits (c : QCur) : Prop :=
  (∀ v ∈ [c.v1, c.v2, c.v3, c.v4, c.v5], (9001/10000) ^ 2 ≤ nsq v ∧ nsq v ≤ (10999/10000) ^ 2) ∧
  (nsq c.i345 ≤ (999/1000 * (32/100)) ^ 2 ∧ nsq c.v1 * nsq c.i345 ≤ (999/1000 * (32/100)) ^ 2) ∧
  (nsq c.v1 * nsq c.i45 ≤ (999/1000 * (25/100)) ^ 2 ∧ nsq c.v2 * nsq c.i45 ≤ (999/1000 * (25/100)) ^ 2) ∧
  (nsq c.v1 * nsq c.i3 ≤ (999/1000 * (18/100)) ^ 2 ∧ nsq c.v3 * nsq c.i3 ≤ (999/1000 * (18/100)) ^ 2) ∧
  (nsq c.v2 * nsq c.i4 ≤ (999/1000 * (18/100)) ^ 2 ∧ nsq c.v4 * nsq c.i4 ≤ (999/1000 * (18/100)) ^ 2) ∧
  (nsq c.v2 * nsq c.i5 ≤ (999/1000 * (18/100)) ^ 2 ∧ nsq c.v5 * nsq c.i5 ≤ (999/1000 * (18/100)) ^ 2)

instance : Decidable (InLimits c) := by unfold InLimits; infer_instance

variable {c}

theorem close_cast {s : QC} {p q : ℚ} (h : Close s p q) :
    |(toC s).re - (p : ℝ) / 100| ≤ xtol ∧ |(toC s).im - (q : ℝ) / 100| ≤ xtol := by
  have hx : xtol = ((1/100000 : ℚ) : ℝ) := by norm_num [xtol]
  rw [hx]
  refine ⟨?_, ?_⟩
  · have := (Rat.cast_le (K := ℝ)).2 h.1
    rw [Rat.cast_abs] at this
    simpa [toC] using this
  · have := (Rat.cast_le (K := ℝ)).2 h.2
    rw [Rat.cast_abs] at this
    simpa [toC] using this

theorem fits_match {p q : ℕ → ℝ} {p3 q3 p4 q4 p5 q5 : ℚ} (h : Fits c p3 q3 p4 q4 p5 q5) (e3 : p 1 + p 2 = p3) (f3 : q 1 + q 2 = q3)
    (e4 : p 3 + p 4 = p4) (f4 : q 3 + q 4 = q4) (e5 : p 5 + p 6 = p5) (f5 : q 5 + q 6 = q5) :
    Spec.Cur.Match c.cur (busInj p) (busInj q) := by
  obtain ⟨h3, h4, h5⟩ := h
  obtain ⟨v1, v2, v3, v4, v5⟩ := c.cur_v
  obtain ⟨a3, a4, a5, -, -⟩ := c.cur_i
  have hx : (0 : ℝ) ≤ xtol := by norm_num [xtol]
  have k3 : c.cur.v3 * conj c.cur.i3 = toC (power c.v3 c.i3) := by rw [v3, a3, toC_power]
  have k4 : c.cur.v4 * conj c.cur.i4 = toC (power c.v4 c.i4) := by rw [v4, a4, toC_power]
  have k5 : c.cur.v5 * conj c.cur.i5 = toC (power c.v5 c.i5) := by rw [v5, a5, toC_power]
  intro k
  fin_cases k
  · simp [Cur.i, busInj, hx]
  · simp [Cur.i, busInj, hx]
  · show |(c.cur.v3 * conj c.cur.i3).re - (p 1 + p 2) / 100| ≤ xtol ∧ |(c.cur.v3 * conj c.cur.i3).im - (q 1 + q 2) / 100| ≤ xtol
    rw [k3, e3, f3]
    exact close_cast h3
  · show |(c.cur.v4 * conj c.cur.i4).re - (p 3 + p 4) / 100| ≤ xtol ∧ |(c.cur.v4 * conj c.cur.i4).im - (q 3 + q 4) / 100| ≤ xtol
    rw [k4, e4, f4]
    exact close_cast h4
  · show |(c.cur.v5 * conj c.cur.i5).re - (p 5 + p 6) / 100| ≤ xtol ∧ |(c.cur.v5 * conj c.cur.i5).im - (q 5 + q 6) / 100| ≤ xtol
    rw [k5, e5, f5]
    exact close_cast h5

theorem limits_roomy (h : InLimits c) : Spec.Cur.Roomy c.cur := by
  obtain ⟨v1, v2, v3, v4, v5⟩ := c.cur_v
  obtain ⟨a3, a4, a5, a45, a345⟩ := c.cur_i
  obtain ⟨hv, h01, h12, h13, h24, h25⟩ := h
  simp only [List.forall_mem_cons] at hv
  obtain ⟨w1, w2, w3, w4, w5, -⟩ := hv
  have lim : ∀ {z : ℂ} {x : QC}, z = toC x → (9001/10000) ^ 2 ≤ nsq x ∧ nsq x ≤ (10999/10000) ^ 2 → 9001/10000 ≤ ‖z‖ ∧ ‖z‖ ≤ 10999/10000 := by
    rintro z x rfl ⟨h1, h2⟩
    have := le_norm' (by norm_num) h1
    have := norm_le' (by norm_num) h2
    push_cast at *
    constructor <;> assumption
  have pro : ∀ {z i : ℂ} {x j : QC} {r : ℚ}, 0 ≤ r → z = toC x → i = toC j → nsq x * nsq j ≤ r ^ 2 → ‖z‖ * ‖i‖ ≤ (r : ℝ) := by
    rintro z i x j r h0 rfl rfl h
    exact mul_norm_le h0 h
  constructor
  · intro k
    fin_cases k
    · exact lim v1 w1
    · exact lim v2 w2
    · exact lim v3 w3
    · exact lim v4 w4
    · exact lim v5 w5
  · have b1 := norm_le' (by norm_num) h01.1
    have b2 := pro (by norm_num) v1 a345 h01.2
    rw [a345]
    rw [a345] at b2
    push_cast at b1 b2
    exact ⟨b1, b2⟩
  · have b1 := pro (by norm_num) v1 a45 h12.1
    have b2 := pro (by norm_num) v2 a45 h12.2
    push_cast at b1 b2
    exact ⟨b1, b2⟩
  · have b1 := pro (by norm_num) v1 a3 h13.1
    have b2 := pro (by norm_num) v3 a3 h13.2
    push_cast at b1 b2
    exact ⟨b1, b2⟩
  · have b1 := pro (by norm_num) v2 a4 h24.1
    have b2 := pro (by norm_num) v4 a4 h24.2
    push_cast at b1 b2
    exact ⟨b1, b2⟩
  · have b1 := pro (by norm_num) v2 a5 h25.1
    have b2 := pro (by norm_num) v5 a5 h25.2
    push_cast at b1 b2
    exact ⟨b1, b2⟩

end QCur

/-! ### The plan -/

/-- The demand of the load with index `k` and the maximum production of the generator with index `k`. -/
def demandAt (k t : ℕ) : ℚ := (loadSeries.getD k []).getD t 0
def potAt (k t : ℕ) : ℚ := (genSeries.getD k []).getD t 0

theorem demandAt_table {t : ℕ} {l1 l3 l5 m2 m4 : ℚ} (T : TableAt t l1 l3 l5 m2 m4) :
    l1 = demandAt 0 t ∧ l3 = demandAt 1 t ∧ l5 = demandAt 2 t ∧ m2 = potAt 0 t ∧ m4 = potAt 1 t := by
  obtain ⟨h1, h2⟩ := T
  simp only [loadSeries, genSeries, List.map_cons, List.map_nil, List.cons.injEq, and_true] at h1 h2
  obtain ⟨n1, n3, n5⟩ := h1
  obtain ⟨n2, n4⟩ := h2
  simp [demandAt, potAt, loadSeries, genSeries, List.getD_eq_getElem?_getD, n1, n2, n3, n4, n5]

/-- The active power of the storage unit (MW): it is charged from 5 to 7:15 am and from 3 to 5:15 pm and then feeds the vehicles. -/
def planStorage (t : ℕ) : ℚ :=
  if demandAt 2 t = -25 then 71/10 else if demandAt 2 t = -175/8 then 159/40 else if demandAt 2 t = -75/4 then 17/20
  else if (20 ≤ t ∧ t ≤ 24) ∨ (60 ≤ t ∧ t ≤ 64) then -35/2 else if (25 ≤ t ∧ t ≤ 29) ∨ (65 ≤ t ∧ t ≤ 69) then -demandAt 2 t - 11047/648
  else 0

/-- The action at the time before `t`: the generators feed the loads at their buses, the wind farm also the storage unit;
no reactive power is left. -/
def plan (t : ℕ) : ℚ × ℚ × ℚ × ℚ × ℚ × ℚ :=
  (min (potAt 0 t) (-demandAt 0 t), -demandAt 1 t + (if planStorage t < 0 then -planStorage t else 0), -demandAt 0 t / 5, -demandAt 1 t / 5,
    planStorage t, -demandAt 2 t / 5)

/-- The currents in millionths. -/
def micro (a b c d e f : ℚ) : QCur := ⟨(a / 1000000, b / 1000000), (c / 1000000, d / 1000000), (e / 1000000, f / 1000000)⟩
def flatCur : QCur := micro 0 0 0 0 0 0

/-- The currents that belong to the plan. -/
def planCurs : List QCur :=
  List.replicate 20 (micro (-10003) 25 0 0 0 0) ++
  List.replicate 5 (micro (-10010) 27 174221 1506 (-175625) 1903) ++
  [micro (-10009) 84 138886 15 (-171218) 2912] ++
  [micro (-10010) 141 107919 (-884) (-171373) 4017] ++
  [micro (-10010) 199 76834 (-1270) (-171532) 5128] ++
  [micro (-10011) 256 45629 (-1136) (-171697) 6247] ++
  [micro (-10013) 314 14303 (-477) (-171868) 7374] ++
  List.replicate 15 (micro (-10014) 357 0 0 (-180621) 8690) ++
  List.replicate 2 (micro 0 0 0 0 (-180618) 8356) ++
  [micro 0 0 0 0 (-157480) 6349] ++
  [micro 0 0 0 0 (-125784) 4048] ++
  [micro 0 0 0 0 (-94189) 2269] ++
  [micro 0 0 0 0 (-62695) 1005] ++
  [micro 0 0 0 0 (-31298) 250] ++
  List.replicate 8 (micro 0 0 0 0 0 0) ++
  List.replicate 5 (micro 0 0 174211 1825 (-175621) 1580) ++
  [micro 0 0 138878 270 (-171214) 2597] ++
  [micro 0 0 107914 (-686) (-171369) 3701] ++
  [micro 0 0 76830 (-1129) (-171529) 4812] ++
  [micro 0 0 45627 (-1052) (-171694) 5930] ++
  [micro 0 0 14303 (-450) (-171865) 7056] ++
  List.replicate 2 (micro 0 0 0 0 (-180618) 8356) ++
  List.replicate 15 (micro (-10014) 357 0 0 (-180621) 8690) ++
  [micro (-10012) 314 0 0 (-157482) 6640] ++
  [micro (-10010) 256 0 0 (-125787) 4280] ++
  [micro (-10008) 198 0 0 (-94192) 2442] ++
  [micro (-10006) 140 0 0 (-62696) 1120] ++
  [micro (-10005) 82 0 0 (-31300) 308] ++
  List.replicate 4 (micro (-10003) 25 0 0 0 0)

def planCur (t : ℕ) : QCur := planCurs.getD t flatCur

/-- The energy after a step. -/
def afterQ (e p : ℚ) : ℚ := if p ≤ 0 then e - p / 4 * (9/10) else e - p / 4 / (9/10)

/-- The energy at the time `t` under the plan, from 0 MWh at 1 pm. -/
def planEnergy (t : ℕ) : ℚ :=
  (List.range ((t + 44) % 96)).foldl (fun e k => afterQ e (planStorage ((53 + k) % 96))) 0

/-- What makes an action work at the time `t`, with the energy `e` before and `e'` after it, or with up to 1 MWh more: the devices can carry
it out, and the load flow has a solution within the limits, by a small margin, with the currents `c`. -/
def StepOk (t : ℕ) (e : ℚ) (u : ℚ × ℚ × ℚ × ℚ × ℚ × ℚ) (c : QCur) (e' : ℚ) : Prop :=
  (0 ≤ u.1 ∧ u.1 ≤ 30 ∧ u.1 ≤ potAt 0 t) ∧ (0 ≤ u.2.1 ∧ u.2.1 ≤ 50 ∧ u.2.1 ≤ potAt 1 t) ∧ (0 ≤ u.2.2.1 ∧ u.2.2.1 ≤ 10) ∧
    (0 ≤ u.2.2.2.1 ∧ u.2.2.2.1 ≤ 10) ∧ (-30 ≤ u.2.2.2.2.1 ∧ u.2.2.2.2.1 ≤ 30) ∧ (0 ≤ u.2.2.2.2.2 ∧ u.2.2.2.2.2 ≤ 10) ∧
    e + 1 - 100 ≤ u.2.2.2.2.1 * (9/40) ∧ u.2.2.2.2.1 / 4 ≤ 9/10 * e ∧
    c.Fits (demandAt 0 t + u.1) (demandAt 0 t / 5 + u.2.2.1) (demandAt 1 t + u.2.1) (demandAt 1 t / 5 + u.2.2.2.1) (demandAt 2 t + u.2.2.2.2.1)
      (demandAt 2 t / 5 + u.2.2.2.2.2) ∧ c.InLimits ∧ afterQ e u.2.2.2.2.1 = e'

instance (t : ℕ) (e : ℚ) (u : ℚ × ℚ × ℚ × ℚ × ℚ × ℚ) (c : QCur) (e' : ℚ) : Decidable (StepOk t e u c e') := by
  unfold StepOk; infer_instance

/-- Actions for the times of a day, with the energies. -/
def DayPlan (u : ℕ → ℚ × ℚ × ℚ × ℚ × ℚ × ℚ) (c : ℕ → QCur) (e : ℕ → ℚ) : Prop :=
  ∀ t < 96, StepOk ((t + 1) % 96) (e t) (u ((t + 1) % 96)) (c ((t + 1) % 96)) (e ((t + 1) % 96))

instance (u : ℕ → ℚ × ℚ × ℚ × ℚ × ℚ × ℚ) (c : ℕ → QCur) (e : ℕ → ℚ) : Decidable (DayPlan u c e) := by unfold DayPlan; infer_instance

theorem plan_ok : DayPlan plan planCur planEnergy := by decide +kernel

/-- Under the plan the storage unit is empty from 11:30 am to 2:45 pm and from 9:30 pm to 4:45 am. -/
theorem plan_empty : ∀ t < 96, t ≤ 19 ∨ (46 ≤ t ∧ t ≤ 59) ∨ 86 ≤ t → planEnergy t = 0 := by decide +kernel

end Anm
