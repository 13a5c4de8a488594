import Verif.Props.DoNothing
import Verif.Props.NewtonPlay

/-! # C126: what doing nothing costs in ANM6Easy -/

namespace Anm

open Complex ComplexConjugate Spec

noncomputable section

/-! ### The penalty counts every overload -/

theorem X.fin_add_le {x y : ℝ} {a b : X ℝ} (h1 : .fin x ≤ a) (h2 : .fin y ≤ b) : X.fin (x + y) ≤ a + b := by
  cases a <;> cases b <;> simp_all
  · linarith
  · show X.fin (x + y) ≤ X.pinf
    simp
  · show X.fin (x + y) ≤ X.pinf
    simp
  · show X.fin (x + y) ≤ X.pinf
    simp

theorem foldl_ge {α : Type} (f : α → X ℝ) (g : α → ℝ) (l : List α) (hf : ∀ x ∈ l, .fin (g x) ≤ f x) {a : X ℝ} {r : ℝ} (ha : .fin r ≤ a) :
    .fin (r + (l.map g).sum) ≤ l.foldl (fun a x => a + f x) a := by
  induction l generalizing a r with
  | nil => simpa using ha
  | cons x l ih =>
    have := ih (fun y hy => hf y (by simp [hy])) (X.fin_add_le ha (hf x (by simp)))
    rw [List.map_cons, List.sum_cons, ← add_assoc]
    exact this

theorem X.fin_mul_le {x k : ℝ} {a : X ℝ} (h : .fin x ≤ a) (hk : 0 < k) : X.fin (x * k) ≤ a * .fin k := by
  cases a with
  | nan => simp at h
  | ninf => simp at h
  | pinf =>
    have e : (X.pinf : X ℝ) * .fin k = .pinf := by
      show X.mul _ _ = _
      simp [X.mul, X.sgn, X.infOf, hk]
    rw [e]
    simp
  | fin z =>
    simp only [X.fin_le_fin, X.fin_mul_fin] at *
    exact mul_le_mul_of_nonneg_right h hk.le

variable {n : Network ℝ} {base t l : ℝ} {s s' : Sim ℝ} {m : ℕ} {ls : List LineC} {o : LFOracle} {qp : QP ℝ} {pi : ℝ} {a : Sim.Args ℝ}
  {out : Sim.TransOut ℝ}

/-- **C126, penalty.** After a converged transition the penalty is at least the sum of the overloads of the branches, weighted
by the time step and by `lamb`. -/
theorem C126_penalty (hn : CleanFile n base) (hs : SimOf n (.fin t) (.fin l) s) (ht : 0 < t) (hl0 : 0 < l)
    (hm : Numbered s m) (hl : FiniteLines s ls) (h : s.transition ⟨qp, realPF o, pi⟩ a = .ok (s', out)) (hc : out.converged = true)
    (f : Branch ℝ → ℝ) (hf : ∀ b ∈ s'.branches, f b ≤ 0 ∨ ∃ x R, b.flow.sApparentMax = .fin x ∧ b.line.rate = .fin R ∧ f b ≤ |x| - R) :
    .fin (t * l * (s'.branches.map fun b => max 0 (f b)).sum) ≤ out.penalty := by
  obtain ⟨h1, h2⟩ := measured_converged hn hs hm hl h hc
  obtain ⟨_, e1, e2⟩ := simOf_base hs
  have M := measured_of_finite hn (simOf_transition hs h) h1 h2
  obtain ⟨bp, hbp, -, e3⟩ := penalty_inv h
  have hF := mapE_ok.1 hbp
  have n1 : ∀ x ∈ bp, (0 : X ℝ) ≤ x := by
    intro x hx
    obtain ⟨b, hb, hbx⟩ := forall₂_mem_right hF hx
    exact (busPenalty_spec hbx (M.vMax b hb) (M.vMin b hb)).1
  have f1 := (foldl_nonneg (fun x : X ℝ => x) bp n1 (a := 0) (by simp [X.zero_def])).1
  have f2 : .fin (0 + (s'.branches.map fun b => max 0 (f b)).sum) ≤ violations s' bp := by
    refine foldl_ge Sim.branchPenalty _ _ (fun b hb => ?_) f1
    have z := (violation (M.rate b hb)).1
    rcases hf b hb with k | ⟨x, R, k1, k2, k3⟩
    · rw [max_eq_left k]
      exact z
    · simp only [Sim.branchPenalty, k1, k2, X.abs, X.fin_sub_fin, X.zero_def, X.maximum_fin, X.fin_le_fin]
      exact max_le_max le_rfl k3
  rw [zero_add] at f2
  have := X.fin_mul_le f2 (mul_pos ht hl0)
  rw [e3, e1, e2, X.fin_mul_fin, mul_comm]
  exact this

/-- **C126, line.** The only branch of a bus that draws power, or that injects more than the branch loses, carries at least
what the bus exchanges, up to 1e-5 p.u. -/
theorem C126_carries {dt lam : X ℝ} (hn : CleanFile n base) (hs : SimOf n dt lam s) (hm : Numbered s m) (hl : FiniteLines s ls)
    (h : s.transition ⟨qp, realPF o, pi⟩ a = .ok (s', out)) (hc : out.converged = true) {b : Bus ℝ} {br : Branch ℝ}
    (hb : b ∈ s'.buses) (hbs : b.isSlack = false) (hk : LeafOn s' b.id br) {r lo vm P Q : ℝ}
    (hr : br.line.r = .fin r) (hB : br.line.b = .fin 0) (hT : br.line.tapMagn = .fin 1) (hD : br.line.shiftDeg = .fin 0)
    (hv : b.v.abs = .fin vm) (hlo : lo ≤ vm) (hlo0 : 0 < lo) (hP : b.p = .fin P) (hQ : b.q = .fin Q)
    (hsmall : P < -1e-5 ∨ r * ((P + 1e-5) ^ 2 + (|Q| + 1e-5) ^ 2) < (P - 1e-5) * lo ^ 2) :
    ∃ x, br.flow.sApparentMax = .fin x ∧ |P| - 1e-5 ≤ |x| := by
  obtain ⟨V, hV, hbal⟩ := C25_converged hn hs hm hl h hc
  obtain ⟨g1, g2, g3⟩ := simOf_lines hn hs hm hl
  obtain ⟨P', Q', e1, e2, b1, b2⟩ := hbal b hb hbs
  rw [hP] at e1
  cases e1
  rw [hQ] at e2
  cases e2
  obtain ⟨l, hl', f1, f2, hcase⟩ := leaving_leaf hV g1 hk
  obtain ⟨-, -, j3, -, j5, j6, j7⟩ := finite?_eq f1
  rw [hr] at j3; rw [hB] at j5; rw [hT] at j6; rw [hD] at j7
  simp only [X.fin.injEq] at j3 j5 j6 j7
  have hr0 := (g3 l hl').r
  have big : 1e-5 < |P| := by
    rw [lt_abs]
    rcases hsmall with k | k
    · right; linarith
    · left
      have : 0 ≤ r * ((P + 1e-5) ^ 2 + (|Q| + 1e-5) ^ 2) := by rw [j3]; positivity
      by_contra hneg
      nlinarith [mul_pos hlo0 hlo0]
  have sub : ∀ {x : ℝ}, |x - P| ≤ 1e-5 → |P| - 1e-5 ≤ |x| := by
    intro x hx
    have := abs_sub_abs_le_abs_sub P x
    rw [abs_sub_comm] at this
    linarith
  rw [f2]
  rcases hcase with ⟨k1, k2⟩ | ⟨k1, k2, k3⟩
  · rw [k2, ← k1] at b1
    change |(l.sFrom (V l.fBus) (V l.tBus)).re - P| ≤ 1e-5 at b1
    have h0 : (l.sFrom (V l.fBus) (V l.tBus)).re ≠ 0 := by
      intro e
      have := sub b1
      rw [e, abs_zero] at this
      linarith
    obtain ⟨x, i1, i2, -⟩ := C34_apparent_power_partial l _ _ h0
    refine ⟨x, i1, ?_⟩
    rw [i2]
    exact (sub b1).trans ((Complex.abs_re_le_norm _).trans (le_max_left _ _))
  · rw [k3, ← k2] at b1 b2
    change |(l.sTo (V l.fBus) (V l.tBus)).re - P| ≤ 1e-5 at b1
    change |(l.sTo (V l.fBus) (V l.tBus)).im - Q| ≤ 1e-5 at b2
    have a1 := (abs_le.1 b1)
    have h0 : (l.sFrom (V l.fBus) (V l.tBus)).re ≠ 0 := by
      intro h0
      rcases hsmall with k | k
      · have := (C30_branch_losses (g3 l hl') (V l.fBus) (V l.tBus)).2.1
        linarith
      · have hloss := plain_loss (g3 l hl') j5.symm j6.symm j7.symm (V l.fBus) (V l.tBus)
        rw [h0, zero_add] at hloss
        rw [hV.v b hb, ← k2] at hv
        have hv : ‖V l.tBus‖ = vm := by
          have : X.fin ‖V l.tBus‖ = X.fin vm := hv
          simpa using this
        have hsq : lo ^ 2 ≤ ‖V l.tBus‖ ^ 2 := by rw [hv]; nlinarith
        set z := l.sTo (V l.fBus) (V l.tBus) with hz
        have hn2 : ‖z‖ ^ 2 = z.re ^ 2 + z.im ^ 2 := by
          rw [Complex.sq_norm, Complex.normSq_apply]; ring
        have i1 : |z.im| ≤ |Q| + 1e-5 := by
          have := abs_sub_abs_le_abs_sub z.im Q
          linarith
        have i2 : z.im ^ 2 ≤ (|Q| + 1e-5) ^ 2 := by
          rw [← sq_abs z.im]
          exact pow_le_pow_left₀ (abs_nonneg _) i1 2
        have hp0 : 0 ≤ P - 1e-5 := by
          by_contra hneg
          have : 0 ≤ r * ((P + 1e-5) ^ 2 + (|Q| + 1e-5) ^ 2) := by rw [j3]; positivity
          nlinarith [mul_pos hlo0 hlo0]
        have i3 : z.re ^ 2 ≤ (P + 1e-5) ^ 2 := pow_le_pow_left₀ (by linarith) (by linarith) 2
        have i4 : (P - 1e-5) * lo ^ 2 ≤ z.re * ‖V l.tBus‖ ^ 2 :=
          mul_le_mul (by linarith) hsq (by positivity) (by linarith)
        rw [hloss, hn2, ← j3] at i4
        have i5 : r * (z.re ^ 2 + z.im ^ 2) ≤ r * ((P + 1e-5) ^ 2 + (|Q| + 1e-5) ^ 2) :=
          mul_le_mul_of_nonneg_left (by linarith) (by rw [j3]; exact hr0)
        linarith
    obtain ⟨x, i1, i2, -⟩ := C34_apparent_power_partial l _ _ h0
    refine ⟨x, i1, ?_⟩
    rw [i2]
    exact (sub b1).trans ((Complex.abs_re_le_norm _).trans (le_max_right _ _))

/-! ### ANM6Easy -/

namespace Spec

/-- The overloads (p.u.) of the lines to the buses 3, 4 and 5 of ANM6 at time of day `t` if nothing is done, as far as they follow
from the active powers in the tables, reduced by 0.001 MW each. -/
def idleOver (t : ℕ) : ℚ :=
  max 0 (|demandAt 0 t + min (potAt 0 t) 30| / 100 - 18001/100000) + max 0 (|demandAt 1 t + potAt 1 t| / 100 - 18001/100000) +
    max 0 (|demandAt 2 t| / 100 - 18001/100000)

/-- What a step to time of day `t` costs at least if nothing is done. -/
def idleCost (t : ℕ) : ℚ := 25 * idleOver t - 2/100000

end Spec

theorem idle_cap : ∀ t < 96, 25 * idleOver t ≤ 100 := by decide +kernel

/-- Lower bounds of the costs, in units of 1e-5. -/
def idleLow : List ℤ := List.replicate 25 449973 ++ [340598, 231223, 121848, 12473, -2, 18723, 96848] ++ List.replicate 13 174973 ++
  [96848, 18723, -2, 12473, 144764, 231223, 240598] ++ List.replicate 13 299948 ++ [240598, 231223, 144764, 12473, -2, 18723, 96848] ++
  List.replicate 13 174973 ++ [96848, 18723, -2, 12473, 121848, 231223, 340598] ++ List.replicate 4 449973

def lowCost (t : ℕ) : ℚ := (idleLow.getD t 0 : ℚ) / 100000

theorem low_le : ∀ t < 96, lowCost t ≤ idleCost t := by decide +kernel

theorem low_first : 5327 / 10 * (1 - (995/1000) ^ 96) ≤ daySum lowCost (995/1000) 0 96 ∧ daySum lowCost 1 0 96 = 4926103/20000 := by decide +kernel

theorem daySum_mono {f g : ℕ → ℚ} (h : ∀ t < 96, f t ≤ g t) {γ : ℚ} (hγ : 0 ≤ γ) : ∀ n t, daySum f γ t n ≤ daySum g γ t n
  | 0, _ => le_rfl
  | n + 1, t => add_le_add (h _ (Nat.mod_lt _ (by norm_num))) (mul_le_mul_of_nonneg_left (daySum_mono h hγ n _) hγ)

theorem daySum_last (f : ℕ → ℚ) (γ : ℚ) : ∀ n t, daySum f γ t (n + 1) = daySum f γ t n + γ ^ n * f ((t + n + 1) % 96)
  | 0, t => by simp [daySum]
  | n + 1, t => by
    rw [daySum, daySum_last f γ n, daySum, show ((t + 1) % 96 + n + 1) % 96 = (t + (n + 1) + 1) % 96 by omega]
    ring

/-- A day that begins a step later. -/
theorem daySum_shift (f : ℕ → ℚ) (γ : ℚ) (t : ℕ) :
    daySum f γ t 96 = (1 - γ ^ 96) * f ((t + 1) % 96) + γ * daySum f γ ((t + 1) % 96) 96 := by
  have h1 := daySum_last f γ 96 t
  rw [daySum, show (t + 96 + 1) % 96 = (t + 1) % 96 by omega] at h1
  linarith

/-- Lower bounds of the discounted costs from the time of day `96 - k` on, in units of 0.1. -/
def lowFrom : ℕ → ℤ
  | 0 => 5327
  | k + 1 => (idleLow.getD ((96 - k) % 96) 0 * 10 + 99500 * lowFrom k) / 100000

theorem low_from : ∀ k < 97, 4810 ≤ lowFrom k := by decide +kernel

theorem low_discounted : ∀ k ≤ 96, (1 - (995/1000 : ℚ) ^ 96) * (lowFrom k / 10) ≤ daySum lowCost (995/1000) ((96 - k) % 96) 96
  | 0, _ => by
    have := low_first.1
    simp only [lowFrom, Nat.sub_zero, Nat.mod_self]
    push_cast
    linarith
  | k + 1, hk => by
    have ih := low_discounted k (by omega)
    have hc : (0 : ℚ) < 1 - (995/1000) ^ 96 := by norm_num
    have e : ((96 - (k + 1)) % 96 + 1) % 96 = (96 - k) % 96 := by omega
    rw [daySum_shift, e]
    have hz : lowFrom (k + 1) * 100000 ≤ idleLow.getD ((96 - k) % 96) 0 * 10 + 99500 * lowFrom k := Int.ediv_mul_le _ (by norm_num)
    have hz' : (lowFrom (k + 1) : ℚ) * 100000 ≤ idleLow.getD ((96 - k) % 96) 0 * 10 + 99500 * lowFrom k := by exact_mod_cast hz
    have h1 : (lowFrom (k + 1) : ℚ) / 10 ≤ lowCost ((96 - k) % 96) + 995/1000 * (lowFrom k / 10) := by
      rw [lowCost]
      linarith
    have h2 := mul_le_mul_of_nonneg_left h1 hc.le
    have h3 := mul_le_mul_of_nonneg_left ih (by norm_num : (0 : ℚ) ≤ 995/1000)
    linarith

theorem idle_discounted (t : ℕ) (ht : t < 96) : 481 * (1 - (995/1000) ^ 96) ≤ daySum idleCost (995/1000) t 96 := by
  refine le_trans ?_ (daySum_mono low_le (by norm_num) 96 t)
  have h1 := low_discounted (96 - t) (by omega)
  rw [show (96 - (96 - t)) % 96 = t by omega] at h1
  refine le_trans ?_ h1
  have h2 : ((4810 : ℤ) : ℚ) ≤ lowFrom (96 - t) := by exact_mod_cast low_from (96 - t) (by omega)
  have hc : (0 : ℚ) < 1 - (995/1000) ^ 96 := by norm_num
  push_cast at h2
  rw [mul_comm]
  exact mul_le_mul_of_nonneg_left (by linarith) hc.le

theorem idle_day : ∀ t < 96, 4926103/20000 ≤ daySum idleCost 1 t 96 := by
  have key : ∀ t, daySum lowCost 1 t 96 = daySum lowCost 1 ((t + 1) % 96) 96 := fun t => by
    have := daySum_shift lowCost 1 t
    rw [this]
    ring
  have all : ∀ t < 96, daySum lowCost 1 t 96 = 4926103/20000 := by
    intro t
    induction t with
    | zero => exact fun _ => low_first.2
    | succ t ih =>
      intro h
      have := key t
      rw [Nat.mod_eq_of_lt h] at this
      rw [← this]
      exact ih (by omega)
  exact fun t ht => (all t ht).symm.le.trans (daySum_mono low_le (by norm_num) 96 t)

theorem easy_lines {s : Sim ℝ} (h : SameConfig easySim s) : s.branches.map (·.line) = (anm6Lines : List (Line ℝ)) := by
  have hl : List.Forall₂ (fun b b' : Branch ℝ => b'.line = b.line) (anm6Lines.map (fun l => { line := l })) s.branches := h.branches
  generalize s.branches = bs at hl
  generalize (anm6Lines : List (Line ℝ)) = ls at hl
  induction ls generalizing bs with
  | nil => cases hl; rfl
  | cons x ls ih =>
    cases hl with
    | cons h1 h2 => rw [List.map_cons, ih _ h2, h1]

/-- The voltages, up to the accuracy of the load flow, when nothing is done. -/
theorem idle_transition {o : LFOracle} (ho : ExactLF o) {qp : QP ℝ} {pi : ℝ} {s s' : Sim ℝ} {a : Sim.Args ℝ} {out : Sim.TransOut ℝ}
    (hs : SimOf anm6Net (.fin (1/4)) (.fin 100) s) (hc : SameConfig easySim s) (h : s.transition ⟨qp, realPF o, pi⟩ a = .ok (s', out))
    {t : ℕ} {l1 l3 l5 m2 m4 : ℚ} (T : TableAt t l1 l3 l5 m2 m4) {d0 d1 d2 d3 d4 d5 d6 : Device ℝ}
    (J : Injects s' (powers l1 ((min m2 30 : ℚ) : ℝ) l3 m4 l5 0) (powers (l1 / 5) 0 (l3 / 5) 0 (l5 / 5) 0) d0 d1 d2 d3 d4 d5 d6) :
    out.converged = true ∧ .fin ((25 * idleOver t : ℚ) : ℝ) ≤ out.penalty := by
  obtain ⟨hcv, V, hV, hb, -⟩ := C115_converges ho hs hc h J (initial_ranges T (by norm_num) (by norm_num))
  refine ⟨hcv, ?_⟩
  obtain ⟨B1, B3, B5, B2, B4⟩ := table_bounds T
  have hm := numbered_same hc easy_numbered
  have hl := finiteLines_same hc easy_finiteLines
  have hc' := sameConfig_trans hc (sameConfig_transition h)
  obtain ⟨b3, b4, b5, c3, c4, c5, m3', m4', m5', ⟨i3, s3, v3, k3⟩, ⟨i4, s4, v4, k4⟩, ⟨i5, s5, v5, k5⟩, l3', l4', l5'⟩ := easy_leaf hc'
  obtain ⟨i, j, hone⟩ := oneSlack_of_file anm6_clean anm6_documented hs
  obtain ⟨S3, T3⟩ := C33_bus_sum_partial hone h m3' (by rw [s3]; simp)
  obtain ⟨S4, T4⟩ := C33_bus_sum_partial hone h m4' (by rw [s4]; simp)
  obtain ⟨S5, T5⟩ := C33_bus_sum_partial hone h m5' (by rw [s5]; simp)
  obtain ⟨f0, f1, f2, f3, f4, f5, f6⟩ := J.bus
  have A3 : devicesAt s' b3.id = [d1, d2] := by simp [devicesAt, J.list, i3, f0, f1, f2, f3, f4, f5, f6]
  have A4 : devicesAt s' b4.id = [d3, d4] := by simp [devicesAt, J.list, i4, f0, f1, f2, f3, f4, f5, f6]
  have A5 : devicesAt s' b5.id = [d5, d6] := by simp [devicesAt, J.list, i5, f0, f1, f2, f3, f4, f5, f6]
  have two : ∀ x y : ℝ, sumX [.fin x, .fin y] = .fin (x + y) := by
    intro x y
    simp [sumX, X.zero_def]
  simp only [A3, A4, A5, List.map_cons, List.map_nil, J.pq1.1, J.pq1.2, J.pq2.1, J.pq2.2, J.pq3.1, J.pq3.2, J.pq4.1, J.pq4.2, J.pq5.1, J.pq5.2,
    J.pq6.1, J.pq6.2, two] at S3 T3 S4 T4 S5 T5
  simp only [powers, List.getD_cons_succ, List.getD_cons_zero] at S3 T3 S4 T4 S5 T5
  have vat : ∀ {b : Bus ℝ} (k : Fin 5), b ∈ s'.buses → b.id = ((k.succ : ℕ) : ℤ) → ∃ vm, b.v.abs = .fin vm ∧ 41/50 ≤ vm := by
    intro b k hbm hid
    refine ⟨‖V k.succ‖, ?_, (hb k).1⟩
    rw [hV.v b hbm, hid, show atId V (((k.succ : Fin 6) : ℕ) : ℤ) = _ from atId_nat V k.succ]
    rfl
  obtain ⟨vm3, w3, x3⟩ := vat (b := b3) 2 m3' i3
  obtain ⟨vm4, w4, x4⟩ := vat (b := b4) 3 m4' i4
  obtain ⟨vm5, w5, x5⟩ := vat (b := b5) 4 m5' i5
  -- what a line carries
  have carry : ∀ {b : Bus ℝ} {br : Branch ℝ} {f k : ℤ} {r x vm P Q : ℝ}, b ∈ s'.buses → b.id = k → b.isSlack = false → LeafOn s' k br →
      br.line = ⟨f, k, .fin r, .fin x, .fin 0, .fin (18/100), .fin 1, .fin 0⟩ → b.v.abs = .fin vm → 41/50 ≤ vm → b.p = .fin P → b.q = .fin Q →
      r ≤ 307/10000 → 0 ≤ r → P ≤ 1/2 → |Q| ≤ 1/2 →
      (|P| - 18001/100000 ≤ 0) ∨ ∃ x R, br.flow.sApparentMax = .fin x ∧ br.line.rate = .fin R ∧ |P| - 18001/100000 ≤ |x| - R := by
    intro b br f k r x vm P Q hbm hid hbs hk hline hv hlo hP hQ hr hr0 hP2 hQ2
    rw [or_iff_not_imp_left]
    intro hbig
    rw [not_le] at hbig
    subst hid
    obtain ⟨z, z1, z2⟩ := C126_carries anm6_clean hs hm hl h hcv hbm hbs hk (r := r) (lo := 41/50) (by rw [hline]) (by rw [hline]) (by rw [hline])
      (by rw [hline]) hv hlo (by norm_num) hP hQ (by
        rcases le_or_gt 0 P with h0 | h0
        · right
          rw [abs_of_nonneg h0] at hbig
          have i1 : (P + 1e-5) ^ 2 ≤ (51/100) ^ 2 := pow_le_pow_left₀ (by linarith) (by linarith) 2
          have i2 : (|Q| + 1e-5) ^ 2 ≤ (51/100) ^ 2 := pow_le_pow_left₀ (by positivity) (by linarith) 2
          have i3 : r * ((P + 1e-5) ^ 2 + (|Q| + 1e-5) ^ 2) ≤ 307/10000 * ((51/100) ^ 2 + (51/100) ^ 2) :=
            mul_le_mul hr (by linarith) (by positivity) (by norm_num)
          linarith
        · left
          rw [abs_of_neg h0] at hbig
          linarith)
    refine ⟨z, 18/100, z1, by rw [hline], ?_⟩
    linarith
  have cl : ∀ {x z : ℚ}, x ≤ z → (x : ℝ) ≤ z := fun h => by exact_mod_cast h
  have B1a := cl B1.1
  have B1b := cl B1.2
  have B3a := cl B3.1
  have B3b := cl B3.2
  have B5a := cl B5.1
  have B5b := cl B5.2
  have B2a := cl B2
  have B4a := cl B4.1
  have B4b := cl B4.2
  have B2b : ((min m2 30 : ℚ) : ℝ) ≤ 30 := by exact_mod_cast min_le_right m2 30
  have B2c : (0 : ℝ) ≤ ((min m2 30 : ℚ) : ℝ) := by exact_mod_cast le_min B2 (by norm_num)
  push_cast at B1a B1b B3a B3b B5a B5b B2a B4a B4b
  have R3 := carry m3' i3 s3 k3 l3' w3 x3 S3 T3 (by norm_num) (by norm_num) (by linarith) (abs_le.2 ⟨by linarith, by linarith⟩)
  have R4 := carry m4' i4 s4 k4 l4' w4 x4 S4 T4 (by norm_num) (by norm_num) (by linarith) (abs_le.2 ⟨by linarith, by linarith⟩)
  have R5 := carry m5' i5 s5 k5 l5' w5 x5 S5 T5 (by norm_num) (by norm_num) (by linarith) (abs_le.2 ⟨by linarith, by linarith⟩)
  -- the overloads
  obtain ⟨e1, e3, e5, e2, e4⟩ := demandAt_table T
  set F : Line ℝ → ℝ := fun ln => if ln.tBus = 3 then |(l1 : ℝ) / 100 + ((min m2 30 : ℚ) : ℝ) / 100| - 18001/100000
    else if ln.tBus = 4 then |(l3 : ℝ) / 100 + (m4 : ℝ) / 100| - 18001/100000
    else if ln.tBus = 5 then |(l5 : ℝ) / 100 + 0 / 100| - 18001/100000 else 0 with hF
  have only : ∀ {k : ℤ} {br : Branch ℝ}, LeafOn s' k br → ∀ b ∈ s'.branches, b.line.tBus = k → b = br := by
    rintro k br ⟨-, q1, q2, e, hno⟩ b hbm hbk
    rw [e] at hbm
    rcases List.mem_append.1 hbm with hbm | hbm
    · exact absurd hbk (hno b (by simp [hbm])).2
    · rcases List.mem_cons.1 hbm with hbm | hbm
      · exact hbm
      · exact absurd hbk (hno b (by simp [hbm])).2
  have key := C126_penalty anm6_clean hs (by norm_num) (by norm_num) hm hl h hcv (fun b => F b.line) (by
    intro b hbm
    simp only [hF]
    split_ifs with q3 q4 q5
    · rw [only k3 b hbm q3]; exact R3
    · rw [only k4 b hbm q4]; exact R4
    · rw [only k5 b hbm q5]; exact R5
    · exact .inl le_rfl)
  have hsum : (s'.branches.map fun b => max 0 (F b.line)).sum = ((idleOver t : ℚ) : ℝ) := by
    have : (s'.branches.map fun b => max 0 (F b.line)) = (s'.branches.map (·.line)).map fun ln => max 0 (F ln) := by simp
    rw [this, easy_lines hc']
    simp only [anm6Lines, List.map_cons, List.map_nil, List.sum_cons, List.sum_nil, hF]
    norm_num
    rw [idleOver, ← e1, ← e2, ← e3, ← e4, ← e5]
    push_cast
    rw [← add_div, ← add_div, abs_div, abs_div, abs_div, abs_of_pos (by norm_num : (0 : ℝ) < 100)]
    ring
  rw [hsum] at key
  push_cast at key ⊢
  norm_num at key
  exact key

section
variable {ρ : Type} {w : EasyWorld ℝ ρ} {s0 : Sim ℝ} {a a' : Anm6 ℝ ρ} {y : EnvDyn ℝ}

theorem idle_contained : easyActions.contains nothing true := by
  refine ⟨by decide, rfl, ?_, ?_⟩ <;>
    simp only [nothing, easyActions, boxOf, List.map_cons, List.map_nil, List.forall₂_cons, List.forall₂_nil_left_iff, and_true, X.fin_le_fin] <;>
    norm_num

/-- **C126, step.** With exactly solved linear systems and projections, a step of ANM6Easy in which nothing is done does not end
the episode, leaves the energy of the storage unit unchanged, and costs at least 25 times the overloads of the lines. -/
theorem C126_step {o : LFOracle} (hex : ExactLF o) (hw : w.sim.pf = realPF o) (ha : EasyOf w s0 a) (hg : Fair w.rng)
    (G : GoodSolvers w.sim (easySim : Sim ℝ)) (hy : a.env.dyn = some y) (ht : y.terminated = false) {p q g : ℕ → ℝ} {e : ℝ} {t : ℕ}
    (hv : EasyVector y.state p q g e t) {d : ℤ} (hd : a.date = some d) (hlt : d + 15 * (60 * 1000000) < 3652059 * dayMicros) :
    ∃ a' out y' r, a.step (easyCtx w s0) nothing = .ok (a', out) ∧ out.terminated = false ∧ a'.env.dyn = some y' ∧ y'.terminated = false ∧
      out.reward = .fin r ∧ r ≤ -(idleCost ((t + 1) % 96) : ℝ) ∧ a'.date = some (d + 15 * (60 * 1000000)) ∧
      ∃ p q g, EasyVector y'.state p q g e ((t + 1) % 96) := by
  have hw' : w.sim = ⟨w.sim.qp, realPF o, w.sim.pi⟩ := by rw [← hw]
  have hpf : NumericPF w.sim := by rw [hw']; exact C85_solver _ _ _
  rcases C83_step ha hg G hy idle_contained with ⟨a', out, h⟩ | ⟨-, d', hd', hlt'⟩
  swap
  · rw [hd] at hd'
    cases hd'
    omega
  obtain ⟨l1, l3, l5, m2, m4, T⟩ := table_at (t := (t + 1) % 96) (Nat.mod_lt _ (by norm_num))
  obtain ⟨args, tr, c0, c1, c2, c3, c4, c5, c6, htr, hflag, -⟩ := easy_inputs ha hg G hpf hy ht hv T h
  obtain ⟨d0, d1, d2, d3, d4, d5, d6, J, hsoc⟩ := C125_easy ha hg G hpf hy ht hv T h
  have J' : Injects a'.env.sim (powers l1 ((min m2 30 : ℚ) : ℝ) l3 m4 l5 0) (powers (l1 / 5) 0 (l3 / 5) 0 (l5 / 5) 0) d0 d1 d2 d3 d4 d5 d6 := by
    push_cast
    exact J
  have htr' := htr
  rw [hw'] at htr'
  obtain ⟨hconv, hpenal⟩ := idle_transition hex (envOf_simOf (easy_env ha)) (easy_sameConfig ha) htr' T J'
  have ho : out.terminated = false := by rw [hflag, hconv]; rfl
  obtain ⟨y0, y', args', tr', hy0, ht0, hy', ht', L, hc, hclip⟩ := easy_step_last ha hg G h ho
  have ha' := ha.step h
  obtain ⟨p', q', g', fl, vv, e', loss', pen, t', -, hv', -⟩ := easy_vector ha' hg G hpf hy' ht'
  obtain ⟨E, f0, f1, f2, f3, f4, f5, f6, D⟩ := easy_vector_devices ha' hg G hpf hy' ht' hv'
  have hl := J.list
  rw [D.list] at hl
  simp only [List.cons.injEq, and_true] at hl
  obtain ⟨rfl, rfl, rfl, rfl, rfl, rfl, rfl⟩ := hl
  have he := D.soc
  rw [hsoc, Option.getD_some, X.fin.injEq] at he
  have he : e' = e := by linarith
  subst he
  have hclk : Clock a.env t := ⟨y, hy, by rw [hv]; rfl⟩
  obtain ⟨y3, hy3, hl3⟩ := easy_next_step ha hclk h ho
  rw [hy'] at hy3
  cases hy3
  rw [hv'] at hl3
  simp only [List.getLast?_cons_cons, List.getLast?_singleton, Option.some.injEq, X.fin.injEq, Nat.cast_inj] at hl3
  subst hl3
  have k6 := J.pq6.1
  rw [D.pq6.1] at k6
  simp only [powers, List.getD_cons_succ, List.getD_cons_zero, X.fin.injEq] at k6
  -- the costs
  have hrew := easy_reward h ho hy'
  obtain ⟨V, x, hV, hl, habs⟩ := easy_energy ha hg G hw h ho hy' hv'
  have htr2 := L.trans
  rw [hw'] at htr2
  obtain ⟨-, hpos, -⟩ := C37_converged anm6_clean L.sim (by norm_num) (by norm_num) (numbered_same (easy_sameConfig ha) easy_numbered)
    (finiteLines_same (easy_sameConfig ha) easy_finiteLines) htr2 hc
  obtain ⟨-, -, hgood⟩ := simOf_lines anm6_clean L.sim (numbered_same (easy_sameConfig ha) easy_numbered) (finiteLines_same (easy_sameConfig ha) easy_finiteLines)
  have hloss : 0 ≤ (easyLines.map fun l => loss l V).sum := by
    refine List.sum_nonneg fun x hx => ?_
    obtain ⟨l, hl', rfl⟩ := List.mem_map.1 hx
    exact (C30_branch_losses (hgood l hl') _ _).2.1
  have hxlow := (abs_le.1 habs).1
  have hx : -(2/100000 : ℝ) ≤ max (-1) (min x 1) := by
    refine le_max_of_le_right (le_min ?_ (by norm_num))
    have j1 := le_max_left 0 (g' 2 / 100 - p' 2 / 100)
    have j2 := le_max_left 0 (g' 4 / 100 - p' 4 / 100)
    norm_num at hxlow
    linarith
  obtain ⟨-, hpen⟩ := idle_transition hex (envOf_simOf (easy_env ha)) (easy_sameConfig ha) htr2 T J'
  have cl : ∀ {x z : ℚ}, x ≤ z → (x : ℝ) ≤ z := fun h => by exact_mod_cast h
  have hcap := cl (idle_cap _ (Nat.mod_lt (t + 1) (by norm_num : 96 > 0)))
  obtain ⟨z, hz, hkz⟩ : ∃ z, y'.penalty = .fin z ∧ ((25 * idleOver ((t + 1) % 96) : ℚ) : ℝ) ≤ z := by
    rw [hclip]
    by_cases h100 : tr'.penalty ≤ .fin 100
    · rw [X.clip_eq_self hpos h100]
      cases hp : tr'.penalty with
      | nan => rw [hp] at hpen; simp at hpen
      | ninf => rw [hp] at hpen; simp at hpen
      | pinf => rw [hp] at h100; simp at h100
      | fin z => exact ⟨z, rfl, by rw [hp] at hpen; simpa using hpen⟩
    · rw [X.not_le_iff (X.le_notNan hpos).2 (X.notNan_fin _)] at h100
      rw [clip_eq_hi (by rw [X.zero_def, X.fin_le_fin]; norm_num) (X.le_of_lt' h100)]
      exact ⟨100, rfl, by push_cast at hcap ⊢; linarith⟩
  refine ⟨a', out, y', -(max (-1) (min x 1) + z), h, ho, hy', ht', ?_, ?_, ?_, p', q', g', hv'⟩
  · rw [hrew, hl, hz, X.fin_add_fin, X.neg_fin]
  · rw [idleCost]
    push_cast at hkz ⊢
    linarith
  · obtain ⟨e, dd, dd0, -, h3, -, rfl⟩ := anm6_step_ok h
    rw [hd] at h3
    cases h3
    show some (d + a.tick) = _
    rw [easy_tick ha]

/-- One can do nothing for any number of steps. -/
theorem idle_run {o : LFOracle} (hex : ExactLF o) (hw : w.sim.pf = realPF o) (hg : Fair w.rng) (G : GoodSolvers w.sim (easySim : Sim ℝ)) :
    ∀ (n t : ℕ) (a : Anm6 ℝ ρ) (y : EnvDyn ℝ) (d : ℤ) (p q g : ℕ → ℝ) (e : ℝ), EasyOf w s0 a → a.env.dyn = some y → y.terminated = false →
    a.date = some d → d + n * (15 * (60 * 1000000)) < 3652059 * dayMicros → EasyVector y.state p q g e t →
    ∃ os a' rs, Anm6Episode (easyCtx w s0) a (List.replicate n nothing) os a' ∧ (∀ out ∈ os, out.terminated = false) ∧ Energy a' e ∧
      os.map (·.reward) = rs.map X.fin ∧ ∀ γ : ℚ, 0 ≤ γ → discounted (γ : ℝ) rs ≤ -(daySum idleCost γ t n : ℝ)
  | 0, t, a, y, d, p, q, g, e, ha, hy, hf, hd, hlt, hv => ⟨[], a, [], .nil a, by simp, ⟨y, hy, by rw [hv]; rfl⟩, rfl, by simp [daySum, discounted]⟩
  | n + 1, t, a, y, d, p, q, g, e, ha, hy, hf, hd, hlt, hv => by
    obtain ⟨a1, out, y1, r, h, ho, hy1, hf1, hr, hrle, hd1, p1, q1, g1, hv1⟩ := C126_step hex hw ha hg G hy hf hv hd (by push_cast at hlt; nlinarith)
    obtain ⟨os, a', rs, i2, i3, ie, i4, i5⟩ := idle_run hex hw hg G n ((t + 1) % 96) a1 y1 _ p1 q1 g1 e (ha.step h) hy1 hf1 hd1
      (by push_cast at hlt; linarith) hv1
    refine ⟨out :: os, a', r :: rs, .cons h i2, by simpa [ho] using i3, ie, by simp [hr, i4], fun γ h0 => ?_⟩
    have i5 := i5 γ h0
    have hγ : (0 : ℝ) ≤ γ := by exact_mod_cast h0
    rw [daySum, discounted]
    push_cast
    nlinarith

/-- **C126.** With exactly solved linear systems and projections, whatever the random generator draws: after a reset of ANM6Easy to no
date an agent that does nothing can go on for up to a year without the end of the episode; the energy of the storage unit never
changes, and the rewards sum up to at most -246.3 a day, after ten days or more to at most -477 if they are discounted with the factor
0.995 of ANM6Easy. -/
theorem C126_year {o : LFOracle} (hex : ExactLF o) (hw : w.sim.pf = realPF o) (ha : EasyOf w s0 a) (hg : Fair w.rng)
    (G : GoodSolvers w.sim (easySim : Sim ℝ)) {seed : Option ℤ} {obs : List (X ℝ)} (h : a.easyReset (easyCtx w s0) w.rng seed none = .ok (a', obs))
    {e : ℝ} (he : Energy a' e) {N : ℕ} (hN : N ≤ 365) :
    ∃ os b rs, Anm6Episode (easyCtx w s0) a' (List.replicate (96 * N) nothing) os b ∧ (∀ out ∈ os, out.terminated = false) ∧ Energy b e ∧
      os.map (·.reward) = rs.map X.fin ∧ rs.sum ≤ -246.3 * (N : ℝ) ∧ (10 ≤ N → discounted (995/1000) rs ≤ -477) := by
  obtain ⟨t, ht96, hc⟩ := C56_reset hg ha h
  obtain ⟨-, -, -, y, p, q, g, hy, hf, hv⟩ := reset_vector ha hg G hw h hc he
  obtain ⟨d, hd, hlt⟩ := reset_room ha hg h
  obtain ⟨os, b, rs, i1, i2, i3, i4, i5⟩ := idle_run hex hw hg G (96 * N) t a' y d p q g e (ha.reset h) hy hf hd (by push_cast; omega) hv
  have hN0 : (0 : ℝ) ≤ N := by positivity
  refine ⟨os, b, rs, i1, i2, i3, i4, ?_, fun h10 => ?_⟩
  · have h1 := i5 1 (by norm_num)
    have h2 : ((4926103/20000 : ℚ) : ℝ) ≤ ((daySum idleCost 1 t 96 : ℚ) : ℝ) := by exact_mod_cast idle_day t ht96
    rw [daySum_days _ _ ht96] at h1
    push_cast at h1 h2
    rw [discounted_one] at h1
    simp only [one_pow, Finset.sum_const, Finset.card_range, nsmul_eq_mul, mul_one] at h1
    norm_num at h1 ⊢
    nlinarith
  · have h1 := i5 (995/1000) (by norm_num)
    rw [daySum_days _ _ ht96] at h1
    have h2 : ((481 * (1 - (995/1000) ^ 96) : ℚ) : ℝ) ≤ ((daySum idleCost (995/1000) t 96 : ℚ) : ℝ) := by exact_mod_cast idle_discounted t ht96
    push_cast at h1 h2
    have h3 := (geom_days N).1
    have h4 : (0 : ℝ) ≤ ∑ k ∈ Finset.range N, ((995/1000 : ℝ) ^ 96) ^ k := by positivity
    have h5 := mul_le_mul_of_nonneg_right h2 h4
    rw [mul_assoc, ← h3] at h5
    have h6 : (995/1000 : ℝ) ^ (96 * N) ≤ (995/1000) ^ 960 := pow_le_pow_of_le_one (by norm_num) (by norm_num) (by omega)
    have h7 : (995/1000 : ℝ) ^ 960 ≤ 82/10000 := by
      rw [show 960 = 96 * 10 by norm_num, pow_mul]
      have : (995/1000 : ℝ) ^ 96 ≤ 6182/10000 := by norm_num
      exact (pow_le_pow_left₀ (by positivity) this 10).trans (by norm_num)
    have h8 := h6.trans h7
    clear h6 h7 h2 h3 h4
    linarith

end

/-! ### Cases that meet the hypotheses -/

/-- C126 applies. -/
example : ∃ a a' obs os b, EasyOf (exactWorld exactOracle 48) easySim a ∧
    (a.easyReset (easyCtx (exactWorld exactOracle 48) easySim) (exactWorld exactOracle 48).rng (some 7) none = .ok (a', obs)) ∧
    Energy a' (1/2) ∧ Anm6Episode (easyCtx (exactWorld exactOracle 48) easySim) a' (List.replicate (96 * 365) nothing) os b := by
  obtain ⟨a, a', obs, ha, h, hc, he⟩ := exact_start exactOracle_exact (k := 48) (by norm_num)
  obtain ⟨os, b, rs, i1, -⟩ := C126_year exactOracle_exact rfl ha (fair_play 48) (C83_solvers _ _) h he (N := 365) le_rfl
  exact ⟨a, a', obs, os, b, ha, h, he, i1⟩

/-- C125 applies to a step in each of the three scenarios. -/
example {k : ℕ} (hk : k = 0 ∨ k = 40 ∨ k = 55) : ∃ a' y p q g e a'' out y'', EasyOf (exactWorld exactOracle k) easySim a' ∧ a'.env.dyn = some y ∧
    y.terminated = false ∧ EasyVector y.state p q g e k ∧ a'.step (easyCtx (exactWorld exactOracle k) easySim) nothing = .ok (a'', out) ∧
    out.terminated = false ∧ a''.env.dyn = some y'' ∧ 0 < y''.penalty := by
  have hg : Fair (exactWorld exactOracle k).rng := fair_play k
  have G : GoodSolvers (exactWorld exactOracle k).sim (easySim : Sim ℝ) := C83_solvers _ _
  obtain ⟨a, a', obs, ha, h, hc, he⟩ := exact_start exactOracle_exact (k := k) (by omega)
  obtain ⟨-, -, -, y, p, q, g, hy, hf, hv⟩ := reset_vector ha hg G rfl h hc he
  obtain ⟨d, hd, hlt⟩ := reset_room ha hg h
  obtain ⟨a1, out, y1, r, h1, ho, hy1, -⟩ := C126_step exactOracle_exact rfl (ha.reset h) hg G hy hf hv hd (by omega)
  refine ⟨a', y, p, q, g, _, a1, out, y1, ha.reset h, hy, hf, hv, h1, ho, hy1, C125_penalty (ha.reset h) hg G rfl hy hf hv h1 ho hy1 ?_⟩
  rcases hk with rfl | rfl | rfl <;> norm_num

end

end Anm
