import Verif.Props.EasyPlay
import Verif.Props.EasyFacts
import Verif.Props.Kept

/-!
# C112: how well an agent can do in ANM6Easy at best

What an overloaded line costs exceeds what the overload saves, so the curtailment and the discharging that the ratings
of the lines call for (`Scenarios.lean`) bound the rewards of every agent, with or without penalties.
-/

namespace Anm

open Spec Complex ComplexConjugate

/-! ### A bus at the end of a line that may be overloaded -/

section
variable {n : Network ℝ} {base : ℝ} {dt lam : X ℝ} {s s' : Sim ℝ} {m : ℕ} {ls : List LineC}
  {o : LFOracle} {qp : QP ℝ} {pi : ℝ} {a : Sim.Args ℝ} {out : Sim.TransOut ℝ}

/-- The contribution of a branch to the penalty. -/
theorem branch_excess {l : LineC} {vf vt : ℂ} {br : Branch ℝ} {R : ℝ} (hf : br.flow = l.flow vf vt) (hR : br.line.rate = .fin R) (hR0 : 0 ≤ R) :
    ∃ v, Sim.branchPenalty br = .fin v ∧ 0 ≤ v ∧
      ((l.sFrom vf vt).re ≠ 0 → ‖l.sFrom vf vt‖ ≤ R + v ∧ ‖l.sTo vf vt‖ ≤ R + v) := by
  by_cases h0 : (l.sFrom vf vt).re = 0
  · refine ⟨max 0 (0 - R), ?_, le_max_left _ _, fun h => absurd h0 h⟩
    rw [Sim.branchPenalty, hf, C34_zero l vf vt h0, hR]
    simp [X.abs, X.zero_def, X.max_fin]
  · obtain ⟨x, e1, e2, -⟩ := C34_apparent_power_partial l vf vt h0
    refine ⟨max 0 (|x| - R), ?_, le_max_left _ _, fun _ => ?_⟩
    · rw [Sim.branchPenalty, hf, e1, hR]
      simp [X.abs, X.zero_def, X.max_fin]
    · have h1 : |x| - R ≤ max 0 (|x| - R) := le_max_right _ _
      rw [e2] at h1 ⊢
      constructor <;> linarith [le_max_left ‖l.sFrom vf vt‖ ‖l.sTo vf vt‖, le_max_right ‖l.sFrom vf vt‖ ‖l.sTo vf vt‖]

/-- **C112, excess.** After a converged transition: what a bus with a single branch draws exceeds the rating of the branch
by no more than the branch adds to the penalty, up to 1e-5 p.u. -/
theorem C112_draw (hn : CleanFile n base) (hs : SimOf n dt lam s) (hm : Numbered s m) (hl : FiniteLines s ls)
    (h : s.transition ⟨qp, realPF o, pi⟩ a = .ok (s', out)) (hc : out.converged = true) {b : Bus ℝ} {br : Branch ℝ}
    (hb : b ∈ s'.buses) (hbs : b.isSlack = false) (hk : LeafOn s' b.id br) {R P v : ℝ}
    (hR : br.line.rate = .fin R) (hR0 : 0 ≤ R) (hP : b.p = .fin P) (hv : Sim.branchPenalty br = .fin v) : -P ≤ R + v + 1e-5 := by
  obtain ⟨V, hV, hbal⟩ := C25_converged hn hs hm hl h hc
  obtain ⟨g1, g2, g3⟩ := simOf_lines hn hs hm hl
  obtain ⟨P', Q, e1, e2, b1, b2⟩ := hbal b hb hbs
  rw [hP] at e1
  cases e1
  obtain ⟨l, hl', f1, f2, hcase⟩ := leaving_leaf hV g1 hk
  obtain ⟨v', hv', hv0, hends⟩ := branch_excess f2 hR hR0
  rw [hv] at hv'
  cases hv'
  have hpass := (C30_branch_losses (g3 l hl') (V l.fBus) (V l.tBus)).2.1
  rcases hcase with ⟨k1, k2⟩ | ⟨k1, k2, k3⟩
  · rw [k2, ← k1] at b1
    change |(l.sFrom (V l.fBus) (V l.tBus)).re - P| ≤ 1e-5 at b1
    have := (abs_le.1 b1)
    by_cases h0 : (l.sFrom (V l.fBus) (V l.tBus)).re = 0
    · rw [h0] at this; linarith
    · have := (abs_le.1 ((Complex.abs_re_le_norm _).trans (hends h0).1)).1
      linarith
  · rw [k3, ← k2] at b1
    change |(l.sTo (V l.fBus) (V l.tBus)).re - P| ≤ 1e-5 at b1
    have := (abs_le.1 b1)
    by_cases h0 : (l.sFrom (V l.fBus) (V l.tBus)).re = 0
    · rw [h0] at hpass; linarith
    · have := (abs_le.1 ((Complex.abs_re_le_norm _).trans (hends h0).2)).1
      linarith

/-- **C112, excess of production.** The same for what the bus injects into a branch without shunt and transformer whose
second end it is, if the branch cannot lose all of it at the voltage of the bus. -/
theorem C112_inject (hn : CleanFile n base) (hs : SimOf n dt lam s) (hm : Numbered s m) (hl : FiniteLines s ls)
    (h : s.transition ⟨qp, realPF o, pi⟩ a = .ok (s', out)) (hc : out.converged = true) {b : Bus ℝ} {br : Branch ℝ}
    (hb : b ∈ s'.buses) (hbs : b.isSlack = false) (hk : LeafOn s' b.id br) {R r lo P Q v : ℝ}
    (hR : br.line.rate = .fin R) (hR0 : 0 ≤ R) (hr : br.line.r = .fin r) (hB : br.line.b = .fin 0)
    (hT : br.line.tapMagn = .fin 1) (hD : br.line.shiftDeg = .fin 0) (hlo : .fin lo ≤ b.v.abs) (hlo0 : 0 < lo)
    (hP : b.p = .fin P) (hQ : b.q = .fin Q)
    (hsmall : r * ((P + 1e-5) ^ 2 + (|Q| + 1e-5) ^ 2) < (P - 1e-5) * lo ^ 2) (hv : Sim.branchPenalty br = .fin v) :
    P ≤ R + v + 1e-5 := by
  obtain ⟨V, hV, hbal⟩ := C25_converged hn hs hm hl h hc
  obtain ⟨g1, g2, g3⟩ := simOf_lines hn hs hm hl
  obtain ⟨P', Q', e1, e2, b1, b2⟩ := hbal b hb hbs
  rw [hP] at e1
  cases e1
  rw [hQ] at e2
  cases e2
  obtain ⟨l, hl', f1, f2, hcase⟩ := leaving_leaf hV g1 hk
  obtain ⟨v', hv', hv0, hends⟩ := branch_excess f2 hR hR0
  rw [hv] at hv'
  cases hv'
  obtain ⟨-, -, j3, -, j5, j6, j7⟩ := finite?_eq f1
  rw [hr] at j3; rw [hB] at j5; rw [hT] at j6; rw [hD] at j7
  simp only [X.fin.injEq] at j3 j5 j6 j7
  rcases hcase with ⟨k1, k2⟩ | ⟨k1, k2, k3⟩
  · rw [k2, ← k1] at b1
    change |(l.sFrom (V l.fBus) (V l.tBus)).re - P| ≤ 1e-5 at b1
    have := (abs_le.1 b1)
    by_cases h0 : (l.sFrom (V l.fBus) (V l.tBus)).re = 0
    · rw [h0] at this; linarith
    · have := (abs_le.1 ((Complex.abs_re_le_norm _).trans (hends h0).1)).2
      linarith
  · rw [k3, ← k2] at b1 b2
    change |(l.sTo (V l.fBus) (V l.tBus)).re - P| ≤ 1e-5 at b1
    change |(l.sTo (V l.fBus) (V l.tBus)).im - Q| ≤ 1e-5 at b2
    have a1 := (abs_le.1 b1)
    have a2 := (abs_le.1 b2)
    by_cases h0 : (l.sFrom (V l.fBus) (V l.tBus)).re = 0
    · exfalso
      have hloss := plain_loss (g3 l hl') j5.symm j6.symm j7.symm (V l.fBus) (V l.tBus)
      rw [h0, zero_add] at hloss
      rw [hV.v b hb, ← k2] at hlo
      have hvv : lo ≤ ‖V l.tBus‖ := hlo
      have hsq : lo ^ 2 ≤ ‖V l.tBus‖ ^ 2 := by nlinarith
      set z := l.sTo (V l.fBus) (V l.tBus) with hz
      have hn2 : ‖z‖ ^ 2 = z.re ^ 2 + z.im ^ 2 := by
        rw [Complex.sq_norm, Complex.normSq_apply]; ring
      have hr0 := (g3 l hl').r
      have i1 : |z.im| ≤ |Q| + 1e-5 := by
        have := abs_sub_abs_le_abs_sub z.im Q
        linarith
      have i2 : z.im ^ 2 ≤ (|Q| + 1e-5) ^ 2 := by
        rw [← sq_abs z.im]
        exact pow_le_pow_left₀ (abs_nonneg _) i1 2
      have hp0 : 0 ≤ P - 1e-5 := by
        by_contra hneg
        have : 0 ≤ r * ((P + 1e-5) ^ 2 + (|Q| + 1e-5) ^ 2) := by rw [j3]; positivity
        nlinarith [mul_pos hlo0 hlo0]
      have i3 : z.re ^ 2 ≤ (P + 1e-5) ^ 2 := pow_le_pow_left₀ (by linarith) (by linarith) 2
      have i4 : (P - 1e-5) * lo ^ 2 ≤ z.re * ‖V l.tBus‖ ^ 2 :=
        mul_le_mul (by linarith) hsq (by positivity) (by linarith)
      rw [hloss, hn2, ← j3] at i4
      have i5 : r * (z.re ^ 2 + z.im ^ 2) ≤ r * ((P + 1e-5) ^ 2 + (|Q| + 1e-5) ^ 2) :=
        mul_le_mul_of_nonneg_left (by linarith) (by rw [j3]; exact hr0)
      linarith
    · have := (abs_le.1 ((Complex.abs_re_le_norm _).trans (hends h0).2)).2
      linarith

end

/-! ### The costs of a step -/

/-- The clipped energy loss. -/
theorem clip_loss (x : ℝ) : X.sign (.fin x) * X.clip (X.abs (.fin x)) 0 (.fin 1) = .fin (max (-1) (min x 1)) := by
  have hc : X.clip (X.abs (.fin x)) 0 (.fin 1) = .fin (min |x| 1) := by
    rw [X.abs, X.zero_def, X.clip_fin (by norm_num), max_eq_right (abs_nonneg _)]
  rw [hc]
  rcases lt_trichotomy x 0 with h | h | h
  · have e : X.sign (.fin x) = .fin (-1) := by simp [X.sign, h, not_lt.2 h.le]
    rw [e, X.fin_mul_fin, abs_of_neg h, min_eq_left (show x ≤ 1 by linarith), X.fin.injEq]
    rcases le_total (-x) 1 with h1 | h1
    · rw [min_eq_left h1, max_eq_right (by linarith)]; ring
    · rw [min_eq_right h1, max_eq_left (by linarith)]; ring
  · subst h
    simp [X.sign]
  · have e : X.sign (.fin x) = .fin 1 := by simp [X.sign, h]
    rw [e, X.fin_mul_fin, abs_of_pos h, one_mul, max_eq_right (le_min (by linarith) (by norm_num))]

section
variable {ρ : Type} {w : EasyWorld ℝ ρ} {s0 : Sim ℝ} {a a' : Anm6 ℝ ρ} {o : LFOracle} {u : List (X ℝ)} {out : Env.StepOut ℝ}

/-- The buses and branches of ANM6. -/
theorem easy_grid {s : Sim ℝ} (h : SameConfig easySim s) :
    ∃ b0 b1 b2 b3 b4 b5 c1 c2 c3 c4 c5, s.buses = [b0, b1, b2, b3, b4, b5] ∧ s.branches = [c1, c2, c3, c4, c5] ∧
      (b0.vMin = some (.fin 1) ∧ b0.vMax = .fin 1) ∧
      (∀ b ∈ [b1, b2, b3, b4, b5], b.isSlack = false ∧ b.vMin = some (.fin (9/10)) ∧ b.vMax = .fin (11/10)) ∧
      (b3.id = 3 ∧ b4.id = 4 ∧ b5.id = 5) ∧ (LeafOn s 3 c3 ∧ LeafOn s 4 c4 ∧ LeafOn s 5 c5) ∧
      (∀ c ∈ [c1, c2, c3, c4, c5], ∃ R, c.line.rate = .fin R ∧ 0 ≤ R) ∧
      c3.line = ⟨1, 3, .fin (307/10000), .fin (621/10000), .fin 0, .fin (18/100), .fin 1, .fin 0⟩ ∧
      c4.line = ⟨2, 4, .fin (303/10000), .fin (611/10000), .fin 0, .fin (18/100), .fin 1, .fin 0⟩ ∧
      c5.line = ⟨2, 5, .fin (159/10000), .fin (502/10000), .fin 0, .fin (18/100), .fin 1, .fin 0⟩ := by
  have hd : List.Forall₂ SameBus (([0, 1, 2, 3, 4, 5].map anm6Bus).map (busBounds anm6Devices)) s.buses := h.buses
  simp only [List.map_cons, List.map_nil] at hd
  obtain ⟨b0, l0, e0, h0, hd⟩ := forall₂_cons_inv hd
  obtain ⟨b1, l1, rfl, h1, hd⟩ := forall₂_cons_inv hd
  obtain ⟨b2, l2, rfl, h2, hd⟩ := forall₂_cons_inv hd
  obtain ⟨b3, l3, rfl, h3, hd⟩ := forall₂_cons_inv hd
  obtain ⟨b4, l4, rfl, h4, hd⟩ := forall₂_cons_inv hd
  obtain ⟨b5, l5, rfl, h5, hd⟩ := forall₂_cons_inv hd
  cases hd
  have hl : List.Forall₂ (fun b b' : Branch ℝ => b'.line = b.line) (anm6Lines.map (fun l => { line := l })) s.branches := h.branches
  unfold anm6Lines at hl
  simp only [List.map_cons, List.map_nil] at hl
  obtain ⟨c1, m1, e1, g1, hl⟩ := forall₂_cons_inv hl
  obtain ⟨c2, m2, rfl, g2, hl⟩ := forall₂_cons_inv hl
  obtain ⟨c3, m3, rfl, g3, hl⟩ := forall₂_cons_inv hl
  obtain ⟨c4, m4, rfl, g4, hl⟩ := forall₂_cons_inv hl
  obtain ⟨c5, m5, rfl, g5, hl⟩ := forall₂_cons_inv hl
  cases hl
  refine ⟨b0, b1, b2, b3, b4, b5, c1, c2, c3, c4, c5, e0, e1, ⟨by rw [h0]; rfl, by rw [h0]; rfl⟩, ?_,
    ⟨by rw [h3]; rfl, by rw [h4]; rfl, by rw [h5]; rfl⟩, ⟨?_, ?_, ?_⟩, ?_, g3, g4, g5⟩
  · intro b hb
    simp only [List.mem_cons, List.not_mem_nil, or_false] at hb
    rcases hb with rfl | rfl | rfl | rfl | rfl
    · rw [h1]; exact ⟨rfl, rfl, rfl⟩
    · rw [h2]; exact ⟨rfl, rfl, rfl⟩
    · rw [h3]; exact ⟨rfl, rfl, rfl⟩
    · rw [h4]; exact ⟨rfl, rfl, rfl⟩
    · rw [h5]; exact ⟨rfl, rfl, rfl⟩
  · refine ⟨by simp [g3], [c1, c2], [c4, c5], e1, ?_⟩
    simp [g1, g2, g4, g5]
  · refine ⟨by simp [g4], [c1, c2, c3], [c5], e1, ?_⟩
    simp [g1, g2, g3, g5]
  · refine ⟨by simp [g5], [c1, c2, c3, c4], [], e1, ?_⟩
    simp [g1, g2, g3, g4]
  · intro c hc
    simp only [List.mem_cons, List.not_mem_nil, or_false] at hc
    rcases hc with rfl | rfl | rfl | rfl | rfl
    · rw [g1]; exact ⟨_, rfl, by norm_num⟩
    · rw [g2]; exact ⟨_, rfl, by norm_num⟩
    · rw [g3]; exact ⟨_, rfl, by norm_num⟩
    · rw [g4]; exact ⟨_, rfl, by norm_num⟩
    · rw [g5]; exact ⟨_, rfl, by norm_num⟩

/-- The contribution of a bus to the penalty. -/
theorem bus_excess {b : Bus ℝ} {z : ℂ} {lo hi : ℝ} (hv : b.v = Phasor.ofC z) (h1 : b.vMin = some (.fin lo)) (h2 : b.vMax = .fin hi) :
    ∃ x, Sim.busPenalty b = .ok (.fin x) ∧ 0 ≤ x ∧ lo - x ≤ ‖z‖ := by
  refine ⟨max 0 (‖z‖ - hi) + max 0 (lo - ‖z‖), ?_, by positivity, ?_⟩
  · have : b.v.abs = .fin ‖z‖ := by rw [hv]; rfl
    rw [Sim.busPenalty, h1, h2, this]
    simp [X.zero_def, X.max_fin]
  · linarith [le_max_left 0 (‖z‖ - hi), le_max_right 0 (lo - ‖z‖)]

/-- The penalty of a converged transition of ANM6, and what it says about the buses at the ends of the network. -/
theorem easy_penalty {s s' : Sim ℝ} {qp : QP ℝ} {pi : ℝ} {args : Sim.Args ℝ} {tr : Sim.TransOut ℝ}
    (hs : SimOf anm6Net (.fin (1/4)) (.fin 100) s) (h : s.transition ⟨qp, realPF o, pi⟩ args = .ok (s', tr)) (hc : tr.converged = true) :
    ∃ b3 b4 b5 viol v3 v4 v5, b3 ∈ s'.buses ∧ b4 ∈ s'.buses ∧ b5 ∈ s'.buses ∧ (b3.id = 3 ∧ b4.id = 4 ∧ b5.id = 5) ∧
      (b3.isSlack = false ∧ b4.isSlack = false ∧ b5.isSlack = false) ∧ tr.penalty = .fin (25 * viol) ∧
      (0 ≤ v3 ∧ 0 ≤ v4 ∧ 0 ≤ v5) ∧ v3 + v4 + v5 ≤ viol ∧
      (viol < 1/10 → ∀ P Q, P ≤ 1/2 → |Q| ≤ 56/100 → (b3.p = .fin P → b3.q = .fin Q → P ≤ 18/100 + v3 + 1e-5) ∧
        (b4.p = .fin P → b4.q = .fin Q → P ≤ 18/100 + v4 + 1e-5)) ∧
      ∀ P, b5.p = .fin P → -P ≤ 18/100 + v5 + 1e-5 := by
  obtain ⟨s1, h1, h2⟩ := id hs
  rw [anm6_mk] at h1
  cases h1
  have hm := numbered_same h2 easy_numbered
  have hl := finiteLines_same h2 easy_finiteLines
  have hsc := sameConfig_transition h
  obtain ⟨V, hV, hbal⟩ := C25_converged anm6_clean hs hm hl h hc
  obtain ⟨b0, b1, b2, b3, b4, b5, c1, c2, c3, c4, c5, eb, ec, ⟨r1, r2⟩, hb, ⟨i3, i4, i5⟩, ⟨k3, k4, k5⟩, hR, l3, l4, l5⟩ := easy_grid (sameConfig_trans h2 hsc)
  have Vb := hV.v
  have Fb := hV.flow
  rw [eb] at Vb
  have bus : ∀ b ∈ [b1, b2, b3, b4, b5], ∃ x, Sim.busPenalty b = .ok (.fin x) ∧ 0 ≤ x ∧ (9/10 : ℝ) - x ≤ ‖V b.id‖ := by
    intro b hbm
    obtain ⟨-, n1, n2⟩ := hb b hbm
    exact bus_excess (Vb b (List.mem_cons_of_mem _ hbm)) n1 n2
  obtain ⟨x0, y0, z0, -⟩ := bus_excess (Vb b0 (by simp)) r1 r2
  obtain ⟨x1, y1, z1, -⟩ := bus b1 (by simp)
  obtain ⟨x2, y2, z2, -⟩ := bus b2 (by simp)
  obtain ⟨x3, y3, z3, a3⟩ := bus b3 (by simp)
  obtain ⟨x4, y4, z4, a4⟩ := bus b4 (by simp)
  obtain ⟨x5, y5, z5, a5⟩ := bus b5 (by simp)
  have branch : ∀ c ∈ [c1, c2, c3, c4, c5], ∃ v, Sim.branchPenalty c = .fin v ∧ 0 ≤ v := by
    intro c hcm
    obtain ⟨R, e1, e2⟩ := hR c hcm
    obtain ⟨l, -, -, f⟩ := forall₂_mem_left Fb (by rw [ec]; exact hcm)
    obtain ⟨v, g1, g2, -⟩ := branch_excess f e1 e2
    exact ⟨v, g1, g2⟩
  obtain ⟨w1, o1, n1⟩ := branch c1 (by simp)
  obtain ⟨w2, o2, n2⟩ := branch c2 (by simp)
  obtain ⟨w3, o3, n3⟩ := branch c3 (by simp)
  obtain ⟨w4, o4, n4⟩ := branch c4 (by simp)
  obtain ⟨w5, o5, n5⟩ := branch c5 (by simp)
  obtain ⟨bp, hbp, -, hpen⟩ := penalty_inv h
  have hbp' : bp = [.fin x0, .fin x1, .fin x2, .fin x3, .fin x4, .fin x5] := by
    rw [eb] at hbp
    simpa [mapE, y0, y1, y2, y3, y4, y5, Bind.bind, Except.bind, pure, Except.pure, eq_comm] using hbp
  have hdt : s.deltaT = .fin (1/4) := h2.dt
  have hlam : s.lamb = .fin 100 := h2.lamb
  refine ⟨b3, b4, b5, x0 + x1 + x2 + x3 + x4 + x5 + w1 + w2 + w3 + w4 + w5, w3, w4, w5, by simp [eb], by simp [eb], by simp [eb],
    ⟨i3, i4, i5⟩, ⟨(hb b3 (by simp)).1, (hb b4 (by simp)).1, (hb b5 (by simp)).1⟩, ?_, ⟨n3, n4, n5⟩, by linarith, ?_, ?_⟩
  · rw [hpen, hbp', hdt, hlam]
    simp only [violations, ec, List.foldl_cons, List.foldl_nil, o1, o2, o3, o4, o5, X.zero_def, X.fin_add_fin, X.fin_mul_fin, X.fin.injEq]
    ring
  · intro hv P Q hP hQ
    have key : ∀ {b : Bus ℝ} {br : Branch ℝ} {x v r z : ℝ} {f k : ℤ}, b ∈ s'.buses → b.isSlack = false → b.id = k → LeafOn s' k br →
        br.line = ⟨f, k, .fin r, .fin z, .fin 0, .fin (18/100), .fin 1, .fin 0⟩ → r ≤ 307/10000 → 0 ≤ r →
        Sim.branchPenalty br = .fin v → 0 ≤ v → (9/10 : ℝ) - x ≤ ‖V b.id‖ → x < 1/10 → b.p = .fin P → b.q = .fin Q → P ≤ 18/100 + v + 1e-5 := by
      intro b br x v r z f k hbm hbs hid hk hline hr hr0 hv hv0 hx hx0 hp hq
      subst hid
      by_contra hlt
      rw [not_le] at hlt
      refine absurd (C112_inject anm6_clean hs hm hl h hc hbm hbs hk (R := 18/100) (r := r) (lo := 8/10) (by rw [hline]) (by norm_num) (by rw [hline])
        (by rw [hline]) (by rw [hline]) (by rw [hline]) ?_ (by norm_num) hp hq ?_ hv) (not_le.2 hlt)
      · rw [hV.v b hbm]
        show (8/10 : ℝ) ≤ ‖V b.id‖
        linarith
      · have i1 : (P + 1e-5) ^ 2 ≤ (51/100) ^ 2 := pow_le_pow_left₀ (by linarith) (by linarith) 2
        have i2 : (|Q| + 1e-5) ^ 2 ≤ (57/100) ^ 2 := pow_le_pow_left₀ (by positivity) (by linarith) 2
        have i3 : r * ((P + 1e-5) ^ 2 + (|Q| + 1e-5) ^ 2) ≤ 307/10000 * ((51/100) ^ 2 + (57/100) ^ 2) :=
          mul_le_mul hr (by linarith) (by positivity) (by norm_num)
        linarith
    refine ⟨key (by simp [eb]) (hb b3 (by simp)).1 i3 k3 l3 (by norm_num) (by norm_num) o3 n3 a3 (by linarith),
      key (by simp [eb]) (hb b4 (by simp)).1 i4 k4 l4 (by norm_num) (by norm_num) o4 n4 a4 (by linarith)⟩
  · intro P hP
    exact C112_draw anm6_clean hs hm hl h hc (by simp [eb]) (hb b5 (by simp)).1 (by rw [i5]; exact k5) (R := 18/100) (by rw [l5]) (by norm_num) hP o5

/-- The reward of a step that does not end the episode, from the costs that the environment keeps. -/
theorem easy_reward (h : a.step (easyCtx w s0) u = .ok (a', out)) (ho : out.terminated = false) {y : EnvDyn ℝ} (hy : a'.env.dyn = some y) :
    out.reward = -(y.eLoss + y.penalty) := by
  obtain ⟨e, d, d0, h2, -, -, rfl⟩ := anm6_step_ok h
  obtain ⟨_, y1, hy1, ⟨ht, rfl, rfl⟩ | ⟨-, h3⟩⟩ := step_ok h2
  · cases ho
  obtain ⟨vars, args, tr, y2, I⟩ := advance_ok h3
  have hd : e.dyn = some y2 := by rw [I.result]
  rw [show e.dyn = some y from hy] at hd
  cases hd
  have hc : tr.converged = true := by have := I.flag; rw [ho] at this; simpa using this.symm
  have hr := I.reward
  rw [hc] at hr
  simp only [Env.rewardOf, if_true, Except.ok.injEq, Prod.mk.injEq] at hr
  obtain ⟨r1, r2, r3⟩ := hr
  rw [← r1, r2, r3]

namespace Spec

/-- The value of a table at a time of day. -/
def tableAt (l : List (List ℚ)) (k t : ℕ) : ℚ := (l.getD k []).getD t 0

/-- What the ratings of the lines (18 MW) cost in a quarter of an hour at the time of day `t`: the production of the
generators that cannot reach the network is lost, and of every MWh that the storage unit must supply to the vehicles,
19/81 MWh are lost on the way into and out of the storage unit, as its efficiency is 90% in both directions. -/
def forced (t : ℕ) : ℚ :=
  (max 0 (min (tableAt genSeries 0 t) 30 + tableAt loadSeries 0 t - 18) + max 0 (tableAt genSeries 1 t + tableAt loadSeries 1 t - 18) +
    19/81 * max 0 (- tableAt loadSeries 2 t - 18)) / 400

end Spec

/-- What the storage unit supplies, from the energy it loses. -/
theorem supplied (x : ℝ) : x / 4 = spent x / 0.9 - 19/81 * (max 0 x / 4) := by
  unfold spent
  split
  · rename_i h
    rw [max_eq_right h]
    ring
  · rename_i h
    rw [max_eq_left (le_of_not_ge h)]
    ring

/-- What a step of ANM6Easy costs: line losses, curtailment and what the storage unit takes. -/
theorem easy_energy (ha : EasyOf w s0 a) (hg : Fair w.rng) (G : GoodSolvers w.sim (easySim : Sim ℝ)) (hpf : w.sim.pf = realPF o)
    (h : a.step (easyCtx w s0) u = .ok (a', out)) (ho : out.terminated = false) {p q g : ℕ → ℝ} {e' : ℝ} {y : EnvDyn ℝ} {t : ℕ}
    (hy : a'.env.dyn = some y) (hv : EasyVector y.state p q g e' t) :
    ∃ V x, Solved a'.env.sim easyLines V ∧ y.eLoss = .fin (max (-1) (min x 1)) ∧
      |x - 1/4 * ((easyLines.map fun l => loss l V).sum + (max 0 (g 2 / 100 - p 2 / 100) + max 0 (g 4 / 100 - p 4 / 100)) - p 6 / 100)| ≤
        1/4 * ((5 : ℕ) * 1e-5) := by
  have hw : w.sim = ⟨w.sim.qp, realPF o, w.sim.pi⟩ := by rw [← hpf]
  have hnum : NumericPF w.sim := by rw [hw]; exact C85_solver _ _ _
  obtain ⟨y0, y', args, tr, hy0, ht0, hy', ht', L, hc, hclip, hlc⟩ := easy_step_costs ha hg G h ho
  rw [hy] at hy'
  cases hy'
  have ha' := ha.step h
  obtain ⟨E, d0, d1, d2, d3, d4, d5, d6, D⟩ := easy_vector_devices ha' hg G hnum hy ht' hv
  have htr := L.trans
  rw [hw] at htr
  obtain ⟨i, j, hone⟩ := oneSlack_of_file anm6_clean anm6_documented L.sim
  have f0 : d0.busId = 0 ∧ d0.isSlack = true ∧ d0.isRenewable = false ∧ d0.isStorage = false := by rw [D.m0]; exact ⟨rfl, rfl, rfl, rfl⟩
  have f1 : d1.busId = 3 ∧ d1.isSlack = false ∧ d1.isRenewable = false ∧ d1.isStorage = false := by rw [D.m1]; exact ⟨rfl, rfl, rfl, rfl⟩
  have f2 : d2.busId = 3 ∧ d2.isSlack = false ∧ d2.isRenewable = true ∧ d2.isStorage = false := by rw [D.m2]; exact ⟨rfl, rfl, rfl, rfl⟩
  have f3 : d3.busId = 4 ∧ d3.isSlack = false ∧ d3.isRenewable = false ∧ d3.isStorage = false := by rw [D.m3]; exact ⟨rfl, rfl, rfl, rfl⟩
  have f4 : d4.busId = 4 ∧ d4.isSlack = false ∧ d4.isRenewable = true ∧ d4.isStorage = false := by rw [D.m4]; exact ⟨rfl, rfl, rfl, rfl⟩
  have f5 : d5.busId = 5 ∧ d5.isSlack = false ∧ d5.isRenewable = false ∧ d5.isStorage = false := by rw [D.m5]; exact ⟨rfl, rfl, rfl, rfl⟩
  have f6 : d6.busId = 5 ∧ d6.isSlack = false ∧ d6.isRenewable = false ∧ d6.isStorage = true := by rw [D.m6]; exact ⟨rfl, rfl, rfl, rfl⟩
  have hi : i = 0 := by
    have hone' := oneSlack_same (sameConfig_transition htr) hone
    have := hone'.on d0 (by simp [D.list]) f0.2.1
    rw [← this, f0.1]
  have hal : ∀ d ∈ a.env.sim.devices, d.busId = i → d.isSlack = true := by
    intro d hd hdi
    obtain ⟨d', hd', hsm⟩ := forall₂_mem_left (sameConfig_transition htr).devices hd
    have e1 : d'.busId = d.busId := by rw [hsm]
    have e2 : d'.isSlack = d.isSlack := by rw [hsm]
    rw [← e2]
    rw [hdi, hi] at e1
    rw [D.list] at hd'
    simp only [List.mem_cons, List.not_mem_nil, or_false] at hd'
    rcases hd' with rfl | rfl | rfl | rfl | rfl | rfl | rfl
    · exact f0.2.1
    · exact absurd (f1.1.symm.trans e1) (by decide)
    · exact absurd (f2.1.symm.trans e1) (by decide)
    · exact absurd (f3.1.symm.trans e1) (by decide)
    · exact absurd (f4.1.symm.trans e1) (by decide)
    · exact absurd (f5.1.symm.trans e1) (by decide)
    · exact absurd (f6.1.symm.trans e1) (by decide)
  have hcfg := easy_sameConfig ha
  have hls : FiniteLines a.env.sim easyLines := finiteLines_same hcfg easy_finiteLines
  obtain ⟨-, V, x, hV, hx, habs⟩ := C32_energy_loss (by norm_num) anm6_clean L.sim (numbered_same hcfg easy_numbered) hone
    hls hal htr hc (by
      intro d hd hr
      rw [D.list] at hd
      simp only [List.mem_cons, List.not_mem_nil, or_false] at hd
      rcases hd with rfl | rfl | rfl | rfl | rfl | rfl | rfl
      · simp [f0] at hr
      · simp [f1] at hr
      · exact ⟨_, D.pot.1⟩
      · simp [f3] at hr
      · exact ⟨_, D.pot.2⟩
      · simp [f5] at hr
      · simp [f6] at hr)
  have hcur : (a'.env.sim.devices.map curtailed).sum = max 0 (g 2 / 100 - p 2 / 100) + max 0 (g 4 / 100 - p 4 / 100) := by
    simp [D.list, curtailed, f0, f1, f2, f3, f4, f5, f6, D.pq2, D.pq4, D.pot, finVal]
  have hsto : ((a'.env.sim.devices.filter Device.isStorage).map fun d => finVal d.p).sum = p 6 / 100 := by
    simp [D.list, f0, f1, f2, f3, f4, f5, f6, D.pq6, finVal]
  rw [hcur, hsto] at habs
  exact ⟨V, x, hV, by rw [hlc, hx, clip_loss], habs⟩

/-- **C112, step.** Whatever the agent does: the reward of a step of ANM6Easy that does not end the episode is at most
what the energy taken from the storage unit is worth less the costs forced by the ratings of the lines. -/
theorem C112_step (ha : EasyOf w s0 a) (hg : Fair w.rng) (G : GoodSolvers w.sim (easySim : Sim ℝ)) (hpf : w.sim.pf = realPF o)
    (h : a.step (easyCtx w s0) u = .ok (a', out)) (ho : out.terminated = false) {p q g : ℕ → ℝ} {e e' : ℝ} {y : EnvDyn ℝ} {t : ℕ}
    (he : Energy a e) (hy : a'.env.dyn = some y) (hv : EasyVector y.state p q g e' t) :
    ∃ r, out.reward = .fin r ∧ r ≤ (e - e') / 90 - forced t + 2e-5 := by
  have hen := C107_step_energy ha hg G hpf h ho he hy hv
  obtain ⟨l1, l3, l5, m2, m4, t1, t2, t3, t4, t5, t6, t7⟩ := easy_vector_day ha hg G h ho hy hv
  have hrew := easy_reward h ho hy
  have hw : w.sim = ⟨w.sim.qp, realPF o, w.sim.pi⟩ := by rw [← hpf]
  have hnum : NumericPF w.sim := by rw [hw]; exact C85_solver _ _ _
  obtain ⟨y0, y', args, tr, hy0, ht0, hy', ht', L, hc, hclip, hlc⟩ := easy_step_costs ha hg G h ho
  rw [hy] at hy'
  cases hy'
  have ha' := ha.step h
  obtain ⟨E, d0, d1, d2, d3, d4, d5, d6, D⟩ := easy_vector_devices ha' hg G hnum hy ht' hv
  have htr := L.trans
  rw [hw] at htr
  obtain ⟨i, j, hone⟩ := oneSlack_of_file anm6_clean anm6_documented L.sim
  have f0 : d0.busId = 0 ∧ d0.isSlack = true ∧ d0.isRenewable = false ∧ d0.isStorage = false := by rw [D.m0]; exact ⟨rfl, rfl, rfl, rfl⟩
  have f1 : d1.busId = 3 ∧ d1.isSlack = false ∧ d1.isRenewable = false ∧ d1.isStorage = false := by rw [D.m1]; exact ⟨rfl, rfl, rfl, rfl⟩
  have f2 : d2.busId = 3 ∧ d2.isSlack = false ∧ d2.isRenewable = true ∧ d2.isStorage = false := by rw [D.m2]; exact ⟨rfl, rfl, rfl, rfl⟩
  have f3 : d3.busId = 4 ∧ d3.isSlack = false ∧ d3.isRenewable = false ∧ d3.isStorage = false := by rw [D.m3]; exact ⟨rfl, rfl, rfl, rfl⟩
  have f4 : d4.busId = 4 ∧ d4.isSlack = false ∧ d4.isRenewable = true ∧ d4.isStorage = false := by rw [D.m4]; exact ⟨rfl, rfl, rfl, rfl⟩
  have f5 : d5.busId = 5 ∧ d5.isSlack = false ∧ d5.isRenewable = false ∧ d5.isStorage = false := by rw [D.m5]; exact ⟨rfl, rfl, rfl, rfl⟩
  have f6 : d6.busId = 5 ∧ d6.isSlack = false ∧ d6.isRenewable = false ∧ d6.isStorage = true := by rw [D.m6]; exact ⟨rfl, rfl, rfl, rfl⟩
  -- the energy loss
  obtain ⟨V, x, hV, hl, habs⟩ := easy_energy ha hg G hpf h ho hy hv
  obtain ⟨-, -, hgood⟩ := simOf_lines anm6_clean L.sim (numbered_same (easy_sameConfig ha) easy_numbered) (finiteLines_same (easy_sameConfig ha) easy_finiteLines)
  have hloss : 0 ≤ (easyLines.map fun l => loss l V).sum := by
    refine List.sum_nonneg fun x hx => ?_
    obtain ⟨l, hl', rfl⟩ := List.mem_map.1 hx
    exact (C30_branch_losses (hgood l hl') _ _).2.1
  have hxlow := (abs_le.1 habs).1
  -- the penalty
  obtain ⟨b3, b4, b5, viol, v3, v4, v5, m3, m4', m5, ⟨i3, i4, i5⟩, ⟨s3, s4, s5⟩, hpen, ⟨n3, n4, n5⟩, hle, hgen, hveh⟩ := easy_penalty L.sim htr hc
  obtain ⟨S3, T3⟩ := C33_bus_sum_partial hone htr m3 (by rw [s3]; simp)
  obtain ⟨S4, T4⟩ := C33_bus_sum_partial hone htr m4' (by rw [s4]; simp)
  obtain ⟨S5, T5⟩ := C33_bus_sum_partial hone htr m5 (by rw [s5]; simp)
  have A3 : devicesAt a'.env.sim b3.id = [d1, d2] := by simp [devicesAt, D.list, i3, f0, f1, f2, f3, f4, f5, f6]
  have A4 : devicesAt a'.env.sim b4.id = [d3, d4] := by simp [devicesAt, D.list, i4, f0, f1, f2, f3, f4, f5, f6]
  have A5 : devicesAt a'.env.sim b5.id = [d5, d6] := by simp [devicesAt, D.list, i5, f0, f1, f2, f3, f4, f5, f6]
  have two : ∀ x y : ℝ, sumX [.fin x, .fin y] = .fin (x + y) := by
    intro x y
    simp [sumX, X.zero_def]
  rw [A3] at S3 T3
  rw [A4] at S4 T4
  rw [A5] at S5 T5
  simp only [List.map_cons, List.map_nil, D.pq1, D.pq2, D.pq3, D.pq4, D.pq5, D.pq6, two] at S3 T3 S4 T4 S5 T5
  obtain ⟨⟨p11, p12⟩, ⟨p21, p22, p23⟩, ⟨p31, p32⟩, ⟨p41, p42, p43⟩, ⟨p51, p52⟩, ⟨p61, p62⟩, ⟨q11, q12⟩, ⟨q21, q22⟩, ⟨q31, q32⟩, ⟨q41, q42⟩,
    ⟨q51, q52⟩, ⟨q61, q62⟩, -⟩ := E
  have R5 := hveh _ S5
  -- the tables
  have hf : ((forced t : ℚ) : ℝ) = (max 0 (g 2 + p 1 - 18) + max 0 (g 4 + p 3 - 18) + 19/81 * max 0 (- p 5 - 18)) / 400 := by
    simp only [loadSeries, genSeries, List.map_cons, List.map_nil, List.cons.injEq] at t1 t2
    have k1 : tableAt loadSeries 0 t = l1 := by simp [tableAt, loadSeries, List.getD_eq_getElem?_getD, t1.1]
    have k2 : tableAt loadSeries 1 t = l3 := by simp [tableAt, loadSeries, List.getD_eq_getElem?_getD, t1.2.1]
    have k3 : tableAt loadSeries 2 t = l5 := by simp [tableAt, loadSeries, List.getD_eq_getElem?_getD, t1.2.2.1]
    have k4 : tableAt genSeries 0 t = m2 := by simp [tableAt, genSeries, List.getD_eq_getElem?_getD, t2.1]
    have k5 : tableAt genSeries 1 t = m4 := by simp [tableAt, genSeries, List.getD_eq_getElem?_getD, t2.2.1]
    rw [forced, k1, k2, k3, k4, k5, t3, t4, t5, t6, t7]
    push_cast
    rfl
  rw [hf]
  -- the clipped costs
  rw [hpen, X.zero_def, X.clip_fin (by norm_num)] at hclip
  rw [hl, hclip] at hrew
  refine ⟨_, by simpa using hrew, ?_⟩
  have hp6 := supplied (p 6)
  have hviol : 0 ≤ viol := by linarith
  rw [max_eq_right (show (0 : ℝ) ≤ 25 * viol by linarith)]
  norm_num at hp6 hxlow
  rw [hen]
  have F3 : max 0 (g 2 + p 1 - 18) ≤ 12 := max_le (by norm_num) (by linarith)
  have F4 : max 0 (g 4 + p 3 - 18) ≤ 32 := max_le (by norm_num) (by linarith)
  have F5 : max 0 (- p 5 - 18) ≤ 12 := max_le (by norm_num) (by linarith)
  have z6 : 0 ≤ max 0 (p 6) := le_max_left _ _
  rcases lt_or_ge viol (1/10) with hsm | hbig
  · rw [min_eq_left (show 25 * viol ≤ 100 by linarith)]
    obtain ⟨R3, -⟩ := hgen hsm _ _ (show p 1 / 100 + p 2 / 100 ≤ 1/2 by linarith) (show |q 1 / 100 + q 2 / 100| ≤ 56/100 from abs_le.2 ⟨by linarith, by linarith⟩)
    obtain ⟨-, R4⟩ := hgen hsm _ _ (show p 3 / 100 + p 4 / 100 ≤ 1/2 by linarith) (show |q 3 / 100 + q 4 / 100| ≤ 56/100 from abs_le.2 ⟨by linarith, by linarith⟩)
    have R3 := R3 S3 T3
    have R4 := R4 S4 T4
    have c3 : max 0 (g 2 + p 1 - 18) ≤ 100 * (max 0 (g 2 / 100 - p 2 / 100) + v3 + 1e-5) := by
      have := le_max_left 0 (g 2 / 100 - p 2 / 100)
      have := le_max_right 0 (g 2 / 100 - p 2 / 100)
      exact max_le (by positivity) (by linarith)
    have c4 : max 0 (g 4 + p 3 - 18) ≤ 100 * (max 0 (g 4 / 100 - p 4 / 100) + v4 + 1e-5) := by
      have := le_max_left 0 (g 4 / 100 - p 4 / 100)
      have := le_max_right 0 (g 4 / 100 - p 4 / 100)
      exact max_le (by positivity) (by linarith)
    have c5 : max 0 (- p 5 - 18) ≤ max 0 (p 6) + 100 * (v5 + 1e-5) := by
      have := le_max_right 0 (p 6)
      exact max_le (by positivity) (by linarith)
    have hx1 : min x 1 ≤ max (-1) (min x 1) := le_max_right _ _
    rcases le_total x 1 with h1 | h1
    · rw [min_eq_left h1] at hx1 ⊢
      norm_num
      linarith
    · rw [min_eq_right h1] at hx1 ⊢
      norm_num
      linarith
  · have h25 : 25/10 ≤ min (25 * viol) 100 := le_min (by linarith) (by norm_num)
    have hx1 : -1 ≤ max (-1) (min x 1) := le_max_left _ _
    norm_num
    linarith

/-! ### Episodes -/

namespace Spec

/-- The discounted sum of the costs forced by the ratings of the lines in `n` steps after the time of day `t`. -/
noncomputable def forcedSum (γ : ℝ) (t : ℕ) : ℕ → ℝ
  | 0 => 0
  | n + 1 => forced ((t + 1) % 96) + γ * forcedSum γ ((t + 1) % 96) n

end Spec

theorem forced_table : ∀ t < 96, 0 ≤ forced t ∧ forced t ≤ 12/100 := by decide +kernel

theorem forced_bounds (t : ℕ) : (0 : ℝ) ≤ forced ((t + 1) % 96) ∧ (forced ((t + 1) % 96) : ℝ) ≤ 12/100 := by
  obtain ⟨h1, h2⟩ := forced_table ((t + 1) % 96) (Nat.mod_lt _ (by norm_num))
  have h2 : ((forced ((t + 1) % 96) : ℚ) : ℝ) ≤ ((12/100 : ℚ) : ℝ) := by exact_mod_cast h2
  push_cast at h2
  exact ⟨by exact_mod_cast h1, h2⟩

theorem forcedSum_nonneg {γ : ℝ} (h0 : 0 ≤ γ) : ∀ n t, 0 ≤ forcedSum γ t n
  | 0, _ => le_rfl
  | n + 1, t => by
    have := forcedSum_nonneg h0 n ((t + 1) % 96)
    have := (forced_bounds t).1
    rw [forcedSum]
    positivity

/-- The forced costs are smaller than those of a collapse of the network. -/
theorem forcedSum_le {γ : ℝ} (h0 : 0 ≤ γ) (h1 : γ ≤ 1) : ∀ n t, forcedSum γ t n ≤ 12/100 * n ∧ (γ ≤ 995/1000 → forcedSum γ t n ≤ 24)
  | 0, _ => by norm_num [forcedSum]
  | n + 1, t => by
    obtain ⟨i1, i2⟩ := forcedSum_le h0 h1 n ((t + 1) % 96)
    have hn := forcedSum_nonneg h0 n ((t + 1) % 96)
    have := (forced_bounds t).2
    rw [forcedSum]
    push_cast
    constructor
    · nlinarith
    · intro h
      have := i2 h
      nlinarith

/-- The energy in the state vector is within the limits of the storage unit. -/
theorem energy_nonneg (ha : EasyOf w s0 a) (hg : Fair w.rng) (G : GoodSolvers w.sim (easySim : Sim ℝ)) (hp : NumericPF w.sim) {y : EnvDyn ℝ}
    (hy : a.env.dyn = some y) (hf : y.terminated = false) {e : ℝ} (he : Energy a e) : 0 ≤ e := by
  obtain ⟨p, q, g, fl, v, e0, loss, pen, t0, -, hv0, -⟩ := easy_vector ha hg G hp hy hf
  obtain ⟨y1, hy1, he⟩ := he
  rw [hy] at hy1
  cases hy1
  have E := (easy_vector_devices ha hg G hp hy hf hv0).1
  unfold EasyVector at hv0
  rw [hv0] at he
  simp only [List.getElem?_cons_succ, List.getElem?_cons_zero, Option.some.injEq, X.fin.injEq] at he
  rw [← he]
  exact E.e.1

/-- The rewards after the end of the episode. -/
theorem rewards_after (hg : Fair w.rng) (G : GoodSolvers w.sim (easySim : Sim ℝ)) (hp : NumericPF w.sim)
    {us : List (List (X ℝ))} {os : List (Env.StepOut ℝ)} (h : Anm6Episode (easyCtx w s0) a us os a') (γ : ℝ) :
    ∀ {y : EnvDyn ℝ}, EasyOf w s0 a → a.env.dyn = some y → y.terminated = true →
      ∃ rs : List ℝ, os.map (·.reward) = rs.map X.fin ∧ discounted γ rs = 0 := by
  induction h with
  | nil a => intro y _ _ _; exact ⟨[], rfl, rfl⟩
  | @cons a a1 a' u us o os h1 h2 ih =>
    intro y ha hy hyt
    obtain ⟨r, hr, k1, -⟩ := C98_step ha hg G hp hy h1
    obtain ⟨e, d, d0, h3, -, -, e1⟩ := anm6_step_ok h1
    obtain ⟨y1, hy1, hf⟩ := C46_flag h3
    have hy1' : a1.env.dyn = some y1 := by rw [e1]; exact hy1
    have : y1.terminated = true := by
      obtain ⟨hu, -⟩ := step_ok h3
      rw [(C46_terminal_step hy hyt u).1 hu] at h3
      cases h3
      rw [hy] at hy1; cases hy1; exact hyt
    obtain ⟨rs, i1, i2⟩ := ih (ha.step h1) hy1' this
    exact ⟨r :: rs, by simp [hr, i1], by rw [discounted, k1 hyt, i2]; simp⟩

/-- **C112, return.** No agent can do better than the costs forced by the ratings of the lines: whatever the actions, and
whether or not the network collapses, the discounted sum of the rewards is at most what the energy in the storage
unit is worth less those costs. -/
theorem C112_return (hg : Fair w.rng) (G : GoodSolvers w.sim (easySim : Sim ℝ)) (hpf : w.sim.pf = realPF o) {γ : ℝ} (h0 : 0 ≤ γ) (h1 : γ ≤ 1)
    {us : List (List (X ℝ))} {os : List (Env.StepOut ℝ)} (h : Anm6Episode (easyCtx w s0) a us os a') :
    ∀ {t : ℕ} {e : ℝ} {y : EnvDyn ℝ}, EasyOf w s0 a → Clock a.env t → Energy a e → a.env.dyn = some y → y.terminated = false →
      (us.length ≤ 100000 ∨ γ ≤ 995/1000) →
      ∃ rs : List ℝ, os.map (·.reward) = rs.map X.fin ∧
        discounted γ rs ≤ e / 90 - forcedSum γ t us.length + 2e-5 * ∑ k ∈ Finset.range us.length, γ ^ k := by
  have hw : w.sim = ⟨w.sim.qp, realPF o, w.sim.pi⟩ := by rw [← hpf]
  have hnum : NumericPF w.sim := by rw [hw]; exact C85_solver _ _ _
  induction h with
  | nil a =>
    intro t e y ha hc he hy hf _
    refine ⟨[], rfl, ?_⟩
    have := energy_nonneg ha hg G hnum hy hf he
    simp only [discounted, forcedSum, List.length_nil, Finset.range_zero, Finset.sum_empty]
    linarith
  | @cons a a1 a' u us out os hs hrest ih =>
    intro t e y ha hc he hy hf hn
    have he0 := energy_nonneg ha hg G hnum hy hf he
    have ha1 := ha.step hs
    obtain ⟨env, d, d0, h3, -, -, e1⟩ := anm6_step_ok hs
    obtain ⟨y1, hy1, hf1⟩ := C46_flag h3
    have hy1 : a1.env.dyn = some y1 := by rw [e1]; exact hy1
    have hgeo : ∑ k ∈ Finset.range (us.length + 1), γ ^ k = 1 + γ * ∑ k ∈ Finset.range us.length, γ ^ k := by
      rw [Finset.sum_range_succ', Finset.mul_sum, add_comm]
      simp [pow_succ, mul_comm]
    have hgeo0 : 0 ≤ ∑ k ∈ Finset.range us.length, γ ^ k := Finset.sum_nonneg fun k _ => pow_nonneg h0 k
    cases ho : out.terminated with
    | true =>
      obtain ⟨r, hr, -, k2, -⟩ := C98_step ha hg G hnum hy hs
      obtain ⟨rs, i1, i2⟩ := rewards_after hg G hnum hrest γ ha1 hy1 (hf1.trans ho)
      refine ⟨r :: rs, by simp [hr, i1], ?_⟩
      rw [discounted, i2, k2 hf ho, List.length_cons, hgeo]
      have hF : forcedSum γ t (us.length + 1) ≤ 20000 := by
        obtain ⟨j1, j2⟩ := forcedSum_le h0 h1 (us.length + 1) t
        rcases hn with hn | hn
        · have : ((us.length + 1 : ℕ) : ℝ) ≤ 100000 := by exact_mod_cast hn
          linarith
        · linarith [j2 hn]
      have : 0 ≤ γ * ∑ k ∈ Finset.range us.length, γ ^ k := by positivity
      norm_num
      linarith
    | false =>
      have hyf1 : y1.terminated = false := hf1.trans ho
      obtain ⟨p, q, g, fl, v, e', loss, pen, t1, -, hv, -⟩ := easy_vector ha1 hg G hnum hy1 hyf1
      obtain ⟨r, hr, hle⟩ := C112_step ha hg G hpf hs ho he hy1 hv
      have hc1 := easy_next_step ha hc hs ho
      have ht1 : t1 = (t + 1) % 96 := by
        obtain ⟨y2, hy2, hl⟩ := hc1
        rw [hy1] at hy2
        cases hy2
        unfold EasyVector at hv
        rw [hv] at hl
        simp only [List.getLast?_cons_cons, List.getLast?_singleton, Option.some.injEq, X.fin.injEq, Nat.cast_inj] at hl
        exact hl
      have hE : Energy a1 e' := by
        refine ⟨y1, hy1, ?_⟩
        unfold EasyVector at hv
        rw [hv]
        rfl
      have he1 := energy_nonneg ha1 hg G hnum hy1 hyf1 hE
      obtain ⟨rs, i1, i2⟩ := ih ha1 hc1 hE hy1 hyf1 (hn.imp (fun h => by rw [List.length_cons] at h; omega) id)
      refine ⟨r :: rs, by simp [hr, i1], ?_⟩
      rw [discounted, List.length_cons, hgeo, forcedSum]
      rw [ht1] at hle
      have := mul_le_mul_of_nonneg_left i2 h0
      have hg1 : γ * e' ≤ e' := by nlinarith
      linarith

/-! ### A day, and ten days or more -/

/-- The function `forcedSum` on rational numbers. -/
def forcedSumQ (γ : ℚ) (t : ℕ) : ℕ → ℚ
  | 0 => 0
  | n + 1 => forced ((t + 1) % 96) + γ * forcedSumQ γ ((t + 1) % 96) n

theorem forcedSum_cast (γ : ℚ) : ∀ (n t : ℕ), forcedSum (γ : ℝ) t n = ((forcedSumQ γ t n : ℚ) : ℝ)
  | 0, _ => by simp [forcedSum, forcedSumQ]
  | n + 1, t => by rw [forcedSum, forcedSumQ, forcedSum_cast γ n]; push_cast; rfl

theorem forcedSum_day : ∀ t < 96, forcedSumQ 1 t 96 = 67381/32400 := by decide +kernel

theorem forcedSum_discounted : ∀ t < 96, 152/100 ≤ forcedSumQ (995/1000) t 96 := by decide +kernel

/-- **C112, day.** Whatever the agent does, the rewards of the 96 steps of a day sum up to at most -2.077, plus what the
energy in the storage unit at the beginning is worth. -/
theorem C112_day (ha : EasyOf w s0 a) (hg : Fair w.rng) (G : GoodSolvers w.sim (easySim : Sim ℝ)) (hpf : w.sim.pf = realPF o)
    {us : List (List (X ℝ))} {os : List (Env.StepOut ℝ)} (h : Anm6Episode (easyCtx w s0) a us os a') (hn : us.length = 96)
    {t : ℕ} (ht : t < 96) (hc : Clock a.env t) {e : ℝ} (he : Energy a e) {y : EnvDyn ℝ} (hy : a.env.dyn = some y) (hf : y.terminated = false) :
    ∃ rs : List ℝ, os.map (·.reward) = rs.map X.fin ∧ rs.sum ≤ -2.077 + e / 90 := by
  obtain ⟨rs, h1, h2⟩ := C112_return hg G hpf (γ := 1) (by norm_num) le_rfl h ha hc he hy hf (.inl (by omega))
  refine ⟨rs, h1, ?_⟩
  have hd : ∀ l : List ℝ, discounted 1 l = l.sum := by
    intro l
    induction l with
    | nil => rfl
    | cons x l ih => simp [discounted, ih]
  have hF : forcedSum 1 t 96 = 67381/32400 := by
    have := forcedSum_cast 1 96 t
    rw [forcedSum_day t ht] at this
    push_cast at this
    exact this
  rw [hn, hF, hd] at h2
  norm_num at h2 ⊢
  linarith

/-- The forced costs of a number of days. -/
theorem forcedSum_days {γ c : ℝ} (h0 : 0 ≤ γ) (hc : ∀ t < 96, c ≤ forcedSum γ t 96) {t : ℕ} (ht : t < 96) :
    ∀ d n, 96 * d ≤ n → c * ∑ k ∈ Finset.range d, (γ ^ 96) ^ k ≤ forcedSum γ t n := by
  have add : ∀ m n t, t < 96 → forcedSum γ t (m + n) = forcedSum γ t m + γ ^ m * forcedSum γ ((t + m) % 96) n := by
    intro m
    induction m with
    | zero => intro n t ht; simp [forcedSum, Nat.mod_eq_of_lt ht]
    | succ m ih =>
      intro n t ht
      rw [show m + 1 + n = (m + n) + 1 by ring, forcedSum, forcedSum, ih n _ (Nat.mod_lt _ (by norm_num)),
        show ((t + 1) % 96 + m) % 96 = (t + (m + 1)) % 96 by omega]
      ring
  intro d
  induction d with
  | zero => intro n _; simpa using forcedSum_nonneg h0 n t
  | succ d ih =>
    intro n hn
    obtain ⟨k, rfl⟩ : ∃ k, n = 96 + k := ⟨n - 96, by omega⟩
    have := ih k (by omega)
    rw [add 96 k t ht, show (t + 96) % 96 = t by omega, Finset.sum_range_succ']
    have h1 := hc t ht
    have h2 := mul_le_mul_of_nonneg_left this (pow_nonneg h0 96)
    have h3 : ∑ k ∈ Finset.range d, (γ ^ 96) ^ (k + 1) = γ ^ 96 * ∑ k ∈ Finset.range d, (γ ^ 96) ^ k := by
      rw [Finset.mul_sum]
      exact Finset.sum_congr rfl fun k _ => by ring
    rw [h3]
    linarith

/-- **C112, agents.** After a reset of ANM6Easy, whatever an agent does in ten days or more, the sum of its rewards, discounted
with the factor 0.995 of ANM6Easy, is at most -3.9. -/
theorem C112_agents (ha : EasyOf w s0 a) (hg : Fair w.rng) (G : GoodSolvers w.sim (easySim : Sim ℝ)) (hpf : w.sim.pf = realPF o)
    {seed date : Option ℤ} {obs : List (X ℝ)} {a1 : Anm6 ℝ ρ} (hr : a.easyReset (easyCtx w s0) w.rng seed date = .ok (a1, obs))
    {us : List (List (X ℝ))} {os : List (Env.StepOut ℝ)} (h : Anm6Episode (easyCtx w s0) a1 us os a') (hn : 960 ≤ us.length) :
    ∃ rs : List ℝ, os.map (·.reward) = rs.map X.fin ∧ discounted (995/1000) rs ≤ -3.9 := by
  have hw : w.sim = ⟨w.sim.qp, realPF o, w.sim.pi⟩ := by rw [← hpf]
  have hnum : NumericPF w.sim := by rw [hw]; exact C85_solver _ _ _
  obtain ⟨t, q2, q4, soc, l1, l3, l5, m2, m4, v, r, r', y, p, q, g, ht, hi, hI, -, -, -, -, hsoc, hy, hf, hv, -⟩ := C108_vector ha hg G hnum hr
  have he : Energy a1 soc := ⟨y, hy, by rw [hv]; rfl⟩
  have hc : Clock a1.env t := ⟨y, hy, by rw [hv]; rfl⟩
  obtain ⟨rs, h1, h2⟩ := C112_return hg G hpf (γ := 995/1000) (by norm_num) (by norm_num) h (ha.reset hr) hc he hy hf (.inr le_rfl)
  refine ⟨rs, h1, ?_⟩
  have hday : ∀ t < 96, (152/100 : ℝ) ≤ forcedSum (995/1000) t 96 := by
    intro t ht
    have := forcedSum_cast (995/1000) 96 t
    push_cast at this
    rw [this]
    have := forcedSum_discounted t ht
    have : ((152/100 : ℚ) : ℝ) ≤ ((forcedSumQ (995/1000) t 96 : ℚ) : ℝ) := by exact_mod_cast this
    push_cast at this
    exact this
  have hF := forcedSum_days (γ := 995/1000) (by norm_num) hday ht 10 us.length (by omega)
  have hten : (2595/1000 : ℝ) ≤ ∑ k ∈ Finset.range 10, ((995/1000 : ℝ) ^ 96) ^ k := by
    have : (618/1000 : ℝ) ≤ (995/1000) ^ 96 := by norm_num
    calc (2595/1000 : ℝ) ≤ ∑ k ∈ Finset.range 10, (618/1000 : ℝ) ^ k := by norm_num [Finset.sum_range_succ]
      _ ≤ _ := Finset.sum_le_sum fun k _ => pow_le_pow_left₀ (by norm_num) this k
  have hgeo : ∑ k ∈ Finset.range us.length, (995/1000 : ℝ) ^ k ≤ 200 := by
    rw [geom_sum_eq (by norm_num)]
    have : 0 ≤ (995/1000 : ℝ) ^ us.length := by positivity
    rw [div_le_iff_of_neg (by norm_num)]
    linarith
  norm_num at h2 ⊢
  linarith

end

/-! ### Cases that meet the hypotheses -/

/-- Steps without penalty are steps. -/
theorem safe_episode {ρ : Type} {c : EnvCtx ℝ ρ} {a a' : Anm6 ℝ ρ} {n : ℕ} (h : SafeRun c a n a') :
    ∃ us os, us.length = n ∧ Anm6Episode c a us os a' := by
  induction h with
  | nil a => exact ⟨[], [], rfl, .nil a⟩
  | cons h _ _ _ _ ih =>
    obtain ⟨us, os, h1, h2⟩ := ih
    exact ⟨_ :: us, _ :: os, by simp [h1], .cons h h2⟩

/-- `C112_agents`, `C112_return` and `C112_day`: environments that are reset and played for a year without penalty. -/
example : ∃ (a a1 : Anm6 ℝ Unit) (obs : List (X ℝ)) (y : EnvDyn ℝ) (e : ℝ), EasyOf (playWorld 52) easySim a ∧ Fair (playWorld 52).rng ∧
    GoodSolvers (playWorld 52).sim (easySim : Sim ℝ) ∧ (playWorld 52).sim.pf = realPF playOracle ∧
    (a.easyReset (easyCtx (playWorld 52) easySim) (playWorld 52).rng (some 7) none = .ok (a1, obs)) ∧ Clock a1.env 52 ∧ Energy a1 e ∧
    a1.env.dyn = some y ∧ y.terminated = false ∧
    ∀ n ≤ 35040, ∃ us os a', us.length = n ∧ Anm6Episode (easyCtx (playWorld 52) easySim) a1 us os a' := by
  obtain ⟨a, a1, obs, y, d, ha, h, hy, hf, hd, hlt, p, q, g, hv⟩ := play_start start_noon
  refine ⟨a, a1, obs, y, _, ha, fair_play 52, play_good 52, rfl, h, ⟨y, hy, by rw [hv]; rfl⟩, ⟨y, hy, by rw [hv]; rfl⟩, hy, hf, fun n hn => ?_⟩
  have hv : EasyVector y.state p q g (planEnergy 52 + 1/2) 52 := by rw [plan_empty 52 (by norm_num) (by norm_num)]; simpa using hv
  obtain ⟨a', -, -, -, -, R, -⟩ := plan_run plan_ok (by norm_num) (by norm_num) steers_play (fair_play 52) (play_good 52) rfl
    n 52 a1 y d p q g (ha.reset h) hy hf (by norm_num) hd (by omega) hv
  obtain ⟨us, os, h1, h2⟩ := safe_episode R
  exact ⟨us, os, a', h1, h2⟩

end Anm
