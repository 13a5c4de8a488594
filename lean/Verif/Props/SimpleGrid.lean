import Verif.Props.NewtonReset
import Verif.Props.Leaf
import Verif.Props.ExampleReal

/-!
# C156: the two-bus example never collapses

With exactly solved linear systems the load flow of `examples/simple_env.py` converges whatever the load, so that every reset succeeds at
the first draw and no step ends the episode.
-/

namespace Anm

open Spec Complex ComplexConjugate Radial

noncomputable section

/-- The line of the two-bus network. -/
def twoLines : List LineC := [⟨0, 1, 1/100, 1/10, 0, 1, 0⟩]

/-- Its impedance. -/
def twoZ : ℂ := ⟨1/100, 1/10⟩

theorem twoZ_ne : twoZ ≠ 0 := by
  intro h
  have := congrArg Complex.re h
  norm_num [twoZ] at this

theorem twoLines_good : SimpleLines twoLines ∧ EndsIn 1 twoLines := by
  obtain ⟨h1, h2, -⟩ := simOf_lines simple_clean (show SimOf simpleNet (.fin (1/4)) (.fin 100) (simpleSim : Sim ℝ) from ⟨_, simple_mk, sameConfig_refl _⟩)
    simple_numbered simple_finiteLines
  exact ⟨h1, h2⟩

/-- The currents from the two buses into the line. -/
theorem two_currents (x : Fin 2 → ℂ) : ∀ k : Fin 2, NR.curr (ymat 1 twoLines) x k = ![-((x 1 - x 0) / twoZ), (x 1 - x 0) / twoZ] k := by
  have a0 : atId x 0 = x 0 := rfl
  have a1 : atId x 1 = x 1 := rfl
  have h : LineC.iFrom ⟨0, 1, 1/100, 1/10, 0, 1, 0⟩ (x 0) (x 1) = -((x 1 - x 0) / twoZ) ∧ LineC.iTo ⟨0, 1, 1/100, 1/10, 0, 1, 0⟩ (x 0) (x 1) = (x 1 - x 0) / twoZ :=
    plain_currents rfl rfl rfl twoZ_ne (by have := twoZ_ne; show x 1 = x 0 + twoZ * _; field_simp; ring)
  intro k
  rw [curr_eq_leaving (m := 1) twoLines_good.1 twoLines_good.2]
  unfold twoLines
  simp only [leaving, List.map_cons, List.map_nil, List.sum_cons, List.sum_nil, a0, a1, h.1, h.2]
  fin_cases k <;> simp

/-- The two-bus network is radial. -/
def twoRadial : Radial (ymat 1 twoLines) where
  z := ![twoZ]
  par := ![0]
  path := ![{0}]
  sub := ![{0}]
  kids := ![∅]
  z_ne l := by
    fin_cases l
    exact twoZ_ne
  along x k := by
    fin_cases k
    simp
  subtree x l := by
    fin_cases l
    simp [two_currents]
  own c k := by
    fin_cases k
    simp

/-- The bound on the impedance. -/
def twoZn : Fin 1 → ℚ := ![101/1000]

/-- The bound on the power. -/
def twoPow : Fin 1 → ℚ := ![51/500]

/-- Bounds at the flat start. -/
def twoTab0 : BRow 1 := ⟨![51/500], ![1], ![51/500], ![0], ![0], ![1], ![25781/2500000]⟩

/-- Bounds at the iterations. -/
def twoTab : List (List (Fin 1 → ℚ) × BRow 1) :=
  [([], ⟨![25687/10000000], ![9895/10000], ![25687/10000000], ![10566/100000], ![10566/100000], ![10107/10000], ![266/1000000]⟩),
   ([], ⟨![2/1000000], ![989/1000], ![2/1000000], ![104/1000], ![104/1000], ![1011/1000], ![1/1000000]⟩)]

theorem twoZ_le (l : Fin 1) : ‖twoRadial.z l‖ ≤ twoZn l := by
  fin_cases l
  show ‖(⟨1/100, 1/10⟩ : ℂ)‖ ≤ ((101/1000 : ℚ) : ℝ)
  refine norm_le_sq (c := 1/10) ?_ ?_ ?_ <;> norm_num

theorem twoTab_ok : twoRadial.chainOk twoZn twoPow (fun _ => 98/100) twoTab0 twoTab := by decide +kernel

theorem two_flat (i : Fin 2) : NR.volt (NR.flat : Guess 1) i = 1 := by
  refine Fin.cases rfl (fun k => ?_) i
  simp [volt_succ, NR.flat]

/-- The bounds of the flat start. -/
theorem two_at {S : Fin 1 → ℂ} (hs : ∀ k, ‖S k‖ ≤ twoPow k) :
    twoRadial.At S (NR.volt NR.flat) (fun k => twoTab0.r k) (fun k => twoTab0.lo k) (fun k => twoTab0.c k) (fun k => twoTab0.J k) (fun k => twoTab0.A k)
      (Fin.cons 1 fun k => (twoTab0.hi k : ℝ)) := by
  have hc : ∀ k, NR.curr (ymat 1 twoLines) (NR.volt NR.flat) k = 0 := by
    intro k
    rw [two_currents]
    fin_cases k <;> simp [two_flat]
  have hm : ∀ k, missing (ymat 1 twoLines) S (NR.volt NR.flat) k = -conj (S k) := by
    intro k
    rw [missing, hc, two_flat, div_one, zero_sub]
  have h0 := hs 0
  refine ⟨fun l => ?_, fun k => ?_, fun k => ?_, fun k => ?_, fun l => ?_, fun k => ?_, fun i => ?_⟩
  · fin_cases l
    simpa [twoRadial, hm, twoTab0, twoPow] using h0
  · fin_cases k
    simp [two_flat, twoTab0]
  · fin_cases k
    simp [twoTab0]
  · fin_cases k
    simpa [hm, twoTab0, twoPow] using h0
  · fin_cases l
    rw [line, two_flat, two_flat, sub_self, zero_div, norm_zero]
    simp [twoTab0]
  · fin_cases k
    rw [hc, norm_zero]
    simp [twoTab0]
  · rw [two_flat, norm_one]
    fin_cases i <;> simp [twoTab0]

/-- The loop of the load flow of the two-bus network ends well. -/
theorem two_settled {o : LFOracle} (ho : ExactLF o) {p q : Fin 1 → ℝ} (hs : ‖powersOf p q 0‖ ≤ 51/500) :
    ∃ g, (NR.run o (ymat 1 twoLines) (fun k => .fin (p k)) (fun k => .fin (q k)) xtol).guess = some g ∧
      NR.stable xtol (NR.run o (ymat 1 twoLines) (fun k => .fin (p k)) (fun k => .fin (q k)) xtol) = true ∧
      98/100 ≤ ‖NR.volt g 1‖ ∧ ‖NR.volt g 1‖ ≤ 102/100 ∧ ‖missing (ymat 1 twoLines) (powersOf p q) (NR.volt g) 0‖ ≤ 15/1000000 := by
  have hs' : ∀ k, ‖powersOf p q k‖ ≤ twoPow k := by
    intro k
    fin_cases k
    refine hs.trans ?_
    norm_num [twoPow]
  have H : Settled (ymat 1 twoLines) p q (fun _ => ((98/100 : ℚ) : ℝ)) (NR.run o (ymat 1 twoLines) (fun k => .fin (p k)) (fun k => .fin (q k)) xtol) :=
    chain_settled ho twoZ_le hs' twoTab0 twoTab twoTab_ok (by decide +kernel) (fun _ => one_pos) (two_at hs') (i := 0) (fuel := 100) (by decide) (by decide)
  obtain ⟨g, h1, hg, h2, h3, h4⟩ := H
  rw [h2] at h3
  have hl : ∀ k : Fin 1, (98/100 : ℝ) ≤ ‖NR.volt g k.succ‖ := fun k => by
    have := h4 k
    push_cast at this
    exact this
  have hm : ‖missing (ymat 1 twoLines) (powersOf p q) (NR.volt g) 0‖ ≤ 15/1000000 := by
    have h5 := missing_of_norm hg (by unfold xtol; norm_num) h3 0
    have h6 := hl 0
    unfold xtol at h5
    have h7 := norm_nonneg (missing (ymat 1 twoLines) (powersOf p q) (NR.volt g) 0)
    nlinarith
  obtain ⟨-, -, hh⟩ := low_of_low (R := twoRadial) (S := powersOf p q) (V := NR.volt g) (s := fun _ => 51/500) (zn := fun _ => 101/1000) (lo := fun _ => 98/100) (r := fun _ => 15/1000000)
    (lo' := fun k => 1 - ∑ l ∈ twoRadial.path k, (101/1000 : ℝ) * (15/1000000 + ∑ i ∈ twoRadial.sub l, (51/500 : ℝ) / (98/100))) rfl
      (fun k => by fin_cases k; exact hs) (fun l => by have := twoZ_le l; fin_cases l; norm_num [twoZn] at this ⊢; exact this)
      (fun l => by fin_cases l; simpa [twoRadial] using hm) (fun _ => by norm_num) hl (fun k => by linarith)
  refine ⟨g, h1, stable_of_norm (h2 ▸ h3), hl 0, (hh 0).trans ?_, hm⟩
  simp [twoRadial]
  norm_num

/-- The currents of the line. -/
theorem two_flow (V : Fin 2 → ℂ) : LineC.iFrom ⟨0, 1, 1/100, 1/10, 0, 1, 0⟩ (V 0) (V 1) = -((V 1 - V 0) / twoZ) ∧
    LineC.iTo ⟨0, 1, 1/100, 1/10, 0, 1, 0⟩ (V 0) (V 1) = (V 1 - V 0) / twoZ :=
  plain_currents rfl rfl rfl twoZ_ne (by have := twoZ_ne; show V 1 = V 0 + twoZ * _; field_simp; ring)

theorem ends_apparent {l : LineC} {vf vt j : ℂ} {r : ℝ} (h1 : l.iFrom vf vt = -j) (h2 : l.iTo vf vt = j) (h3 : ‖vf‖ * ‖j‖ ≤ r)
    (h4 : ‖vt‖ * ‖j‖ ≤ r) (h0 : 0 ≤ r) : X.abs (l.sApparentMax vf vt) ≤ .fin r := by
  have e1 : ‖l.sFrom vf vt‖ = ‖vf‖ * ‖j‖ := by
    rw [LineC.sFrom, h1, map_neg, mul_neg, norm_neg, norm_mul, RCLike.norm_conj]
  have e2 : ‖l.sTo vf vt‖ = ‖vt‖ * ‖j‖ := by
    rw [LineC.sTo, h2, norm_mul, RCLike.norm_conj]
  rw [LineC.sApparentMax, X.maximum_fin, e1, e2]
  set m := max (‖vf‖ * ‖j‖) (‖vt‖ * ‖j‖)
  have hm : m ≤ r := max_le h3 h4
  have hm0 : 0 ≤ m := le_max_of_le_left (by positivity)
  rcases lt_trichotomy (l.sFrom vf vt).re 0 with h | h | h <;>
    simp [X.sign, X.abs, h, h.le, abs_of_nonneg hm0, hm, h0, not_lt.2 h.le]

/-- The buses and the branch of the two-bus network. -/
theorem two_parts {s' : Sim ℝ} (hc : SameConfig simpleSim s') : ∃ b0 b1 br, s'.buses = [b0, b1] ∧ s'.branches = [br] ∧
    (b0.id = 0 ∧ b0.vMin = some (.fin 1) ∧ b0.vMax = .fin 1) ∧
    (b1.id = 1 ∧ b1.isSlack = false ∧ b1.vMin = some (.fin (9/10)) ∧ b1.vMax = .fin (11/10)) ∧
    br.line = ⟨0, 1, .fin (1/100), .fin (1/10), .fin 0, .fin (3/100), .fin 1, .fin 0⟩ := by
  have hb := hc.buses
  have hr := hc.branches
  simp only [simpleSim, simpleLines, List.map_cons, List.map_nil] at hb hr
  rcases hl : s'.buses with _ | ⟨e0, _ | ⟨e1, _ | ⟨e2, l⟩⟩⟩ <;> rw [hl] at hb <;>
    simp only [List.forall₂_cons, List.forall₂_nil_left_iff, List.forall₂_nil_right_iff, reduceCtorEq, and_false, and_true] at hb
  rcases hl' : s'.branches with _ | ⟨f0, _ | ⟨f1, l⟩⟩ <;> rw [hl'] at hr <;>
    simp only [List.forall₂_cons, List.forall₂_nil_left_iff, List.forall₂_nil_right_iff, reduceCtorEq, and_false, and_true] at hr
  obtain ⟨m0, m1⟩ := hb
  refine ⟨e0, e1, f0, rfl, rfl, ?_, ?_, hr⟩
  · rw [m0]
    exact ⟨rfl, rfl, rfl⟩
  · rw [m1]
    exact ⟨rfl, rfl, rfl, rfl⟩

/-- A solution of the load flow of the two-bus network is within the limits if its voltage and its current are. -/
theorem two_limits {s' : Sim ℝ} (hc : SameConfig simpleSim s') {V : Fin 2 → ℂ} (S : Solved s' twoLines (atId V)) (hV : V 0 = 1)
    (hv : 9/10 ≤ ‖V 1‖ ∧ ‖V 1‖ ≤ 11/10) (h1 : ‖(V 1 - V 0) / twoZ‖ ≤ 3/100) (h2 : ‖V 1‖ * ‖(V 1 - V 0) / twoZ‖ ≤ 3/100) : WithinLimits s' := by
  obtain ⟨b0, b1, br, hb, hr, ⟨i0, l0, u0⟩, ⟨i1, -, l1, u1⟩, k⟩ := two_parts hc
  have a0 : atId V 0 = V 0 := rfl
  have a1 : atId V 1 = V 1 := rfl
  constructor
  · intro b hb'
    have hw := S.v
    rw [hb] at hw hb'
    simp only [List.forall_mem_cons] at hw
    simp only [List.mem_cons, List.not_mem_nil, or_false] at hb'
    rcases hb' with rfl | rfl
    · refine ⟨_, l0, ?_⟩
      rw [hw.1, u0, i0, a0, hV]
      simp [Phasor.ofC]
    · refine ⟨_, l1, ?_⟩
      rw [hw.2.1, u1, i1, a1]
      simpa [Phasor.ofC] using hv
  · intro b hb'
    have hfl := S.flow
    unfold twoLines at hfl
    rw [hr] at hfl hb'
    simp only [List.forall₂_cons, List.forall₂_nil_right_iff, and_true] at hfl
    simp only [List.mem_cons, List.not_mem_nil, or_false] at hb'
    subst hb'
    rw [hfl.2, k]
    exact ends_apparent (two_flow V).1 (two_flow V).2 (by rw [a0, hV, norm_one, one_mul, ← hV]; exact h1) h2 (by norm_num)

/-- The current of the line at a small load. -/
theorem two_small {V : Fin 2 → ℂ} {S : ℂ} (hV : V 0 = 1) (hv : 98/100 ≤ ‖V 1‖) (hS : ‖S‖ ≤ 296/10000)
    (hm : ‖(V 1 - V 0) / twoZ - conj (S / V 1)‖ ≤ 15/1000000) :
    ‖(V 1 - V 0) / twoZ‖ ≤ 3/100 ∧ ‖V 1‖ * ‖(V 1 - V 0) / twoZ‖ ≤ 3/100 := by
  set j := (V 1 - V 0) / twoZ with hj
  have hz : ‖twoZ‖ ≤ 101/1000 := by
    have := twoZ_le 0
    norm_num [twoZn, twoRadial] at this
    exact this
  have e : V 1 = 1 + twoZ * j := by
    rw [hj, hV]
    have := twoZ_ne
    field_simp
    ring
  have h1 : ‖j‖ ≤ 15/1000000 + ‖S‖ / ‖V 1‖ := by
    have := norm_add_le (j - conj (S / V 1)) (conj (S / V 1))
    rw [sub_add_cancel, RCLike.norm_conj, norm_div S] at this
    linarith
  have hpos : 0 < ‖V 1‖ := by linarith
  have h2 : ‖V 1‖ * ‖j‖ ≤ ‖V 1‖ * (15/1000000) + ‖S‖ := by
    have := mul_le_mul_of_nonneg_left h1 hpos.le
    rw [mul_add, mul_div_cancel₀ _ hpos.ne'] at this
    exact this
  have h3 : 1 - 101/1000 * ‖j‖ ≤ ‖V 1‖ ∧ ‖V 1‖ ≤ 1 + 101/1000 * ‖j‖ := by
    have hzj : ‖twoZ * j‖ ≤ 101/1000 * ‖j‖ := by
      rw [norm_mul]
      exact mul_le_mul_of_nonneg_right hz (norm_nonneg _)
    rw [e]
    have k1 := norm_add_le 1 (twoZ * j)
    have k2 := norm_sub_norm_le (1 : ℂ) (-(twoZ * j))
    rw [norm_neg, sub_neg_eq_add] at k2
    rw [norm_one] at k1 k2
    constructor <;> linarith
  have hj0 := norm_nonneg j
  have h4 : ‖j‖ ≤ 31/1000 := by
    by_contra hc
    push Not at hc
    nlinarith
  have h5 : ‖j‖ ≤ 298/10000 := by
    by_contra hc
    push Not at hc
    nlinarith
  constructor
  · linarith
  · nlinarith

/-- A transition of the two-bus network runs the loop of the load flow on the power of the load; it converges whatever finite number is
demanded. -/
theorem two_transition {o : LFOracle} (ho : ExactLF o) {qp : QP ℝ} {pi : ℝ} {s s' : Sim ℝ} {a : Sim.Args ℝ} {out : Sim.TransOut ℝ}
    (hs : SimOf simpleNet (.fin (1/4)) (.fin 100) s) (hc : SameConfig simpleSim s) (ha : FiniteArgs s a)
    (h : s.transition ⟨qp, realPF o, pi⟩ a = .ok (s', out)) :
    out.converged = true ∧ (∃ V : Fin 2 → ℂ, Solved s' twoLines (atId V) ∧ 98/100 ≤ ‖V 1‖ ∧ ‖V 1‖ ≤ 102/100 ∧ ‖(V 1 - V 0) / twoZ‖ ≤ 1042/10000) ∧ ∃ x, a.pLoad.get? 1 = some (.fin x) ∧
      0 ≤ out.penalty ∧ (-29/10 ≤ x → x ≤ 0 → out.penalty = 0) ∧ (-10 ≤ x → x < -3001/1000 → out.penalty ≠ 0) := by
  have hc' := sameConfig_trans hc (sameConfig_transition h)
  have hdev := hc'.devices
  obtain ⟨d0, d1, hl, m0, m1⟩ : ∃ d0 d1, s'.devices = [d0, d1] ∧ SameMachine anm6Slack d0 ∧ SameMachine (anm6Load 1 1 (-1/10)) d1 := by
    simp only [simpleSim, simpleDevices] at hdev
    rcases hl : s'.devices with _ | ⟨e0, _ | ⟨e1, _ | ⟨e2, l⟩⟩⟩ <;> rw [hl] at hdev <;>
      simp only [List.forall₂_cons, List.forall₂_nil_left_iff, List.forall₂_nil_right_iff, reduceCtorEq, and_false, and_true] at hdev
    exact ⟨e0, e1, rfl, hdev.1, hdev.2⟩
  have hd1 : d1 ∈ s'.devices := by rw [hl]; simp
  have l1 : d1.isLoad = true := by rw [m1]; rfl
  have i1 : d1.id = 1 := by rw [m1]; rfl
  have b1 : d1.busId = 1 := by rw [m1]; rfl
  have b0 : d0.busId = 0 := by rw [m0]; rfl
  have n1 : d1.pMin = .fin (-1/10) := by rw [m1]; rfl
  have x1 : d1.pMax = .fin 0 := by rw [m1]; rfl
  obtain ⟨x, ratio, hx, ⟨r, ⟨hr, y, hy, hy'⟩, hr1, hr2, -⟩, hq, hp, hpp⟩ := C18_load_clip simple_clean hs h hd1 l1
  obtain ⟨z, hz⟩ : ∃ z, x = .fin z := by
    obtain ⟨d, hd, hsm⟩ := forall₂_mem_right (sameConfig_transition h).devices hd1
    obtain ⟨z, hz⟩ := ha.load d hd (by rw [hsm] at l1; exact l1)
    have : d.id = d1.id := by rw [hsm]
    rw [this, hx] at hz
    exact ⟨z, Option.some.inj hz⟩
  have hrat : ratio = .fin (1/5) := by
    simp only [simpleNet, Network.ofLists, List.map_cons, List.map_nil, List.mem_cons, List.not_mem_nil, or_false] at hr
    rcases hr with rfl | rfl
    · exfalso
      revert hr1
      simp [rowOf, headersDev, cel]
    · have : (cel (2/10) : Cell ℝ) = some ratio := hr2
      rw [cel, Option.some.injEq] at this
      rw [← this]
      norm_num
  obtain ⟨hp1, hp2⟩ := hp (by rw [hz]; exact X.notNan_fin _)
  obtain ⟨u, hu, u1, u2⟩ : ∃ u, d1.p = .fin u ∧ -1/10 ≤ u ∧ u ≤ 0 := by
    rw [n1] at hp1
    rw [x1] at hp2
    cases hdp : d1.p with
    | fin u => 
      rw [hdp] at hp1 hp2
      exact ⟨u, rfl, by simpa using hp1, by simpa using hp2⟩
    | nan => rw [hdp] at hp1; exact absurd (X.le_notNan hp1).2 (by simp [X.NotNan])
    | ninf => rw [hdp] at hp1; exact absurd hp1 (by simp)
    | pinf => rw [hdp] at hp2; exact absurd hp2 (by simp)
  have hq' : d1.q = .fin (u / 5) := by
    rw [hq, hu, hrat, X.fin_mul_fin]
    congr 1
    ring
  obtain ⟨P, Q, hPQ, hconv, hsol⟩ := transition_guess (numbered_same hc simple_numbered) (finiteLines_same hc simple_finiteLines) twoLines_good.1
    twoLines_good.2 h
  obtain ⟨i, j, hone⟩ := oneSlack_of_file simple_clean simple_documented hs
  have key : ∀ k, P k = .fin u ∧ Q k = .fin (u / 5) := by
    intro k
    obtain ⟨b, hb, hid, hsl, e1, e2⟩ := hPQ k
    obtain ⟨S1, S2⟩ := C33_bus_sum_partial hone h hb (by rw [hsl]; simp)
    rw [e1, e2, S1, S2, hid]
    fin_cases k
    simp [devicesAt, hl, b0, b1, sumX, X.zero_def, hu, hq']
  obtain rfl : P = fun k => .fin ((fun _ => u) k) := funext fun k => (key k).1
  obtain rfl : Q = fun k => .fin ((fun _ => u / 5) k) := funext fun k => (key k).2
  have hS : ‖powersOf (fun _ : Fin 1 => u) (fun _ => u / 5) 0‖ ≤ 51/500 := by
    refine norm_le_sq (c := 1/50) (by norm_num) ?_ ?_
    · rw [abs_le]
      constructor <;> linarith
    · nlinarith
  obtain ⟨g, g1, g2, g3, g4, g5⟩ := two_settled ho hS
  have g6 : ‖(NR.volt g 1 - NR.volt g 0) / twoZ‖ ≤ 1042/10000 := by
    have hm := g5
    rw [missing, two_currents] at hm
    replace hm : ‖(NR.volt g 1 - NR.volt g 0) / twoZ - conj (powersOf (fun _ : Fin 1 => u) (fun _ => u / 5) 0 / NR.volt g 1)‖ ≤ 15/1000000 := hm
    have k1 := norm_add_le ((NR.volt g 1 - NR.volt g 0) / twoZ - conj (powersOf (fun _ : Fin 1 => u) (fun _ => u / 5) 0 / NR.volt g 1))
      (conj (powersOf (fun _ : Fin 1 => u) (fun _ => u / 5) 0 / NR.volt g 1))
    rw [sub_add_cancel, RCLike.norm_conj, norm_div (powersOf _ _ _)] at k1
    have k2 : ‖powersOf (fun _ : Fin 1 => u) (fun _ => u / 5) 0‖ / ‖NR.volt g 1‖ ≤ (51/500) / (98/100) :=
      div_le_div₀ (by norm_num) hS (by norm_num) g3
    linarith
  have hcv := hconv.trans g2
  have hval : -10 ≤ z → z ≤ 0 → u = z / 100 := by
    intro k1 k2
    have := hpp (by rw [n1, hz, X.fin_div_fin (by norm_num), X.fin_le_fin]; linarith) (by rw [x1, hz, X.fin_div_fin (by norm_num), X.fin_le_fin]; linarith)
    rw [hu, hz, X.fin_div_fin (by norm_num)] at this
    exact X.fin.inj this
  obtain ⟨-, q1, q2⟩ := C37_converged simple_clean hs (by norm_num) (by norm_num) (numbered_same hc simple_numbered) (finiteLines_same hc simple_finiteLines) h hcv
  refine ⟨hcv, ⟨NR.volt g, hsol g g1, g3, g4, g6⟩, z, by rw [← i1, hx, hz], q1, fun hz1 hz0 => q2.2 ?_, fun hz1 hz0 h0 => ?_⟩
  · have hu1 : -29/1000 ≤ u := by
      have := hval (by linarith) hz0
      linarith
    have hs0 : ‖powersOf (fun _ : Fin 1 => u) (fun _ => u / 5) 0‖ ≤ 296/10000 := by
      refine norm_le_sq (c := 29/5000) (by norm_num) ?_ ?_
      · rw [abs_le]
        constructor <;> linarith
      · nlinarith
    obtain ⟨k1, k2⟩ := two_small (V := NR.volt g) rfl g3 hs0 (by
      have := g5
      rw [missing, two_currents] at this
      exact this)
    exact two_limits hc' (hsol g g1) rfl ⟨by linarith, by linarith⟩ k1 k2
  · obtain ⟨c0, c1, br, hb, hr, -, ⟨f1, f2, -⟩, kl⟩ := two_parts hc'
    have hcb : c1 ∈ s'.buses := by rw [hb]; simp
    have hP : c1.p = .fin u := by
      obtain ⟨S1, -⟩ := C33_bus_sum_partial hone h hcb (by rw [f2]; simp)
      rw [S1, f1]
      simp [devicesAt, hl, b0, b1, sumX, X.zero_def, hu]
    have := C106_draw simple_clean hs (numbered_same hc simple_numbered) (finiteLines_same hc simple_finiteLines) h hcv hcb f2
      (br := br) ⟨.inr (by rw [kl, f1]), [], [], by rw [hr]; rfl, by simp⟩ (q2.1 h0) (R := 3/100) (by rw [kl]) hP
    have := hval hz1 (by linarith)
    norm_num at *
    linarith

variable {ρ : Type} {w : ExampleWorld ℝ ρ} {e : Env ℝ ρ}

theorem simple_clipping (he : EnvOf (simpleCtx w simpleSim) simpleArgs e) : e.c1 = .fin 1 ∧ e.c2 = .fin 100 := by
  obtain ⟨e0, I, hs, -, -⟩ := envOf_inv he
  exact ⟨by rw [hs.c1, I.c1]; rfl, by rw [hs.c2, I.c2]; rfl⟩

/-- **C156, draws.** With exactly solved linear systems, the load flow converges at every initial state of finite numbers. -/
theorem C156_draw {o : LFOracle} (ho : ExactLF o) {qp : QP ℝ} {pi : ℝ} {s s' : Sim ℝ} {v : List (X ℝ)} {conv : Bool}
    (hs : SimOf simpleNet (.fin (1/4)) (.fin 100) s) (hc : SameConfig simpleSim s) (hv : ∀ x ∈ v, ∃ y, x = .fin y)
    (h : s.reset ⟨qp, realPF o, pi⟩ v = .ok (s', conv)) :
    conv = true ∧ ∃ V : Fin 2 → ℂ, Solved s' twoLines (atId V) ∧ 98/100 ≤ ‖V 1‖ ∧ ‖V 1‖ ≤ 102/100 := by
  obtain ⟨a, ds, ds', s1, out, I, rfl⟩ := reset_ok h
  obtain ⟨c1, c2, -, -, c3⟩ := resetSoc_fin simple_clean hs (workable_same hc simple_workable) (resetArgs_finite simple_clean hs hv I.args) I.soc
  obtain ⟨r1, ⟨V, r2, r3, r4, -⟩, -⟩ := two_transition ho c2 (sameConfig_trans hc c1) c3 I.trans
  refine ⟨r1, V, ?_, r3, r4⟩
  obtain ⟨st, -, rfl⟩ := I.result
  exact ⟨r2.ref, r2.v, r2.i, r2.slack, r2.flow⟩

/-- **C156, resets.** With exactly solved linear systems, every reset of the two-bus environment succeeds, with the first initial state
drawn. -/
theorem C156_reset {o : LFOracle} (ho : ExactLF o) (hw : w.sim.pf = realPF o) (hn : FairNumpy w.np)
    (he : EnvOf (simpleCtx w simpleSim) simpleArgs e) (G : GoodSolvers w.sim (simpleSim : Sim ℝ)) (seed : Option ℤ) :
    ∃ (e' : Env ℝ ρ) (obs : List (X ℝ)) (y : EnvDyn ℝ) (V : Fin 2 → ℂ), e.reset (simpleCtx w simpleSim) seed = .ok (e', obs) ∧
      e.sim.reset w.sim (simpleInit w.np simpleSim ((seed.map w.seeded).getD e.rng)).1 = .ok (e'.sim, true) ∧
      e'.dyn = some y ∧ y.terminated = false ∧ Solved e'.sim twoLines (atId V) ∧ 98/100 ≤ ‖V 1‖ ∧ ‖V 1‖ ≤ 102/100 := by
  have hw' : w.sim = ⟨w.sim.qp, realPF o, w.sim.pi⟩ := by rw [← hw]
  have first : ∀ {r : ρ} {s' : Sim ℝ} {ok : Bool}, e.sim.reset w.sim (simpleInit w.np simpleSim r).1 = .ok (s', ok) →
      ok = true ∧ ∃ V : Fin 2 → ℂ, Solved s' twoLines (atId V) ∧ 98/100 ≤ ‖V 1‖ ∧ ‖V 1‖ ≤ 102/100 := by
    intro r s' ok h2
    rw [hw'] at h2
    refine C156_draw ho (envOf_simOf he) (simple_sameConfig he) (fun x hx => ?_) h2
    obtain ⟨z, hz, -⟩ := (rands_spec hn _ r).2 x hx
    exact ⟨z, hz⟩
  rcases C100_simple_reset hn he G seed with ⟨e', obs, h⟩ | ⟨-, h⟩
  · obtain ⟨v, st, nw, I⟩ := env_reset_ok h
    obtain ⟨r', hs, -⟩ := I.search
    rw [Env.search] at hs
    simp only [bind_ok, guardE_ok] at hs
    obtain ⟨⟨v1, r1⟩, g1, -, -, ⟨s1, ok⟩, g2, g3⟩ := hs
    have g1' := Except.ok.inj g1
    obtain rfl : (simpleInit w.np simpleSim ((seed.map w.seeded).getD e.rng)).1 = v1 := by
      rw [show simpleInit w.np simpleSim ((seed.map w.seeded).getD e.rng) = (v1, r1) from g1']
    obtain ⟨rfl, V, hV⟩ := first g2
    simp only [OfNat.ofNat_ne_zero, if_false, if_true, pure_ok, Prod.mk.injEq] at g3
    obtain ⟨rfl, rfl, rfl⟩ := g3
    exact ⟨e', obs, _, V, h, g2, by rw [I.result], rfl, hV⟩
  · exfalso
    cases h with
    | succ h1 h2 _ =>
      have h1 := congrArg Prod.fst (Except.ok.inj h1)
      dsimp only at h1
      rw [← show (simpleInit w.np simpleSim ((seed.map w.seeded).getD e.rng)).1 = _ from h1] at h2
      exact absurd (first h2).1 (by simp)

/-- **C156, steps.** With exactly solved linear systems, no step of the two-bus environment ends the episode: the voltage of the load stays
within 2 % of its nominal value. The step is penalised if the demand drawn is more than 3.001 MW, and not if it is 2.9 MW at most. -/
theorem C156_step {o : LFOracle} (ho : ExactLF o) (hw : w.sim.pf = realPF o) (hn : FairNumpy w.np)
    (he : EnvOf (simpleCtx w simpleSim) simpleArgs e) (G : GoodSolvers w.sim (simpleSim : Sim ℝ)) {y : EnvDyn ℝ} (hy : e.dyn = some y)
    (hf : y.terminated = false) :
    ∃ (e' : Env ℝ ρ) (out : Env.StepOut ℝ) (y' : EnvDyn ℝ) (V : Fin 2 → ℂ) (x : ℝ), e.step (simpleCtx w simpleSim) [] = .ok (e', out) ∧ out.terminated = false ∧ e'.dyn = some y' ∧ y'.terminated = false ∧
      Solved e'.sim twoLines (atId V) ∧ 98/100 ≤ ‖V 1‖ ∧ ‖V 1‖ ≤ 102/100 ∧
      (w.np.rand e.rng).1 = .fin x ∧ (10 * x ≤ 29/10 → y'.penalty = 0) ∧ (3001/1000 < 10 * x → 0 < y'.penalty) := by
  have hw' : w.sim = ⟨w.sim.qp, realPF o, w.sim.pi⟩ := by rw [← hw]
  obtain ⟨x, hx, hx0, hx1⟩ := hn.rand e.rng
  obtain ⟨e', out, h⟩ := C100_simple_step hn he G hy
  obtain ⟨hact, y0, hy0, ⟨ht, -⟩ | ⟨-, hadv⟩⟩ := step_ok h
  · rw [hy] at hy0
    obtain rfl := Option.some.inj hy0
    rw [hf] at ht
    cases ht
  obtain ⟨vars, args, tr, y', I⟩ := advance_ok hadv
  have hvars : vars = [.fin (-10) * (w.np.rand e.rng).1, .fin ((w.np.randint (w.np.rand e.rng).2 0 10).1 : ℝ)] :=
    (congrArg Prod.fst (Except.ok.inj I.next)).symm
  rw [hx, X.fin_mul_fin] at hvars
  obtain ⟨args', q1, q2, q3⟩ := step_args (simple_ready he) hact I.size (by
    rw [hvars]
    intro z hz
    simp only [List.mem_cons, List.not_mem_nil, or_false] at hz
    rcases hz with rfl | rfl <;> exact ⟨_, rfl⟩)
  obtain rfl : args' = args := by
    have e1 := Except.ok.inj (q1.symm.trans I.dicts)
    have e2 := q2.symm.trans I.decode
    cases args'
    cases args
    simp only [Prod.mk.injEq] at e1 e2
    simp [e1, e2]
  have htr := I.trans
  rw [show (simpleCtx w simpleSim).sim = ⟨w.sim.qp, realPF o, w.sim.pi⟩ from hw'] at htr
  obtain ⟨r1, ⟨V, r2, r3, r4, -⟩, z, hz, r5, r6, r7⟩ := two_transition ho (envOf_simOf he) (simple_sameConfig he) q3 htr
  have hzx : z = -10 * x := by
    obtain ⟨r, k1, k2, -⟩ := distributed_of (simOf_sorted (envOf_simOf he)) I.size
    have k3 := congrArg Prod.fst (Except.ok.inj (k1.symm.trans q1))
    dsimp only at k3
    obtain ⟨d, hd⟩ : ∃ d, e.sim.devices.filter Device.isLoad = [d] ∧ d.id = 1 := by
      have hdev := (simple_sameConfig he).devices
      simp only [simpleSim, simpleDevices] at hdev
      rcases hl : e.sim.devices with _ | ⟨e0, _ | ⟨e1, _ | ⟨e2, l⟩⟩⟩ <;> rw [hl] at hdev <;>
        simp only [List.forall₂_cons, List.forall₂_nil_left_iff, List.forall₂_nil_right_iff, reduceCtorEq, and_false, and_true] at hdev
      have f0 : e0.isLoad = false := by rw [hdev.1]; rfl
      have f1 : e1.isLoad = true := by rw [hdev.2]; rfl
      exact ⟨e1, by simp [f0, f1], by rw [hdev.2]; rfl⟩
    obtain ⟨t, t1, t2⟩ := k2 0 d (by rw [hd.1]; rfl)
    rw [hvars] at t1
    rw [k3, hd.2, hz] at t2
    have t3 := Option.some.inj (t1.trans t2.symm)
    exact (X.fin.inj t3).symm
  have hrw := I.reward
  rw [Env.rewardOf, if_pos r1, (simple_clipping he).2] at hrw
  have hpen : y'.penalty = X.clip tr.penalty 0 (.fin 100) := by
    simp only [Except.ok.injEq, Prod.mk.injEq] at hrw
    exact hrw.2.2.symm
  refine ⟨e', out, y', V, x, h, by rw [I.flag, r1]; rfl, by rw [I.result], by rw [I.terminated, r1]; rfl, r2, r3, r4, hx, fun k => ?_, fun k => ?_⟩
  · rw [hpen, r6 (by linarith) (by linarith)]
    exact X.clip_self (by rw [X.zero_def, X.fin_le_fin]) (by rw [X.zero_def, X.fin_le_fin]; norm_num)
  · have := r7 (by linarith) (by linarith)
    rw [hpen]
    cases hp : tr.penalty with
    | nan => rw [hp] at r5; exact absurd (X.le_notNan r5).2 (by simp [X.NotNan])
    | ninf => rw [hp, X.zero_def] at r5; exact absurd r5 (by simp)
    | fin a =>
      rw [hp, X.zero_def] at r5 this
      rw [X.clip, X.zero_def, X.maximum_fin, X.minimum_fin, X.fin_lt_fin]
      have h1 : 0 ≤ a := by simpa using r5
      have h2 : a ≠ 0 := fun h => this (by rw [h])
      exact lt_min (lt_max_of_lt_left (lt_of_le_of_ne h1 (Ne.symm h2))) (by norm_num)
    | pinf => simp [X.clip, X.maximum, X.minimum, X.zero_def]

/-- **C156, episodes.** The two-bus environment can be played forever. -/
theorem C156_episode {o : LFOracle} (ho : ExactLF o) (hw : w.sim.pf = realPF o) (hn : FairNumpy w.np)
    (G : GoodSolvers w.sim (simpleSim : Sim ℝ)) (n : ℕ) :
    ∀ {e : Env ℝ ρ} {y : EnvDyn ℝ}, EnvOf (simpleCtx w simpleSim) simpleArgs e → e.dyn = some y → y.terminated = false →
      ∃ os e', Episode (simpleCtx w simpleSim) e (List.replicate n []) os e' ∧ os.length = n ∧ ∀ out ∈ os, out.terminated = false := by
  induction n with
  | zero => exact fun _ _ _ => ⟨[], _, .nil _, rfl, by simp⟩
  | succ n ih =>
    intro e y he hy hf
    obtain ⟨e1, out, y1, -, -, h1, h2, h3, h4, -⟩ := C156_step ho hw hn he G hy hf
    obtain ⟨os, e', k1, k2, k3⟩ := ih (envOf_call he (.inr (.inl ⟨_, _, h1⟩))) h3 h4
    exact ⟨out :: os, e', .cons h1 k1, by simp [k2], List.forall_mem_cons.2 ⟨h2, k3⟩⟩

/-! ### Cases that meet the hypotheses -/

/-- A world with exactly solved linear systems, in which every number drawn is the middle of its range. -/
def exactExamples (o : LFOracle) : ExampleWorld ℝ ℕ := { calmExamples with sim := ⟨exactQP, realPF o, Real.pi⟩ }

/-- C156 applies: the two-bus environment is made, reset and played. -/
theorem C156_case {o : LFOracle} (ho : ExactLF o) (n : ℕ) : ∃ e e1 obs os e', EnvOf (simpleCtx (exactExamples o) simpleSim) simpleArgs e ∧
    e.reset (simpleCtx (exactExamples o) simpleSim) (some 7) = .ok (e1, obs) ∧
    Episode (simpleCtx (exactExamples o) simpleSim) e1 (List.replicate n []) os e' ∧ os.length = n ∧ ∀ out ∈ os, out.terminated = false := by
  obtain ⟨e, h0⟩ := C100_simple_made (w := exactExamples o) fun _ _ => rfl
  have he : EnvOf (simpleCtx (exactExamples o) simpleSim) simpleArgs e := ⟨e, h0, .refl⟩
  obtain ⟨e1, obs, y, -, h1, -, h2, h3, -⟩ := C156_reset ho rfl fair_midReal he (C100_simple_solvers o _) (some 7)
  obtain ⟨os, e', h4⟩ := C156_episode ho rfl fair_midReal (C100_simple_solvers o _) n (envOf_call he (.inl ⟨_, _, h1⟩)) h2 h3
  exact ⟨e, e1, obs, os, e', he, h1, h4⟩

example (n : ℕ) : ∃ e e1 obs os e', EnvOf (simpleCtx (exactExamples exactOracle) simpleSim) simpleArgs e ∧
    e.reset (simpleCtx (exactExamples exactOracle) simpleSim) (some 7) = .ok (e1, obs) ∧
    Episode (simpleCtx (exactExamples exactOracle) simpleSim) e1 (List.replicate n []) os e' ∧ os.length = n ∧ ∀ out ∈ os, out.terminated = false :=
  C156_case exactOracle_exact n

/-- The first step of this environment is penalised, as the demand drawn is 5 MW. -/
example : ∃ (e e' : Env ℝ ℕ) (out : Env.StepOut ℝ) (y' : EnvDyn ℝ), EnvOf (simpleCtx (exactExamples exactOracle) simpleSim) simpleArgs e ∧
    e.step (simpleCtx (exactExamples exactOracle) simpleSim) [] = .ok (e', out) ∧ out.terminated = false ∧ e'.dyn = some y' ∧ 0 < y'.penalty := by
  obtain ⟨e, h0⟩ := C100_simple_made (w := exactExamples exactOracle) fun _ _ => rfl
  have he : EnvOf (simpleCtx (exactExamples exactOracle) simpleSim) simpleArgs e := ⟨e, h0, .refl⟩
  obtain ⟨e1, obs, y, -, h1, -, h2, h3, -⟩ := C156_reset exactOracle_exact rfl fair_midReal he (C100_simple_solvers _ _) (some 7)
  have he1 := envOf_call he (.inl ⟨_, _, h1⟩)
  obtain ⟨e2, out, y', V, x, k1, k2, k3, -, -, -, -, k4, -, k5⟩ :=
    C156_step exactOracle_exact rfl fair_midReal he1 (C100_simple_solvers _ _) h2 h3
  obtain rfl : 1/2 = x := X.fin.inj k4
  exact ⟨e1, e2, out, y', he1, k1, k2, k3, k5 (by norm_num)⟩

end

end Anm
