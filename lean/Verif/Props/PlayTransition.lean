import Verif.Props.Circuit
import Verif.Props.Scenarios

/-! # Transitions of ANM6 with the linear solver of `Circuit.lean` -/

namespace Anm

open Spec Complex ComplexConjugate

noncomputable section

namespace Spec

/-- The devices of ANM6 and their powers (MW, MVAr), apart from those of the slack generator. -/
structure Injects (s : Sim ℝ) (p q : ℕ → ℝ) (d0 d1 d2 d3 d4 d5 d6 : Device ℝ) : Prop where
  list : s.devices = [d0, d1, d2, d3, d4, d5, d6]
  bus : d0.busId = 0 ∧ d1.busId = 3 ∧ d2.busId = 3 ∧ d3.busId = 4 ∧ d4.busId = 4 ∧ d5.busId = 5 ∧ d6.busId = 5
  pq1 : d1.p = .fin (p 1 / 100) ∧ d1.q = .fin (q 1 / 100)
  pq2 : d2.p = .fin (p 2 / 100) ∧ d2.q = .fin (q 2 / 100)
  pq3 : d3.p = .fin (p 3 / 100) ∧ d3.q = .fin (q 3 / 100)
  pq4 : d4.p = .fin (p 4 / 100) ∧ d4.q = .fin (q 4 / 100)
  pq5 : d5.p = .fin (p 5 / 100) ∧ d5.q = .fin (q 5 / 100)
  pq6 : d6.p = .fin (p 6 / 100) ∧ d6.q = .fin (q 6 / 100)

end Spec

/-- The injections at the buses 1 to 5, in p.u. -/
def busInj (p : ℕ → ℝ) : Fin 5 → ℝ := ![0, 0, (p 1 + p 2) / 100, (p 3 + p 4) / 100, (p 5 + p 6) / 100]

theorem safe_apparent {c : Cur} {l : LineC} {j : ℂ} {r : ℝ} (h1 : l.iFrom (atId c.v l.fBus) (atId c.v l.tBus) = -j)
    (h2 : l.iTo (atId c.v l.fBus) (atId c.v l.tBus) = j) (h3 : ‖atId c.v l.fBus‖ * ‖j‖ ≤ r) (h4 : ‖atId c.v l.tBus‖ * ‖j‖ ≤ r) (h0 : 0 ≤ r) :
    X.abs (l.sApparentMax (atId c.v l.fBus) (atId c.v l.tBus)) ≤ .fin r := by
  have e1 : ‖l.sFrom (atId c.v l.fBus) (atId c.v l.tBus)‖ = ‖atId c.v l.fBus‖ * ‖j‖ := by
    rw [LineC.sFrom, h1, map_neg, mul_neg, norm_neg, norm_mul, RCLike.norm_conj]
  have e2 : ‖l.sTo (atId c.v l.fBus) (atId c.v l.tBus)‖ = ‖atId c.v l.tBus‖ * ‖j‖ := by
    rw [LineC.sTo, h2, norm_mul, RCLike.norm_conj]
  rw [LineC.sApparentMax, X.maximum_fin, e1, e2]
  set m := max (‖atId c.v l.fBus‖ * ‖j‖) (‖atId c.v l.tBus‖ * ‖j‖)
  have hm : m ≤ r := max_le h3 h4
  have hm0 : 0 ≤ m := le_max_of_le_left (by positivity)
  rcases lt_trichotomy (l.sFrom (atId c.v l.fBus) (atId c.v l.tBus)).re 0 with h | h | h <;>
    simp [X.sign, X.abs, h, h.le, abs_of_nonneg hm0, hm, h0, not_lt.2 h.le]

/-- A transition of ANM6 runs the loop of the load flow on the powers of the devices. -/
theorem inject_run {o : LFOracle} {qp : QP ℝ} {pi : ℝ} {s s' : Sim ℝ} {a : Sim.Args ℝ} {out : Sim.TransOut ℝ}
    (hs : SimOf anm6Net (.fin (1/4)) (.fin 100) s) (hc : SameConfig easySim s) (h : s.transition ⟨qp, realPF o, pi⟩ a = .ok (s', out))
    {p q : ℕ → ℝ} {d0 d1 d2 d3 d4 d5 d6 : Device ℝ} (D : Injects s' p q d0 d1 d2 d3 d4 d5 d6) :
    out.converged = NR.stable xtol (NR.run o (ymat 5 easyLines) (fun k => .fin (busInj p k)) (fun k => .fin (busInj q k)) xtol) ∧
      ∀ g, (NR.run o (ymat 5 easyLines) (fun k => .fin (busInj p k)) (fun k => .fin (busInj q k)) xtol).guess = some g →
        Solved s' easyLines (atId (NR.volt g)) := by
  obtain ⟨P, Q, hPQ, hconv, hsol⟩ := transition_guess (numbered_same hc easy_numbered) (finiteLines_same hc easy_finiteLines) easyLines_good.1
    easyLines_good.2 h
  obtain ⟨i, j, hone⟩ := oneSlack_of_file anm6_clean anm6_documented hs
  have two : ∀ x y : ℝ, sumX [.fin x, .fin y] = .fin (x + y) := by
    intro x y
    simp [sumX, X.zero_def]
  obtain ⟨f0, f1, f2, f3, f4, f5, f6⟩ := D.bus
  have key : ∀ k, P k = .fin (busInj p k) ∧ Q k = .fin (busInj q k) := by
    intro k
    obtain ⟨b, hb, hid, hsl, e1, e2⟩ := hPQ k
    obtain ⟨S1, S2⟩ := C33_bus_sum_partial hone h hb (by rw [hsl]; simp)
    rw [e1, e2, S1, S2, hid]
    fin_cases k
    · simp [devicesAt, D.list, f0, f1, f2, f3, f4, f5, f6, busInj, sumX, X.zero_def]
    · simp [devicesAt, D.list, f0, f1, f2, f3, f4, f5, f6, busInj, sumX, X.zero_def]
    · simp [devicesAt, D.list, f0, f1, f2, f3, f4, f5, f6, busInj, two, D.pq1, D.pq2, add_div]
    · simp [devicesAt, D.list, f0, f1, f2, f3, f4, f5, f6, busInj, two, D.pq3, D.pq4, add_div]
    · simp [devicesAt, D.list, f0, f1, f2, f3, f4, f5, f6, busInj, two, D.pq5, D.pq6, add_div]
  obtain rfl : P = fun k => .fin (busInj p k) := funext fun k => (key k).1
  obtain rfl : Q = fun k => .fin (busInj q k) := funext fun k => (key k).2
  exact ⟨hconv, hsol⟩

/-- With the linear solver `playOracle`, a transition of ANM6 converges to a solution of the load flow, if there is one, and
to one within the limits, if there is such a solution. -/
theorem play_solution {qp : QP ℝ} {pi : ℝ} {s s' : Sim ℝ} {a : Sim.Args ℝ} {out : Sim.TransOut ℝ}
    (hs : SimOf anm6Net (.fin (1/4)) (.fin 100) s) (hc : SameConfig easySim s) (h : s.transition ⟨qp, realPF playOracle, pi⟩ a = .ok (s', out))
    {p q : ℕ → ℝ} {d0 d1 d2 d3 d4 d5 d6 : Device ℝ} (D : Injects s' p q d0 d1 d2 d3 d4 d5 d6)
    (hm : ∃ c, Spec.Cur.Match c (busInj p) (busInj q)) :
    out.converged = true ∧ ∃ c : Cur, Solved s' easyLines (atId c.v) ∧ Spec.Cur.Match c (busInj p) (busInj q) ∧
      ((∃ c, Spec.Cur.Match c (busInj p) (busInj q) ∧ Spec.Cur.Safe c) → Spec.Cur.Safe c) := by
  obtain ⟨hconv, hsol⟩ := inject_run hs hc h D
  obtain ⟨r1, c, r2, r2', r3⟩ := play_run hm
  have S := hsol _ r2
  rw [Cur.volt_guess] at S
  exact ⟨hconv.trans r1, c, S, r2', r3⟩

/-- With the linear solver `playOracle`, a transition of ANM6 converges if the load flow has a solution, and leads to a
state within the limits if there is a solution within the limits. -/
theorem play_transition {qp : QP ℝ} {pi : ℝ} {s s' : Sim ℝ} {a : Sim.Args ℝ} {out : Sim.TransOut ℝ}
    (hs : SimOf anm6Net (.fin (1/4)) (.fin 100) s) (hc : SameConfig easySim s) (h : s.transition ⟨qp, realPF playOracle, pi⟩ a = .ok (s', out))
    {p q : ℕ → ℝ} {d0 d1 d2 d3 d4 d5 d6 : Device ℝ} (D : Injects s' p q d0 d1 d2 d3 d4 d5 d6)
    (hm : ∃ c, Spec.Cur.Match c (busInj p) (busInj q)) :
    out.converged = true ∧ ((∃ c, Spec.Cur.Match c (busInj p) (busInj q) ∧ Spec.Cur.Safe c) → WithinLimits s') := by
  obtain ⟨r1, c, S, -, r3⟩ := play_solution hs hc h D hm
  refine ⟨r1, fun hsafe => ?_⟩
  have C := r3 hsafe
  obtain ⟨a0, a1, a2, a3, a4, a5⟩ := c.at_v
  have hc' := sameConfig_trans hc (sameConfig_transition h)
  constructor
  · intro b hb
    have hids := (numbered_same hc' easy_numbered).ids
    obtain ⟨b0, b1, b2, b3, b4, b5, hbs, ⟨l1, l2⟩, hlim⟩ := easy_buses hc'
    rw [hbs] at hids hb
    simp only [List.map_cons, List.map_nil, List.range_succ, List.range_zero, List.nil_append, List.cons_append, List.cons.injEq, and_true] at hids
    obtain ⟨j0, j1, j2, j3, j4, j5⟩ := hids
    have hv := S.v
    rw [hbs] at hv
    simp only [List.forall_mem_cons] at hv hlim
    obtain ⟨v0, v1, v2, v3, v4, v5, -⟩ := hv
    obtain ⟨m1, m2, m3, m4, m5, -⟩ := hlim
    have n1 : 9/10 ≤ ‖c.v1‖ ∧ ‖c.v1‖ ≤ 11/10 := C.v 0
    have n2 : 9/10 ≤ ‖c.v2‖ ∧ ‖c.v2‖ ≤ 11/10 := C.v 1
    have n3 : 9/10 ≤ ‖c.v3‖ ∧ ‖c.v3‖ ≤ 11/10 := C.v 2
    have n4 : 9/10 ≤ ‖c.v4‖ ∧ ‖c.v4‖ ≤ 11/10 := C.v 3
    have n5 : 9/10 ≤ ‖c.v5‖ ∧ ‖c.v5‖ ≤ 11/10 := C.v 4
    simp only [List.mem_cons, List.not_mem_nil, or_false] at hb
    rcases hb with rfl | rfl | rfl | rfl | rfl | rfl
    · refine ⟨_, l1, ?_⟩
      rw [v0, l2, show b.id = 0 from j0, a0]
      simp [Phasor.ofC]
    · refine ⟨_, m1.1, ?_⟩
      rw [v1, m1.2, show b.id = 1 from j1, a1]
      simpa [Phasor.ofC] using n1
    · refine ⟨_, m2.1, ?_⟩
      rw [v2, m2.2, show b.id = 2 from j2, a2]
      simpa [Phasor.ofC] using n2
    · refine ⟨_, m3.1, ?_⟩
      rw [v3, m3.2, show b.id = 3 from j3, a3]
      simpa [Phasor.ofC] using n3
    · refine ⟨_, m4.1, ?_⟩
      rw [v4, m4.2, show b.id = 4 from j4, a4]
      simpa [Phasor.ofC] using n4
    · refine ⟨_, m5.1, ?_⟩
      rw [v5, m5.2, show b.id = 5 from j5, a5]
      simpa [Phasor.ofC] using n5
  · intro b hb
    obtain ⟨b1, b2, b3, b4, b5, hbs, k1, k2, k3, k4, k5⟩ := easy_branches hc'
    have hfl := S.flow
    have hcur := (easy_line_currents c).2
    unfold easyLines at hcur hfl
    rw [hbs] at hfl hb
    simp only [List.forall₂_cons, List.forall₂_nil_right_iff, and_true] at hfl hcur
    obtain ⟨⟨-, g1⟩, ⟨-, g2⟩, ⟨-, g3⟩, ⟨-, g4⟩, ⟨-, g5⟩⟩ := hfl
    obtain ⟨c1, c2, c3, c4, c5⟩ := hcur
    simp only [List.mem_cons, List.not_mem_nil, or_false] at hb
    rcases hb with rfl | rfl | rfl | rfl | rfl
    · rw [g1, k1]
      refine safe_apparent c1.1 c1.2 ?_ ?_ (by norm_num)
      · simpa [a0] using C.s01.1
      · simpa [a1] using C.s01.2
    · rw [g2, k2]
      refine safe_apparent c2.1 c2.2 ?_ ?_ (by norm_num)
      · simpa [a1] using C.s12.1
      · simpa [a2] using C.s12.2
    · rw [g3, k3]
      refine safe_apparent c3.1 c3.2 ?_ ?_ (by norm_num)
      · simpa [a1] using C.s13.1
      · simpa [a3] using C.s13.2
    · rw [g4, k4]
      refine safe_apparent c4.1 c4.2 ?_ ?_ (by norm_num)
      · simpa [a2] using C.s24.1
      · simpa [a4] using C.s24.2
    · rw [g5, k5]
      refine safe_apparent c5.1 c5.2 ?_ ?_ (by norm_num)
      · simpa [a2] using C.s25.1
      · simpa [a5] using C.s25.2

/-- A linear solver with which transitions of ANM6 end within the limits, if the load flow has a solution within the limits by a small
margin: the load flow converges to voltages whose losses exceed those of some solution by at most 0.0005 MW. -/
def Spec.Steers (o : LFOracle) : Prop :=
  ∀ {qp : QP ℝ} {pi : ℝ} {s s' : Sim ℝ} {a : Sim.Args ℝ} {out : Sim.TransOut ℝ}, SimOf anm6Net (.fin (1/4)) (.fin 100) s → SameConfig easySim s →
    s.transition ⟨qp, realPF o, pi⟩ a = .ok (s', out) →
    ∀ {p q : ℕ → ℝ} {d0 d1 d2 d3 d4 d5 d6 : Device ℝ}, Injects s' p q d0 d1 d2 d3 d4 d5 d6 →
    (∃ c, Cur.Match c (busInj p) (busInj q) ∧ Cur.Roomy c) →
    out.converged = true ∧ WithinLimits s' ∧ ∃ (V : Fin 6 → ℂ) (c : Cur), Solved s' easyLines (atId V) ∧ Cur.Match c (busInj p) (busInj q) ∧
      Cur.Safe c ∧ (easyLines.map fun l => loss l (atId V)).sum ≤ (easyLines.map fun l => loss l (atId c.v)).sum + 5/1000000

theorem steers_play : Steers playOracle := by
  intro qp pi s s' a out hs hc h p q d0 d1 d2 d3 d4 d5 d6 D hm
  have hm' : ∃ c, Spec.Cur.Match c (busInj p) (busInj q) ∧ Spec.Cur.Safe c := hm.imp fun _ h => ⟨h.1, h.2.safe⟩
  obtain ⟨h1, h2⟩ := play_transition hs hc h D (hm.imp fun _ h => h.1)
  obtain ⟨-, c, S, M, r3⟩ := play_solution hs hc h D (hm.imp fun _ h => h.1)
  exact ⟨h1, h2 hm', c.v, c, S, M, r3 hm', by linarith⟩

end

end Anm
