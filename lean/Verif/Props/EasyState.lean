import Verif.Props.RenderView
import Verif.Props.VarsFlow
import Verif.Props.Leaf
import Verif.Props.Markov

/-! # The state vector of ANM6Easy, entry by entry -/

namespace Anm

open Spec

section
variable {K ρ : Type} [Field K] [LinearOrder K] [IsStrictOrderedRing K] [FloorRing K]
  {w : EasyWorld K ρ} {s0 : Sim K} {a a' : Anm6 K ρ}

namespace Spec

/-- The state vector of ANM6Easy: the active powers (MW) and the reactive powers (MVAr) of the devices 0 to 6, the
energy of the storage unit (MWh), the maximum production of the generators 2 and 4 (MW), the time of day. -/
def EasyVector (st : List (X K)) (p q g : ℕ → K) (e : K) (t : ℕ) : Prop :=
  st = [.fin (p 0), .fin (p 1), .fin (p 2), .fin (p 3), .fin (p 4), .fin (p 5), .fin (p 6),
    .fin (q 0), .fin (q 1), .fin (q 2), .fin (q 3), .fin (q 4), .fin (q 5), .fin (q 6), .fin e, .fin (g 2), .fin (g 4), .fin (t : K)]

/-- The limits of the devices, in MW, MVAr and MWh. -/
structure EasyLimits (p q g : ℕ → K) (e : K) : Prop where
  p1 : -10 ≤ p 1 ∧ p 1 ≤ 0
  p2 : 0 ≤ p 2 ∧ p 2 ≤ g 2 ∧ g 2 ≤ 30
  p3 : -30 ≤ p 3 ∧ p 3 ≤ 0
  p4 : 0 ≤ p 4 ∧ p 4 ≤ g 4 ∧ g 4 ≤ 50
  p5 : -30 ≤ p 5 ∧ p 5 ≤ 0
  p6 : -50 ≤ p 6 ∧ p 6 ≤ 50
  q1 : -2 ≤ q 1 ∧ q 1 ≤ 0
  q2 : -30 ≤ q 2 ∧ q 2 ≤ 30
  q3 : -6 ≤ q 3 ∧ q 3 ≤ 0
  q4 : -50 ≤ q 4 ∧ q 4 ≤ 50
  q5 : -6 ≤ q 5 ∧ q 5 ≤ 0
  q6 : -50 ≤ q 6 ∧ q 6 ≤ 50
  e : 0 ≤ e ∧ e ≤ 100

/-- The devices of a simulator have the powers `p` and `q`, the storage unit the energy `e` and the generators the
maximum productions `g`. -/
structure EasyDevices (s : Sim K) (p q g : ℕ → K) (e : K) (d0 d1 d2 d3 d4 d5 d6 : Device K) : Prop where
  list : s.devices = [d0, d1, d2, d3, d4, d5, d6]
  m0 : SameMachine anm6Slack d0
  m1 : SameMachine (anm6Load 1 3 (-1/10)) d1
  m2 : SameMachine (anm6Gen 2 3 (3/10) (1/5) (3/20) (3/2) (3/5)) d2
  m3 : SameMachine (anm6Load 3 4 (-3/10)) d3
  m4 : SameMachine (anm6Gen 4 4 (1/2) (7/20) (1/5) 2 (6/5)) d4
  m5 : SameMachine (anm6Load 5 5 (-3/10)) d5
  m6 : SameMachine anm6Des d6
  pq0 : d0.p = .fin (p 0 / 100) ∧ d0.q = .fin (q 0 / 100)
  pq1 : d1.p = .fin (p 1 / 100) ∧ d1.q = .fin (q 1 / 100)
  pq2 : d2.p = .fin (p 2 / 100) ∧ d2.q = .fin (q 2 / 100)
  pq3 : d3.p = .fin (p 3 / 100) ∧ d3.q = .fin (q 3 / 100)
  pq4 : d4.p = .fin (p 4 / 100) ∧ d4.q = .fin (q 4 / 100)
  pq5 : d5.p = .fin (p 5 / 100) ∧ d5.q = .fin (q 5 / 100)
  pq6 : d6.p = .fin (p 6 / 100) ∧ d6.q = .fin (q 6 / 100)
  soc : d6.soc.getD .nan = .fin (e / 100)
  pot : d2.pPot = .fin (g 2 / 100) ∧ d4.pPot = .fin (g 4 / 100)

end Spec

/-- The transition made by a step that does not end the episode, and its clipped costs. -/
theorem easy_step_costs (ha : EasyOf w s0 a) (hg : Fair w.rng) (G : GoodSolvers w.sim (easySim : Sim K)) {u : List (X K)}
    {o : Env.StepOut K} (h : a.step (easyCtx w s0) u = .ok (a', o)) (ho : o.terminated = false) :
    ∃ y y' args out, a.env.dyn = some y ∧ y.terminated = false ∧ a'.env.dyn = some y' ∧ y'.terminated = false ∧
      Last w.sim a'.env.sim y' a.env.sim a'.env.sim args out ∧ out.converged = true ∧
      y'.penalty = X.clip out.penalty 0 (.fin 100) ∧ y'.eLoss = X.sign out.eLoss * X.clip (X.abs out.eLoss) 0 (.fin 1) := by
  obtain ⟨e, d, d0, h2, h3, h4, rfl⟩ := anm6_step_ok h
  obtain ⟨y', hy', hf'⟩ := C46_flag h2
  obtain ⟨hu, y, hy, ⟨ht, rfl, rfl⟩ | ⟨hf, h5⟩⟩ := step_ok h2
  · cases ho
  · obtain ⟨vars, args, out, y1, I⟩ := advance_ok h5
    have hd : e.dyn = some y1 := by rw [I.result]
    rw [hy'] at hd
    cases hd
    have hc : out.converged = true := by have := I.flag; rw [ho] at this; simpa using this.symm
    obtain ⟨G', hl⟩ := easy_live ha hg G
    obtain ⟨l1, l2, -⟩ := hl y hy
    obtain ⟨t, _, y2, hy2, hlast⟩ := l2 hf
    rw [hy] at hy2
    cases hy2
    obtain ⟨v, hv, xs, rfl, hx⟩ := easyNext_clock hlast
    have hn := I.next
    simp only [easyCtx, hv, Except.map, Except.ok.injEq, Prod.mk.injEq] at hn
    obtain ⟨rfl, -⟩ := hn
    obtain ⟨args', g1, g2, g3⟩ := step_args (easy_ready ha) hu I.size (by
      intro x hm
      rcases List.mem_append.1 hm with hm | hm
      · obtain ⟨s, _, q, _, rfl⟩ := forall₂_mem_right hx hm
        exact ⟨_, rfl⟩
      · rw [List.mem_singleton.1 hm]
        exact ⟨_, rfl⟩)
    rw [I.dicts] at g1
    rw [I.decode] at g2
    obtain rfl : args = args' := by
      cases args; cases args'
      simp only [Except.ok.injEq, Prod.mk.injEq] at g1 g2
      simp [g1, g2]
    have hr := I.reward
    rw [hc] at hr
    simp only [Env.rewardOf, if_true, Except.ok.injEq, Prod.mk.injEq] at hr
    obtain ⟨-, r2, r3⟩ := hr
    obtain ⟨c1, c2⟩ := easy_clipping ha
    rw [c1] at r2
    rw [c2] at r3
    refine ⟨y, y', args, out, hy, hf, hy', hf'.trans ho, ⟨envOf_simOf (easy_env ha), l1, g3, (easy_ready ha).loads, I.trans, ?_, rfl, rfl,
      List.forall₂_same.2 fun d _ => ⟨d.soc, rfl⟩, fun _ => .inr ⟨rfl, r2.symm, r3.symm⟩⟩, hc, r3.symm, r2.symm⟩
    rw [I.terminated, Bool.not_not]

/-- The transition made by a step that does not end the episode. -/
theorem easy_step_last (ha : EasyOf w s0 a) (hg : Fair w.rng) (G : GoodSolvers w.sim (easySim : Sim K)) {u : List (X K)}
    {o : Env.StepOut K} (h : a.step (easyCtx w s0) u = .ok (a', o)) (ho : o.terminated = false) :
    ∃ y y' args out, a.env.dyn = some y ∧ y.terminated = false ∧ a'.env.dyn = some y' ∧ y'.terminated = false ∧
      Last w.sim a'.env.sim y' a.env.sim a'.env.sim args out ∧ out.converged = true ∧
      y'.penalty = X.clip out.penalty 0 (.fin 100) := by
  obtain ⟨y, y', args, out, h1, h2, h3, h4, h5, h6, h7, -⟩ := easy_step_costs ha hg G h ho
  exact ⟨y, y', args, out, h1, h2, h3, h4, h5, h6, h7⟩

/-- The entries of the state vector of an environment that is not in a terminal state. -/
theorem easy_vector (ha : EasyOf w s0 a) (hg : Fair w.rng) (G : GoodSolvers w.sim (easySim : Sim K)) (hp : NumericPF w.sim)
    {y : EnvDyn K} (hy : a.env.dyn = some y) (ht : y.terminated = false) :
    ∃ p q g fl v e loss pen t, t < 96 ∧ EasyVector y.state p q g e t ∧ EasyValues (frameOf a y 0) p q g fl v e loss pen := by
  obtain ⟨p, q, g, fl, v, e, loss, pen, E⟩ := easy_values ha hg G hp hy ht 0
  obtain ⟨-, hl⟩ := easy_live ha hg G
  obtain ⟨t, ht96, y1, hy1, hlast⟩ := (hl y hy).2.1 ht
  rw [hy] at hy1
  cases hy1
  refine ⟨p, q, g, fl, v, e, loss, pen, t, ht96, ?_, E⟩
  obtain ⟨-, -, hn, hsort, hlay, -⟩ := C49_state_layout (easy_env ha) hy
  obtain ⟨aux, ha1, st, lp, lq, ls, lg, k1, k2, k3, k4, k5, k6⟩ := hlay ht
  rw [easy_nAux ha] at ha1
  obtain ⟨z, rfl⟩ := List.length_eq_one_iff.1 ha1
  have he := easy_env ha
  have hS := (frame_explicit (a := { a with date := some 0 }) (d := 0) he hy rfl).2
  obtain ⟨st', j1, j2, j3, -, j4, j5, -⟩ := hS
  have j1 : a.env.sim.state = some st' := j1
  rw [k1] at j1
  cases j1
  have e1 := lists_unique j2 (List.forall₂_map_left_iff.2 k3)
  have e2 := lists_unique j3 (List.forall₂_map_left_iff.2 k4)
  have e3 := lists_unique j4 (List.forall₂_map_left_iff.2 k5)
  have e4 := lists_unique j5 (List.forall₂_map_left_iff.2 k6)
  rw [k2] at hlast
  simp only [List.getLast?_append, List.getLast?_singleton, Option.some_or, Option.some.injEq] at hlast
  have f1 : lp = _ := e1.symm.trans E.pList
  have f2 : lq = _ := e2.symm.trans E.qList
  have f3 : ls = _ := e3.symm.trans E.socList
  have f4 : lg = _ := e4.symm.trans E.potList
  rw [EasyVector, k2, hlast, f1, f2, f3, f4]
  rfl

theorem X.eq_div_hundred {x : X K} {z : K} (h : x * .fin 100 = .fin z) : x = .fin (z / 100) := by
  have : x * .fin 100 = .fin (z / 100) * .fin 100 := by
    rw [h, X.fin_mul_fin, div_mul_cancel₀ _ (by norm_num)]
  exact X.mul_pos_inj (by norm_num) this

/-- The devices of an environment whose state vector is known. -/
theorem easy_vector_devices (ha : EasyOf w s0 a) (hg : Fair w.rng) (G : GoodSolvers w.sim (easySim : Sim K)) (hp : NumericPF w.sim)
    {y : EnvDyn K} (hy : a.env.dyn = some y) (ht : y.terminated = false) {p q g : ℕ → K} {e : K} {t : ℕ}
    (hv : EasyVector y.state p q g e t) : EasyLimits p q g e ∧ ∃ d0 d1 d2 d3 d4 d5 d6, EasyDevices a.env.sim p q g e d0 d1 d2 d3 d4 d5 d6 := by
  obtain ⟨p', q', g', fl, v, e', loss, pen, t', -, hv', E⟩ := easy_vector ha hg G hp hy ht
  unfold EasyVector at hv hv'
  rw [hv] at hv'
  simp only [List.cons.injEq, X.fin.injEq, and_true] at hv'
  obtain ⟨a0, a1, a2, a3, a4, a5, a6, b0, b1, b2, b3, b4, b5, b6, he, hg2, hg4, -⟩ := hv'
  have hcfg := easy_sameConfig ha
  have hbase : a.env.sim.baseMVA = .fin 100 := hcfg.base
  obtain ⟨d0, d1, d2, d3, d4, d5, d6, hds, k0, k1, k2, k3, k4, k5, k6⟩ := easy_devices hcfg
  have l1 := E.pList
  have l2 := E.qList
  have l3 := E.potList
  have l4 := E.socList
  have f0 : d0.isStorage = false ∧ d0.isNonSlackGen = false := by rw [k0]; exact ⟨rfl, rfl⟩
  have f1 : d1.isStorage = false ∧ d1.isNonSlackGen = false := by rw [k1]; exact ⟨rfl, rfl⟩
  have f2 : d2.isStorage = false ∧ d2.isNonSlackGen = true := by rw [k2]; exact ⟨rfl, rfl⟩
  have f3 : d3.isStorage = false ∧ d3.isNonSlackGen = false := by rw [k3]; exact ⟨rfl, rfl⟩
  have f4 : d4.isStorage = false ∧ d4.isNonSlackGen = true := by rw [k4]; exact ⟨rfl, rfl⟩
  have f5 : d5.isStorage = false ∧ d5.isNonSlackGen = false := by rw [k5]; exact ⟨rfl, rfl⟩
  have f6 : d6.isStorage = true ∧ d6.isNonSlackGen = false := by rw [k6]; exact ⟨rfl, rfl⟩
  simp only [frameOf, hds, hbase, List.map_cons, List.map_nil, List.cons.injEq, and_true, List.filter_cons, List.filter_nil, f0.1, f0.2, f1.1,
    f1.2, f2.1, f2.2, f3.1, f3.2, f4.1, f4.2, f5.1, f5.2, f6.1, f6.2, if_true, Bool.false_eq_true, if_false] at l1 l2 l3 l4
  rw [← a0, ← a1, ← a2, ← a3, ← a4, ← a5, ← a6] at l1
  rw [← b0, ← b1, ← b2, ← b3, ← b4, ← b5, ← b6] at l2
  rw [← hg2, ← hg4] at l3
  rw [← he] at l4
  obtain ⟨p0, p1, p2, p3, p4, p5, p6⟩ := l1
  obtain ⟨q0, q1, q2, q3, q4, q5, q6⟩ := l2
  constructor
  · constructor
    · rw [a1]; exact E.p1
    · rw [a2, hg2]; exact E.p2
    · rw [a3]; exact E.p3
    · rw [a4, hg4]; exact E.p4
    · rw [a5]; exact E.p5
    · rw [a6]; exact E.p6
    · rw [b1]; exact E.q1
    · rw [b2]; exact E.q2
    · rw [b3]; exact E.q3
    · rw [b4]; exact E.q4
    · rw [b5]; exact E.q5
    · rw [b6]; exact E.q6
    · rw [he]; exact E.e
  · exact ⟨d0, d1, d2, d3, d4, d5, d6, hds, k0, k1, k2, k3, k4, k5, k6, ⟨X.eq_div_hundred p0, X.eq_div_hundred q0⟩,
      ⟨X.eq_div_hundred p1, X.eq_div_hundred q1⟩, ⟨X.eq_div_hundred p2, X.eq_div_hundred q2⟩, ⟨X.eq_div_hundred p3, X.eq_div_hundred q3⟩,
      ⟨X.eq_div_hundred p4, X.eq_div_hundred q4⟩, ⟨X.eq_div_hundred p5, X.eq_div_hundred q5⟩, ⟨X.eq_div_hundred p6, X.eq_div_hundred q6⟩,
      X.eq_div_hundred l4, X.eq_div_hundred l3.1, X.eq_div_hundred l3.2⟩

/-- After a step that does not end the episode, the demands and the maximum productions in the state vector are those of
the tables at the time of day in the state vector. -/
theorem easy_vector_day (ha : EasyOf w s0 a) (hg : Fair w.rng) (G : GoodSolvers w.sim (easySim : Sim K)) {u : List (X K)}
    {o : Env.StepOut K} (h : a.step (easyCtx w s0) u = .ok (a', o)) (ho : o.terminated = false) {y : EnvDyn K} (hy : a'.env.dyn = some y)
    {p q g : ℕ → K} {e : K} {t : ℕ} (hv : EasyVector y.state p q g e t) :
    ∃ l1 l3 l5 m2 m4 : ℚ, loadSeries.map (fun s => s[t]?) = [some l1, some l3, some l5] ∧ genSeries.map (fun s => s[t]?) = [some m2, some m4] ∧
      p 1 = l1 ∧ p 3 = l3 ∧ p 5 = l5 ∧ g 2 = min (m2 : K) 30 ∧ g 4 = m4 := by
  have ha' := ha.step h
  obtain ⟨e1, d, d0, h2, h3, h4, rfl⟩ := anm6_step_ok h
  obtain ⟨y0, y1, vars, hy0, hy1, hnext, hload, hgen⟩ := C102_vars_in_state (easy_env ha) anm6_clean h2 ho
  have hy : e1.dyn = some y := hy
  rw [hy] at hy1
  cases hy1
  have hf0 : y0.terminated = false := by
    obtain ⟨_, y2, hy2, ⟨ht, rfl, rfl⟩ | ⟨hf, _⟩⟩ := step_ok h2
    · cases ho
    · rw [hy0] at hy2
      cases hy2
      exact hf
  obtain ⟨-, hl⟩ := easy_live ha hg G
  obtain ⟨t0, -, hc⟩ := (hl y0 hy0).2.1 hf0
  obtain ⟨y3, hy3, hlast'⟩ := easy_next_step ha hc h ho
  have hy3 : e1.dyn = some y3 := hy3
  rw [hy] at hy3
  cases hy3
  obtain ⟨y2, hy2, hlast⟩ := hc
  rw [hy0] at hy2
  cases hy2
  unfold EasyVector at hv
  have hte : t = (t0 + 1) % 96 := by
    rw [hv] at hlast'
    simp only [List.getLast?_cons_cons, List.getLast?_singleton, Option.some.injEq, X.fin.injEq, Nat.cast_inj] at hlast'
    exact hlast'
  subst hte
  obtain ⟨v, hv1, xs, rfl, hx⟩ := easyNext_clock hlast
  simp only [easyCtx, hv1, Except.map, Except.ok.injEq, Prod.mk.injEq] at hnext
  obtain ⟨rfl, -⟩ := hnext
  generalize hT : (t0 + 1) % 96 = T at *
  simp only [loadSeries, genSeries, List.cons_append, List.nil_append] at hx
  obtain ⟨x1, r1, hxs, ⟨l1, n1, o1⟩, hx1⟩ := forall₂_cons_inv hx
  obtain ⟨x3, r3, rfl, ⟨l3, n3, o3⟩, hx2⟩ := forall₂_cons_inv hx1
  obtain ⟨x5, r5, rfl, ⟨l5, n5, o5⟩, hx3⟩ := forall₂_cons_inv hx2
  obtain ⟨x2, r2, rfl, ⟨m2, n2, o2⟩, hx4⟩ := forall₂_cons_inv hx3
  obtain ⟨x4, r4, rfl, ⟨m4, n4, o4⟩, hx5⟩ := forall₂_cons_inv hx4
  cases hx5
  subst hxs o1 o2 o3 o4 o5
  have hcfg := easy_sameConfig ha'
  obtain ⟨d0, d1, d2, d3, d4, d5, d6, hds, k0, k1, k2, k3, k4, k5, k6⟩ := easy_devices hcfg
  have hds : e1.sim.devices = _ := hds
  have f0 : d0.isLoad = false ∧ d0.isNonSlackGen = false := by rw [k0]; exact ⟨rfl, rfl⟩
  have f1 : d1.isLoad = true ∧ d1.isNonSlackGen = false := by rw [k1]; exact ⟨rfl, rfl⟩
  have f2 : d2.isLoad = false ∧ d2.isNonSlackGen = true := by rw [k2]; exact ⟨rfl, rfl⟩
  have f3 : d3.isLoad = true ∧ d3.isNonSlackGen = false := by rw [k3]; exact ⟨rfl, rfl⟩
  have f4 : d4.isLoad = false ∧ d4.isNonSlackGen = true := by rw [k4]; exact ⟨rfl, rfl⟩
  have f5 : d5.isLoad = true ∧ d5.isNonSlackGen = false := by rw [k5]; exact ⟨rfl, rfl⟩
  have f6 : d6.isLoad = false ∧ d6.isNonSlackGen = false := by rw [k6]; exact ⟨rfl, rfl⟩
  have g1 : e1.sim.devices.filter Device.isLoad = [d1, d3, d5] := by
    simp [hds, f0, f1, f2, f3, f4, f5, f6]
  have g2 : e1.sim.devices.filter Device.isNonSlackGen = [d2, d4] := by
    simp [hds, f0, f1, f2, f3, f4, f5, f6]
  obtain ⟨c1, c2, c3, c4⟩ := easy_counts ha'
  have c1 : e1.sim.nDevice = 7 := c1
  have c2 : e1.sim.nLoad = 3 := c2
  have c4 : e1.sim.nDes = 1 := c4
  rw [hv, g1, hds] at hload
  rw [hv, g2, c1, c2, c4] at hgen
  obtain ⟨x, z, e11, e12, e13⟩ := hload 0 1 d1 rfl rfl
  obtain ⟨x', z', e31, e32, e33⟩ := hload 1 3 d3 rfl rfl
  obtain ⟨x'', z'', e51, e52, e53⟩ := hload 2 5 d5 rfl rfl
  obtain ⟨u, v, e21, e22, e23⟩ := hgen 0 d2 rfl
  obtain ⟨u', v', e41, e42, e43⟩ := hgen 1 d4 rfl
  simp only [List.cons_append, List.nil_append, List.getElem?_cons_zero, List.getElem?_cons_succ, Option.some.injEq] at e11 e12 e31 e32
  simp only [List.cons_append, List.nil_append, List.getElem?_cons_zero, List.getElem?_cons_succ, Option.some.injEq] at e51 e52 e21 e22 e41 e42
  subst e11 e12 e31 e32 e51 e52 e21 e22 e41 e42
  have t1 : d1.pMin = .fin (-1/10) ∧ d1.pMax = .fin 0 := by rw [k1]; exact ⟨rfl, rfl⟩
  have t2 : d2.pMin = .fin 0 ∧ d2.pMax = .fin (3/10) := by rw [k2]; exact ⟨rfl, rfl⟩
  have t3 : d3.pMin = .fin (-3/10) ∧ d3.pMax = .fin 0 := by rw [k3]; exact ⟨rfl, rfl⟩
  have t4 : d4.pMin = .fin 0 ∧ d4.pMax = .fin (1/2) := by rw [k4]; exact ⟨rfl, rfl⟩
  have t5 : d5.pMin = .fin (-3/10) ∧ d5.pMax = .fin 0 := by rw [k5]; exact ⟨rfl, rfl⟩
  rw [t1.1, t1.2] at e13
  rw [t2.1, t2.2] at e23
  rw [t3.1, t3.2] at e33
  rw [t4.1, t4.2] at e43
  rw [t5.1, t5.2] at e53
  simp only [Spec.CutTo, X.fin_mul_fin, X.fin_le_fin, X.fin.injEq] at e13 e23 e33 e43 e53
  have bnd : (∀ x ∈ dayOf (-1) (-5) (-2) (linspace (-1.5) (-4.5) 7) (linspace (-4.625) (-2.375) 7), -10 ≤ x ∧ x ≤ 0) ∧
      (∀ x ∈ dayOf (-4) (-10) (-20) (linspace (-4.75) (-9.25) 7) (linspace (-11.25) (-18.75) 7), -30 ≤ x ∧ x ≤ 0) ∧
      (∀ x ∈ dayOf 0 (-25) 0 (linspace (-3.125) (-21.875) 7) (linspace (-21.875) (-3.125) 7), -30 ≤ x ∧ x ≤ 0) ∧
      (∀ x ∈ dayOf 0 4 30 (linspace 0.5 3.5 7) (linspace 7.25 36.75 7), 0 ≤ x) ∧
      (∀ x ∈ dayOf 40 11 40 (linspace 36.375 14.625 7) (linspace 14.725 36.375 7), 0 ≤ x ∧ x ≤ 50) := by
    refine ⟨?_, ?_, ?_, ?_, ?_⟩ <;> decide +kernel
  obtain ⟨B1, B3, B5, B2, B4⟩ := bnd
  have B1 := B1 l1 (List.mem_of_getElem? n1)
  have B3 := B3 l3 (List.mem_of_getElem? n3)
  have B5 := B5 l5 (List.mem_of_getElem? n5)
  have B2 := B2 m2 (List.mem_of_getElem? n2)
  have B4 := B4 m4 (List.mem_of_getElem? n4)
  refine ⟨l1, l3, l5, m2, m4, by simp [loadSeries, n1, n3, n5], by simp [genSeries, n2, n4], ?_, ?_, ?_, ?_, ?_⟩
  · refine e13.1 ?_ ?_
    · have : ((-10 : ℚ) : K) ≤ l1 := by exact_mod_cast B1.1
      push_cast at this
      linarith
    · have : (l1 : K) ≤ ((0 : ℚ) : K) := by exact_mod_cast B1.2
      push_cast at this
      linarith
  · refine e33.1 ?_ ?_
    · have : ((-30 : ℚ) : K) ≤ l3 := by exact_mod_cast B3.1
      push_cast at this
      linarith
    · have : (l3 : K) ≤ ((0 : ℚ) : K) := by exact_mod_cast B3.2
      push_cast at this
      linarith
  · refine e53.1 ?_ ?_
    · have : ((-30 : ℚ) : K) ≤ l5 := by exact_mod_cast B5.1
      push_cast at this
      linarith
    · have : (l5 : K) ≤ ((0 : ℚ) : K) := by exact_mod_cast B5.2
      push_cast at this
      linarith
  · have h0 : ((0 : ℚ) : K) ≤ m2 := by exact_mod_cast B2
    push_cast at h0
    by_cases hm : (m2 : K) ≤ 30
    · rw [min_eq_left hm]
      exact e23.1 (by linarith) (by linarith)
    · rw [min_eq_right (by linarith)]
      rw [e23.2.1 (by linarith)]
      norm_num
  · refine e43.1 ?_ ?_
    · have : ((0 : ℚ) : K) ≤ m4 := by exact_mod_cast B4.1
      push_cast at this
      linarith
    · have : (m4 : K) ≤ ((50 : ℚ) : K) := by exact_mod_cast B4.2
      push_cast at this
      linarith

end

end Anm
