import Verif.Props.Platforms

/-!
# C154: a seed starts the same episode of ANM6Easy with every linear solver
-/

set_option linter.unusedSectionVars false

namespace Anm

open Spec Complex ComplexConjugate

noncomputable section

variable {ρ : Type} {w w₁ w₂ : EasyWorld ℝ ρ} {s0 : Sim ℝ} {a a' a₁ a₂ a₁' a₂' b₁ b₂ : Anm6 ℝ ρ}

namespace Spec

/-- The first initial state drawn with the seed `n` is accepted by the load flow of the environment. -/
def Accepts (w : EasyWorld ℝ ρ) (s0 : Sim ℝ) (a : Anm6 ℝ ρ) (n : ℤ) : Prop :=
  ∃ v r s', easyInit w.rng s0 (w.seeded n) = .ok (v, r) ∧ a.env.sim.reset w.sim v = .ok (s', true)

/-- The environments have just been reset and show the same state vectors and dates, but for the powers of the slack device, which differ by at most
0.08 MVA; the voltages of their buses differ by at most 0.0002 p.u. -/
def SameStart (a₁ a₂ : Anm6 ℝ ρ) : Prop := ∃ y₁ y₂ p q g p' q' g' e t d, a₁.env.dyn = some y₁ ∧ a₂.env.dyn = some y₂ ∧ y₁.terminated = false ∧
  y₂.terminated = false ∧ EasyVector y₁.state p q g e t ∧ EasyVector y₂.state p' q' g' e t ∧ (∀ k, 1 ≤ k → k ≤ 6 → p k = p' k ∧ q k = q' k) ∧
  g 2 = g' 2 ∧ g 4 = g' 4 ∧ |p 0 - p' 0| ≤ 8/100 ∧ |q 0 - q' 0| ≤ 8/100 ∧
  (∀ k : ℤ, 0 ≤ k → k < 6 → ‖busVoltage a₁.env.sim k - busVoltage a₂.env.sim k‖ ≤ 2/10000) ∧ a₁.date = some d ∧ a₂.date = some d

end Spec

/-- A reset that accepts the first draw. -/
theorem easy_first (ha : EasyOf w s0 a) {n : ℤ} {date : Option ℤ} {obs v : List (X ℝ)} {r : ρ} {s' : Sim ℝ}
    (h : a.easyReset (easyCtx w s0) w.rng (some n) date = .ok (a', obs)) (h1 : easyInit w.rng s0 (w.seeded n) = .ok (v, r))
    (h2 : a.env.sim.reset w.sim v = .ok (s', true)) :
    a'.env.sim = s' ∧ ∃ y x d0 r' m, a'.env.dyn = some y ∧ y.terminated = false ∧ y.state.getLast? = v.getLast? ∧ v.getLast? = some x ∧
      Anm6.startDate w.rng r date = .ok (d0, r') ∧ timesDelta x (15 * (60 * 1000000)) = .ok m ∧ a'.date = some (d0 + m) := by
  obtain ⟨e, d, r', y, x, t, g1, g2, g3, g4, g5, rfl⟩ := easyReset_ok h
  obtain ⟨v', st, nw, I⟩ := env_reset_ok g1
  obtain ⟨r2, hs, hr⟩ := I.search
  have hs' := hs
  rw [Env.search] at hs
  simp only [bind_ok, guardE_ok] at hs
  obtain ⟨⟨v1, r1⟩, i1, -, -, ⟨s1, ok⟩, i2, i3⟩ := hs
  have i1 : easyInit w.rng s0 (w.seeded n) = .ok (v1, r1) := i1
  rw [h1] at i1
  cases i1
  have i2 : a.env.sim.reset w.sim v = .ok (s1, ok) := i2
  rw [h2] at i2
  cases i2
  simp only [OfNat.ofNat_ne_zero, if_false, if_true, pure_ok, Prod.mk.injEq] at i3
  obtain ⟨i3, rfl, rfl⟩ := i3
  have hd : e.dyn = some { terminated := false, timestep := 0, eLoss := 0, penalty := 0, state := st } := by
    rw [I.result]
  have hlast : st.getLast? = v.getLast? := by
    obtain ⟨s3, r3, k1, k2, k3, k4⟩ := search_ok hs'
    obtain ⟨full, f1, f2⟩ := call_state (.inr ⟨_, _, k4⟩ : Call w.sim s3 e.sim)
    have he' := envOf_call (easy_env ha) (.inl ⟨_, obs, g1⟩)
    have hse := sameEnv_call (.inl ⟨_, obs, g1⟩ : EnvCall (easyCtx w s0) a.env e)
    have hst := I.state
    rw [← hse.stateValues, envOf_stateValues he'] at hst
    obtain ⟨st', p, q, soc, g, -, rfl, -⟩ := extract_layout f1 f2 (by rw [k3, hse.nAux, Env.initSize]; omega) hst
    rw [hse.nAux, easy_nAux ha, lastN_one]
    cases hv : v.getLast? with
    | none =>
      rw [List.getLast?_eq_none_iff] at hv
      rw [hv, Env.initSize, easy_nAux ha] at k3
      simp at k3
    | some z => simp
  rw [hd] at g3
  cases g3
  rw [easy_tick ha] at g5
  rw [hr] at g2
  exact ⟨i3.symm, _, x, d, r', t, hd, rfl, hlast, hlast ▸ g4, g2, g5, rfl⟩

/-- Two resets of the same simulator to the same drawn state, with different linear solvers. -/
theorem draw_both {o₁ o₂ : LFOracle} {qp : QP ℝ} (hq : QPExact qp) {pi : ℝ} {s s₁ s₂ : Sim ℝ} {v : List (X ℝ)} {b₁ b₂ : Bool}
    (hs : SimOf anm6Net (.fin (1/4)) (.fin 100) s) (hc : SameConfig easySim s) (h₁ : s.reset ⟨qp, realPF o₁, pi⟩ v = .ok (s₁, b₁))
    (h₂ : s.reset ⟨qp, realPF o₂, pi⟩ v = .ok (s₂, b₂))
    {t : ℕ} {q2 q4 soc : ℝ} (hv : InitialState t q2 q4 soc v) (ht : t < 96) (h2 : |q2| ≤ 3/10) (h4 : |q4| ≤ 1/2) :
    ∃ (s0 t₁ t₂ : Sim ℝ) (a : Sim.Args ℝ) (out₁ out₂ : Sim.TransOut ℝ) (p q : ℕ → ℝ) (d0 d1 d2 d3 d4 d5 d6 : Device ℝ),
      SimOf anm6Net (.fin (1/4)) (.fin 100) s0 ∧ SameConfig easySim s0 ∧ s0.transition ⟨qp, realPF o₁, pi⟩ a = .ok (t₁, out₁) ∧
      s0.transition ⟨qp, realPF o₂, pi⟩ a = .ok (t₂, out₂) ∧ b₁ = out₁.converged ∧ b₂ = out₂.converged ∧ s₁.buses = t₁.buses ∧ s₂.buses = t₂.buses ∧
      List.Forall₂ (fun d d' : Device ℝ => ∃ x, d' = { d with soc := x }) t₁.devices s₁.devices ∧
      List.Forall₂ (fun d d' : Device ℝ => ∃ x, d' = { d with soc := x }) t₂.devices s₂.devices ∧
      Injects t₁ p q d0 d1 d2 d3 d4 d5 d6 ∧ InReach (busPowers p q) := by
  obtain ⟨l1, l3, l5, m2, m4, T⟩ := table_at ht
  have hk : QPKeeps qp := qpExact_keeps hq
  obtain ⟨d0, d1, d2, d3, d4, d5, d6, J, -, -, u1, u2⟩ := easy_reset_core hs hc hk h₁ hv T (by linarith)
  have J : Injects s₁ (powers l1 ((min m2 30 : ℚ) : ℝ) l3 m4 l5 0) (powers (l1 / 5) q2 (l3 / 5) q4 (l5 / 5) 0) d0 d1 d2 d3 d4 d5 d6 := by
    rcases le_total m2 30 with hm | hm
    · obtain ⟨x1, x2, -⟩ := u1 hm (by linarith)
      refine J _ _ ?_ x2
      rw [min_eq_left hm]
      exact x1
    · obtain ⟨x1, x2⟩ := u2 hq hm (by linarith)
      refine J _ _ ?_ x2
      rw [min_eq_right hm]
      push_cast
      exact x1
  obtain ⟨a, ds, ds', t₁, out₁, I, hb₁⟩ := reset_ok h₁
  obtain ⟨a', ds₂, ds₂', t₂, out₂, I₂, hb₂⟩ := reset_ok h₂
  obtain rfl : a = a' := Except.ok.inj (I.args.symm.trans I₂.args)
  obtain rfl : ds = ds₂ := Except.ok.inj ((mapE_ok.2 I.soc).symm.trans (mapE_ok.2 I₂.soc))
  have c1 : SameConfig s { s with state := none, devices := ds } := by
    refine ⟨rfl, rfl, rfl, List.forall₂_same.2 fun _ _ => rfl, List.forall₂_same.2 fun _ _ => rfl, ?_⟩
    refine I.soc.imp fun d d' hd => ?_
    have := resetSoc_ok hd
    cases hs : d.isStorage with
    | false => rw [this.1 hs]; rfl
    | true => obtain ⟨p, _, rfl⟩ := this.2 hs; rfl
  have hs0 : SimOf anm6Net (.fin (1/4)) (.fin 100) { s with state := none, devices := ds } := by
    obtain ⟨s00, h00, hc0⟩ := hs
    exact ⟨s00, h00, sameConfig_trans hc0 c1⟩
  obtain ⟨st, _, hres⟩ := I.result
  obtain ⟨st₂, _, hres₂⟩ := I₂.result
  have hds : List.Forall₂ (fun d d' : Device ℝ => ∃ x, d' = { d with soc := x }) t₁.devices s₁.devices := by
    rw [hres]; exact assignSoc_forall I.assign
  have hds₂ : List.Forall₂ (fun d d' : Device ℝ => ∃ x, d' = { d with soc := x }) t₂.devices s₂.devices := by
    rw [hres₂]; exact assignSoc_forall I₂.assign
  have J1 : ∃ d0 d1 d2 d3 d4 d5 d6, Injects t₁ (powers l1 ((min m2 30 : ℚ) : ℝ) l3 m4 l5 0) (powers (l1 / 5) q2 (l3 / 5) q4 (l5 / 5) 0)
      d0 d1 d2 d3 d4 d5 d6 := by
    have hds := hds
    rw [J.list] at hds
    rcases hl : t₁.devices with _ | ⟨e0, _ | ⟨e1, _ | ⟨e2, _ | ⟨e3, _ | ⟨e4, _ | ⟨e5, _ | ⟨e6, _ | ⟨e7, l⟩⟩⟩⟩⟩⟩⟩⟩ <;> rw [hl] at hds <;>
      simp only [List.forall₂_cons, List.forall₂_nil_left_iff, List.forall₂_nil_right_iff, reduceCtorEq, and_false, and_true] at hds
    obtain ⟨⟨_, rfl⟩, ⟨_, rfl⟩, ⟨_, rfl⟩, ⟨_, rfl⟩, ⟨_, rfl⟩, ⟨_, rfl⟩, ⟨_, rfl⟩⟩ := hds
    exact ⟨e0, e1, e2, e3, e4, e5, e6, hl, J.bus, J.pq1, J.pq2, J.pq3, J.pq4, J.pq5, J.pq6⟩
  obtain ⟨e0, e1, e2, e3, e4, e5, e6, J1⟩ := J1
  refine ⟨_, t₁, t₂, a, out₁, out₂, _, _, e0, e1, e2, e3, e4, e5, e6, hs0, sameConfig_trans hc c1, I.trans, I₂.trans, hb₁, hb₂, by rw [hres], by rw [hres₂],
    hds, hds₂, J1, by simp [busPowers], by simp [busPowers], ?_⟩
  obtain ⟨B1, B3, B5, B2, B4⟩ := table_bounds T
  have n2 : (0 : ℚ) ≤ min m2 30 := le_min B2 (by norm_num)
  have n2' : min m2 30 ≤ (30 : ℚ) := min_le_right _ _
  generalize min m2 30 = mm at n2 n2'
  rify at B1 B3 B5 B2 B4 n2 n2'
  rw [abs_le] at h2 h4
  refine ⟨?_, ?_, ?_⟩
  all_goals
    refine (sq_le_sq₀ (norm_nonneg _) (by norm_num)).1 ?_
    rw [Complex.sq_norm, Complex.normSq_apply]
    simp [busPowers, powers]
  · nlinarith
  · nlinarith
  · nlinarith

/-- The energy stored after a reset to a drawn state. -/
theorem draw_soc {c : Ctx ℝ} (hq : QPExact c.qp) {s s' : Sim ℝ} {v : List (X ℝ)} {b : Bool}
    (hs : SimOf anm6Net (.fin (1/4)) (.fin 100) s) (hc : SameConfig easySim s) (h : s.reset c v = .ok (s', b))
    {t : ℕ} {q2 q4 soc : ℝ} (hv : InitialState t q2 q4 soc v) (ht : t < 96) (h2 : |q2| ≤ 3/10) (h4 : |q4| ≤ 1/2) :
    ∃ d, s'.devices[6]? = some d ∧ d.soc = some (.fin (soc / 100)) := by
  obtain ⟨l1, l3, l5, m2, m4, T⟩ := table_at ht
  obtain ⟨d0, d1, d2, d3, d4, d5, d6, J, e, -, u1, u2⟩ := easy_reset_core hs hc (qpExact_keeps hq) h hv T (by linarith)
  have hl : s'.devices = [d0, d1, d2, d3, d4, d5, d6] := by
    rcases le_total m2 30 with hm | hm
    · obtain ⟨x1, x2, -⟩ := u1 hm (by linarith)
      exact (J _ _ x1 x2).list
    · obtain ⟨x1, x2⟩ := u2 hq hm (by linarith)
      exact (J _ _ x1 x2).list
  exact ⟨d6, by rw [hl]; rfl, e⟩

/-- **C154.** Two environments with different linear solvers and the same generator of random numbers are reset with the same seed: if both accept the
first initial state drawn, at voltages of at least 80 %, then they start in the same state, up to the tolerance of the load flow. -/
theorem C154_start {o₁ o₂ : LFOracle} {qp : QP ℝ} {pi : ℝ} (W : OtherSolver w₁ w₂ o₁ o₂ qp pi) (hrng : w₁.rng = w₂.rng) (hsd : w₁.seeded = w₂.seeded)
    (h₁ : EasyOf w₁ s0 a₁) (h₂ : EasyOf w₂ s0 a₂) {n : ℤ} {date : Option ℤ} {obs₁ obs₂ : List (X ℝ)}
    (k₁ : a₁.easyReset (easyCtx w₁ s0) w₁.rng (some n) date = .ok (a₁', obs₁))
    (k₂ : a₂.easyReset (easyCtx w₂ s0) w₂.rng (some n) date = .ok (a₂', obs₂)) (f₁ : Accepts w₁ s0 a₁ n) (f₂ : Accepts w₂ s0 a₂ n)
    (v₁ : HighVoltage (busVoltage a₁'.env.sim)) (v₂ : HighVoltage (busVoltage a₂'.env.sim)) : SameStart a₁' a₂' := by
  have G₁ : GoodSolvers w₁.sim (easySim : Sim ℝ) := by
    rw [W.sim₁]; exact ⟨W.exact, W.sound, realPF_total easy_numbered easy_finiteLines⟩
  have G₂ : GoodSolvers w₂.sim (easySim : Sim ℝ) := by
    rw [W.sim₂]; exact ⟨W.exact, W.sound, realPF_total easy_numbered easy_finiteLines⟩
  have N₁ : NumericPF w₁.sim := by rw [W.sim₁]; exact C85_solver _ _ _
  have N₂ : NumericPF w₂.sim := by rw [W.sim₂]; exact C85_solver _ _ _
  obtain ⟨v, r, s₁, i₁, j₁⟩ := f₁
  obtain ⟨v', r', s₂, i₂, j₂⟩ := f₂
  obtain ⟨rfl, y₁, x, e₁, q₁, m₁, hy₁, t₁, l₁, lx, sd₁, td₁, hd₁⟩ := easy_first h₁ k₁ i₁ j₁
  obtain ⟨rfl, y₂, x', e₂, q₂, m₂, hy₂, t₂, l₂, lx', sd₂, td₂, hd₂⟩ := easy_first h₂ k₂ i₂ j₂
  rw [← hrng, ← hsd, i₁] at i₂
  cases i₂
  rw [lx] at lx'
  cases lx'
  rw [← hrng, sd₁] at sd₂
  cases sd₂
  rw [td₁] at td₂
  cases td₂
  have hs := envOf_simOf (easy_env h₁)
  have hc := easy_sameConfig h₁
  rw [W.sim₁] at j₁
  have j₂ : a₁.env.sim.reset ⟨qp, realPF o₂, pi⟩ v = .ok (a₂'.env.sim, true) := by
    obtain ⟨x₁, I₁, -, H₁, -⟩ := envOf_inv (easy_env h₁)
    obtain ⟨x₂, I₂, -, H₂, -⟩ := envOf_inv (easy_env h₂)
    have e12 : x₁.sim = x₂.sim := Except.ok.inj (I₁.sim.symm.trans I₂.sim)
    rw [← reset_forget, forget_history H₁, e12, ← forget_history H₂, reset_forget, ← W.sim₂]
    exact j₂
  obtain ⟨t, q2, q4, soc, ht, hI, b1, b2, b3, b4, b5, b6⟩ := C58_aux (simOf_mk (easy_sim h₁)) W.fair₁ i₁
  have n2 : |q2| ≤ 3/10 := abs_le.2 ⟨by linarith, b2⟩
  have n4 : |q4| ≤ 1/2 := abs_le.2 ⟨by linarith, b4⟩
  obtain ⟨x6, X₁, xs₁⟩ := draw_soc W.exact hs hc j₁ hI ht n2 n4
  obtain ⟨z6, X₂, xs₂⟩ := draw_soc W.exact hs hc j₂ hI ht n2 n4
  obtain ⟨s, u₁, u₂, ar, out₁, out₂, p, q, d0, d1, d2, d3, d4, d5, d6, hs0, hc0, tr₁, tr₂, c₁, c₂, bu₁, bu₂, ds₁, ds₂, J, R⟩ :=
    draw_both W.exact hs hc j₁ j₂ hI ht n2 n4
  have h₁' := h₁.reset k₁
  have h₂' := h₂.reset k₂
  obtain ⟨p₁, q₁, g₁, -, -, r₁, -, -, s₁, -, V₁, -⟩ := easy_vector h₁' W.fair₁ G₁ N₁ hy₁ t₁
  obtain ⟨p₂, q₂, g₂, -, -, r₂, -, -, s₂, -, V₂, -⟩ := easy_vector h₂' W.fair₂ G₂ N₂ hy₂ t₂
  obtain ⟨-, i0, i1, i2, i3, i4, i5, i6, D⟩ := easy_vector_devices h₁' W.fair₁ G₁ N₁ hy₁ t₁ V₁
  obtain ⟨-, j0, j1, j2, j3, j4, j5, j6, E⟩ := easy_vector_devices h₂' W.fair₂ G₂ N₂ hy₂ t₂ V₂
  obtain ⟨c0, J₂, m0, n0⟩ := easy_inject tr₁ tr₂ hc0 J
  have eq : ∀ {x : X ℝ} {u v : ℝ}, x = .fin (u / 100) → x = .fin (v / 100) → u = v := by
    intro x u v h1 h2
    rw [h1] at h2
    have := X.fin.inj h2
    linarith
  have hr : r₁ = r₂ := by
    rw [D.list] at X₁
    rw [E.list] at X₂
    simp only [List.getElem?_cons_succ, List.getElem?_cons_zero, Option.some.injEq] at X₁ X₂
    subst X₁ X₂
    have k1 := D.soc
    have k2 := E.soc
    rw [xs₁] at k1
    rw [xs₂] at k2
    exact eq k1 k2
  have hsv : s₁ = s₂ := by
    have k1 := l₁.trans l₂.symm
    rw [V₁, V₂] at k1
    simp only [List.getLast?_cons_cons, List.getLast?_singleton, Option.some.injEq, X.fin.injEq] at k1
    exact_mod_cast k1
  subst hr
  subst hsv
  rw [J.list, D.list] at ds₁
  rw [J₂.list, E.list] at ds₂
  simp only [List.forall₂_cons, List.forall₂_nil_left_iff, and_true] at ds₁ ds₂
  obtain ⟨⟨_, rfl⟩, ⟨_, rfl⟩, ⟨_, rfl⟩, ⟨_, rfl⟩, ⟨_, rfl⟩, ⟨_, rfl⟩, ⟨_, rfl⟩⟩ := ds₁
  obtain ⟨⟨_, rfl⟩, ⟨_, rfl⟩, ⟨_, rfl⟩, ⟨_, rfl⟩, ⟨_, rfl⟩, ⟨_, rfl⟩, ⟨_, rfl⟩⟩ := ds₂
  have bv₁ : busVoltage a₁'.env.sim = busVoltage u₁ := by unfold busVoltage; rw [bu₁]
  have bv₂ : busVoltage a₂'.env.sim = busVoltage u₂ := by unfold busVoltage; rw [bu₂]
  rw [bv₁] at v₁
  rw [bv₂] at v₂
  obtain ⟨V, hV, FV⟩ := easy_flow hs0 hc0 tr₁ c₁.symm J
  obtain ⟨U, hU, FU⟩ := easy_flow hs0 hc0 tr₂ c₂.symm J₂
  obtain ⟨P₁, Q₁⟩ := easy_slack_power hs0 hc0 tr₁ J m0 hV
  obtain ⟨P₂, Q₂⟩ := easy_slack_power hs0 hc0 tr₂ J₂ n0 hU
  have hc₁ := sameConfig_trans hc0 (sameConfig_transition tr₁)
  have hc₂ := sameConfig_trans hc0 (sameConfig_transition tr₂)
  have near := (C150_near R FV FU (solved_high hc₁ hV v₁) (solved_high hc₂ hU v₂)).2
  have hren : ∀ {x y : Device ℝ}, SameMachine x y → y.isRenewable = x.isRenewable := by
    intro x y h
    rw [h]; rfl
  have volt := (C150_solver hs0 hc0 tr₁ tr₂ c₁.symm c₂.symm v₁ v₂ J R (fun d hd hr => by
    rw [J.list] at hd
    simp only [List.mem_cons, List.not_mem_nil, or_false] at hd
    rcases hd with rfl | rfl | rfl | rfl | rfl | rfl | rfl
    · have k := hren D.m0; cases k.symm.trans hr
    · have k := hren D.m1; cases k.symm.trans hr
    · exact ⟨_, D.pot.1⟩
    · have k := hren D.m3; cases k.symm.trans hr
    · exact ⟨_, D.pot.2⟩
    · have k := hren D.m5; cases k.symm.trans hr
    · have k := hren D.m6; cases k.symm.trans hr)).1
  have P₁ := P₁.symm.trans D.pq0.1
  have Q₁ := Q₁.symm.trans D.pq0.2
  have P₂ := P₂.symm.trans E.pq0.1
  have Q₂ := Q₂.symm.trans E.pq0.2
  have np := (Complex.abs_re_le_norm _).trans near
  have nq := (Complex.abs_im_le_norm _).trans near
  rw [Complex.sub_re, X.fin.inj P₁, X.fin.inj P₂, abs_le] at np
  rw [Complex.sub_im, X.fin.inj Q₁, X.fin.inj Q₂, abs_le] at nq
  refine ⟨y₁, y₂, p₁, q₁, g₁, p₂, q₂, g₂, r₁, s₁, _, hy₁, hy₂, t₁, t₂, V₁, V₂, fun k hk1 hk6 => ?_, eq D.pot.1 E.pot.1, eq D.pot.2 E.pot.2,
    abs_le.2 ⟨by linarith, by linarith⟩, abs_le.2 ⟨by linarith, by linarith⟩, by rw [bv₁, bv₂]; exact volt, hd₁, hd₂⟩
  interval_cases k
  · exact ⟨eq D.pq1.1 E.pq1.1, eq D.pq1.2 E.pq1.2⟩
  · exact ⟨eq D.pq2.1 E.pq2.1, eq D.pq2.2 E.pq2.2⟩
  · exact ⟨eq D.pq3.1 E.pq3.1, eq D.pq3.2 E.pq3.2⟩
  · exact ⟨eq D.pq4.1 E.pq4.1, eq D.pq4.2 E.pq4.2⟩
  · exact ⟨eq D.pq5.1 E.pq5.1, eq D.pq5.2 E.pq5.2⟩
  · exact ⟨eq D.pq6.1 E.pq6.1, eq D.pq6.2 E.pq6.2⟩

/-- **C154, exact solvers.** With exactly solved linear systems, however they are solved, both resets succeed and start in the same state. -/
theorem C154_exact {o₁ o₂ : LFOracle} (x₁ : ExactLF o₁) (x₂ : ExactLF o₂) {qp : QP ℝ} {pi : ℝ} (W : OtherSolver w₁ w₂ o₁ o₂ qp pi)
    (hrng : w₁.rng = w₂.rng) (hsd : w₁.seeded = w₂.seeded) (h₁ : EasyOf w₁ s0 a₁) (h₂ : EasyOf w₂ s0 a₂) (n : ℤ) (date : Option ℤ)
    (hdate : ∀ d, date = some d → 0 ≤ d ∧ d < 3652058 * dayMicros) :
    ∃ a₁' a₂' obs₁ obs₂, a₁.easyReset (easyCtx w₁ s0) w₁.rng (some n) date = .ok (a₁', obs₁) ∧
      a₂.easyReset (easyCtx w₂ s0) w₂.rng (some n) date = .ok (a₂', obs₂) ∧ SameStart a₁' a₂' := by
  have one : ∀ {w : EasyWorld ℝ ρ} {o : LFOracle} {a : Anm6 ℝ ρ}, ExactLF o → w.sim = ⟨qp, realPF o, pi⟩ → Fair w.rng → EasyOf w s0 a →
      ∃ a' obs, a.easyReset (easyCtx w s0) w.rng (some n) date = .ok (a', obs) ∧ Accepts w s0 a n ∧ HighVoltage (busVoltage a'.env.sim) := by
    intro w o a x hw hg ha
    have G : GoodSolvers w.sim (easySim : Sim ℝ) := by
      rw [hw]; exact ⟨W.exact, W.sound, realPF_total easy_numbered easy_finiteLines⟩
    obtain ⟨a', obs, v, r, g1, g2, g3⟩ := C116_reset x (by rw [hw]) ha hg G (some n) date hdate
    refine ⟨a', obs, g1, ⟨v, r, _, g2, g3⟩, fun k => ?_⟩
    obtain ⟨t, q2, q4, soc, ht, hI, b1, b2, b3, b4, b5, b6⟩ := C58_aux (simOf_mk (easy_sim ha)) hg g2
    rw [hw] at g3
    obtain ⟨-, V, hV, hb⟩ := C116_draw x W.exact (envOf_simOf (easy_env ha)) (easy_sameConfig ha) g3 hI ht (abs_le.2 ⟨by linarith, b2⟩)
      (abs_le.2 ⟨by linarith, b4⟩)
    have hm' := numbered_same (easy_sameConfig (ha.reset g1)) easy_numbered
    have hmem : ((k.1 : ℤ) + 1) ∈ a'.env.sim.buses.map Bus.id := by
      rw [hm'.ids]
      exact List.mem_map.2 ⟨k.1 + 1, List.mem_range.2 (by omega), by push_cast; rfl⟩
    obtain ⟨b, hb', hid⟩ := List.mem_map.1 hmem
    rw [busVoltage_eq hm' ⟨b, hb', hid, by rw [hV.v b hb', hid]⟩]
    have e : atId V ((k.1 : ℤ) + 1) = V k.succ := by
      fin_cases k <;> rfl
    rw [e]
    linarith [(hb k).1]
  obtain ⟨a₁', obs₁, g1, g2, g3⟩ := one x₁ W.sim₁ W.fair₁ h₁
  obtain ⟨a₂', obs₂, i1, i2, i3⟩ := one x₂ W.sim₂ W.fair₂ h₂
  exact ⟨a₁', a₂', obs₁, obs₂, g1, i1, C154_start W hrng hsd h₁ h₂ g1 i1 g2 i2 g3 i3⟩

theorem together_start (h : SameStart a₁ a₂) : Together a₁ a₂ := by
  obtain ⟨y₁, y₂, p, q, g, p', q', g', e, t, d, h1, h2, h3, h4, h5, h6, -⟩ := h
  exact ⟨y₁, y₂, p, q, g, p', q', g', e, t, h1, h2, h3, h4, h5, h6⟩

/-- **C154, episodes.** After such a reset, the same actions lead through the same states. -/
theorem C154_episode {o₁ o₂ : LFOracle} {qp : QP ℝ} {pi : ℝ} (W : OtherSolver w₁ w₂ o₁ o₂ qp pi) (hrng : w₁.rng = w₂.rng) (hsd : w₁.seeded = w₂.seeded)
    (h₁ : EasyOf w₁ s0 a₁) (h₂ : EasyOf w₂ s0 a₂) {n : ℤ} {date : Option ℤ} {obs₁ obs₂ : List (X ℝ)}
    (k₁ : a₁.easyReset (easyCtx w₁ s0) w₁.rng (some n) date = .ok (b₁, obs₁))
    (k₂ : a₂.easyReset (easyCtx w₂ s0) w₂.rng (some n) date = .ok (b₂, obs₂)) (f₁ : Accepts w₁ s0 a₁ n) (f₂ : Accepts w₂ s0 a₂ n)
    (v₁ : HighVoltage (busVoltage b₁.env.sim)) (v₂ : HighVoltage (busVoltage b₂.env.sim)) {us : List (List (X ℝ))}
    (B : BothRun (easyCtx w₁ s0) (easyCtx w₂ s0) b₁ b₂ us a₁' a₂') (hus : us ≠ []) : SideBySide a₁' a₂' :=
  C152_episode W (h₁.reset k₁) (h₂.reset k₂) (together_start (C154_start W hrng hsd h₁ h₂ k₁ k₂ f₁ f₂ v₁ v₂)) B hus

/-! ### Cases that meet the hypotheses -/

/-- Doing nothing after a reset. -/
theorem idle_after {o : LFOracle} (hex : ExactLF o) {k : ℕ} {a a' : Anm6 ℝ Unit} {obs : List (X ℝ)} (ha : EasyOf (exactWorld o k) easySim a)
    (h : a.easyReset (easyCtx (exactWorld o k) easySim) (exactWorld o k).rng (some 7) none = .ok (a', obs)) :
    ∃ (b : Anm6 ℝ Unit) (x : Env.StepOut ℝ), a'.step (easyCtx (exactWorld o k) easySim) nothing = .ok (b, x) ∧ x.terminated = false ∧
      HighVoltage (busVoltage b.env.sim) := by
  have hg : Fair (exactWorld o k).rng := fair_play k
  have G : GoodSolvers (exactWorld o k).sim (easySim : Sim ℝ) := C83_solvers _ _
  have hpf : NumericPF (exactWorld o k).sim := C85_solver _ _ _
  obtain ⟨t, -, -, soc, -, -, -, -, -, -, -, -, y, p, q, g, ht, -, -, -, -, -, -, -, hy, hf, hv, -⟩ := C108_vector ha hg G hpf h
  obtain ⟨d, hd, hlt⟩ := reset_room ha hg h
  replace ha := ha.reset h
  rcases C83_step ha hg G hy idle_contained with ⟨a1, o1, h1⟩ | ⟨-, d', hd', hlt'⟩
  swap
  · rw [hd] at hd'
    cases hd'
    omega
  obtain ⟨l1, l3, l5, m2, m4, T⟩ := table_at (t := (t + 1) % 96) (Nat.mod_lt _ (by norm_num))
  obtain ⟨args, tr, c0, c1, c2, c3, c4, c5, c6, htr, hflag, -⟩ := easy_inputs ha hg G hpf hy hf hv T h1
  obtain ⟨d0, d1, d2, d3, d4, d5, d6, J, hsoc⟩ := C125_easy ha hg G hpf hy hf hv T h1
  have J' : Injects a1.env.sim (powers l1 ((min m2 30 : ℚ) : ℝ) l3 m4 l5 0) (powers (l1 / 5) 0 (l3 / 5) 0 (l5 / 5) 0) d0 d1 d2 d3 d4 d5 d6 := by
    push_cast
    exact J
  obtain ⟨hconv, V, hV, hb, -⟩ := C115_converges hex (envOf_simOf (easy_env ha)) (easy_sameConfig ha) htr J'
    (initial_ranges T (q2 := 0) (q4 := 0) (by norm_num) (by norm_num))
  have hm' := numbered_same (sameConfig_transition htr) (numbered_same (easy_sameConfig ha) easy_numbered)
  refine ⟨a1, o1, h1, by rw [hflag, hconv]; rfl, fun k => ?_⟩
  have hmem : ((k.1 : ℤ) + 1) ∈ a1.env.sim.buses.map Bus.id := by
    rw [hm'.ids]
    exact List.mem_map.2 ⟨k.1 + 1, List.mem_range.2 (by omega), by push_cast; rfl⟩
  obtain ⟨b, hb', hid⟩ := List.mem_map.1 hmem
  rw [busVoltage_eq hm' ⟨b, hb', hid, by rw [hV.v b hb', hid]⟩]
  have e : atId V ((k.1 : ℤ) + 1) = V k.succ := by
    fin_cases k <;> rfl
  rw [e]
  linarith [(hb k).1]

/-- C154 applies to two environments that solve their linear systems exactly, each in its own way, followed by a step in which nothing is done. -/
example {o₁ o₂ : LFOracle} (x₁ : ExactLF o₁) (x₂ : ExactLF o₂) (k : ℕ) : ∃ a₁ a₂ a₁' a₂' obs₁ obs₂,
    EasyOf (exactWorld o₁ k) easySim a₁ ∧ EasyOf (exactWorld o₂ k) easySim a₂ ∧
    a₁.easyReset (easyCtx (exactWorld o₁ k) easySim) (exactWorld o₁ k).rng (some 7) none = .ok (a₁', obs₁) ∧
    a₂.easyReset (easyCtx (exactWorld o₂ k) easySim) (exactWorld o₂ k).rng (some 7) none = .ok (a₂', obs₂) ∧ SameStart a₁' a₂' ∧
    ∃ b₁ b₂, BothRun (easyCtx (exactWorld o₁ k) easySim) (easyCtx (exactWorld o₂ k) easySim) a₁' a₂' [nothing] b₁ b₂ ∧ SideBySide b₁ b₂ := by
  obtain ⟨a₁, -, h₁⟩ := C83_made (w := exactWorld o₁ k) fun _ _ => rfl
  obtain ⟨a₂, -, h₂⟩ := C83_made (w := exactWorld o₂ k) fun _ _ => rfl
  have W : OtherSolver (exactWorld o₁ k) (exactWorld o₂ k) o₁ o₂ exactQP Real.pi := ⟨rfl, rfl, fair_play k, fair_play k, C16_exact_solver_exists, exactQP_sound⟩
  obtain ⟨a₁', a₂', obs₁, obs₂, g1, g2, g3⟩ := C154_exact x₁ x₂ W rfl rfl h₁ h₂ 7 none (by simp)
  obtain ⟨b₁, z₁, i1, i2, i3⟩ := idle_after x₁ h₁ g1
  obtain ⟨b₂, z₂, j1, j2, j3⟩ := idle_after x₂ h₂ g2
  have B : BothRun (easyCtx (exactWorld o₁ k) easySim) (easyCtx (exactWorld o₂ k) easySim) a₁' a₂' [nothing] b₁ b₂ :=
    .cons i1 j1 i2 j2 i3 j3 (.nil _ _)
  exact ⟨a₁, a₂, a₁', a₂', obs₁, obs₂, h₁, h₂, g1, g2, g3, b₁, b₂, B, C152_episode W (h₁.reset g1) (h₂.reset g2) (together_start g3) B (by simp)⟩

end

end Anm
