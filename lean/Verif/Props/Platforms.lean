import Verif.Props.OneSolution
import Verif.Props.Markov
import Verif.Props.EasyBest

/-!
# C152: an episode of ANM6Easy is the same with every linear solver, up to the tolerance of the load flow

The linear systems of the load flow are solved by external code, whose results differ between machines.
-/

set_option linter.unusedSectionVars false

namespace Anm

open Spec Complex ComplexConjugate

noncomputable section

variable {ρ : Type} {w w₁ w₂ : EasyWorld ℝ ρ} {s0 : Sim ℝ} {a a' a₁ a₂ a₁' a₂' : Anm6 ℝ ρ}

namespace Spec

/-- Two simulated worlds that differ in the linear solver of the load flow (and possibly in the generator of random numbers). -/
structure OtherSolver (w₁ w₂ : EasyWorld ℝ ρ) (o₁ o₂ : LFOracle) (qp : QP ℝ) (pi : ℝ) : Prop where
  sim₁ : w₁.sim = ⟨qp, realPF o₁, pi⟩
  sim₂ : w₂.sim = ⟨qp, realPF o₂, pi⟩
  fair₁ : Fair w₁.rng
  fair₂ : Fair w₂.rng
  exact : QPExact qp
  sound : QPSound 0 qp

/-- The environments go on, with the energy `e` in their storage units, at the time of day `t`. -/
def Together (a₁ a₂ : Anm6 ℝ ρ) : Prop := ∃ y₁ y₂ p q g p' q' g' e t, a₁.env.dyn = some y₁ ∧ a₂.env.dyn = some y₂ ∧ y₁.terminated = false ∧
  y₂.terminated = false ∧ EasyVector y₁.state p q g e t ∧ EasyVector y₂.state p' q' g' e t

/-- The environments go on and show the same state vectors, but for the powers of the slack device, which differ by at most 0.08 MVA; the voltages of
their buses differ by at most 0.0002 p.u., the energy losses by at most 0.0002 p.u. -/
def SideBySide (a₁ a₂ : Anm6 ℝ ρ) : Prop := ∃ y₁ y₂ p q g p' q' g' e t l₁ l₂, a₁.env.dyn = some y₁ ∧ a₂.env.dyn = some y₂ ∧ y₁.terminated = false ∧
  y₂.terminated = false ∧ EasyVector y₁.state p q g e t ∧ EasyVector y₂.state p' q' g' e t ∧ (∀ k, 1 ≤ k → k ≤ 6 → p k = p' k ∧ q k = q' k) ∧
  g 2 = g' 2 ∧ g 4 = g' 4 ∧ |p 0 - p' 0| ≤ 8/100 ∧ |q 0 - q' 0| ≤ 8/100 ∧
  (∀ k : ℤ, 0 ≤ k → k < 6 → ‖busVoltage a₁.env.sim k - busVoltage a₂.env.sim k‖ ≤ 2/10000) ∧
  y₁.eLoss = .fin l₁ ∧ y₂.eLoss = .fin l₂ ∧ |l₁ - l₂| ≤ 2/10000

/-- The same actions on two environments, while both go on and all voltages are at least 80 %. -/
inductive BothRun (c₁ c₂ : EnvCtx ℝ ρ) : Anm6 ℝ ρ → Anm6 ℝ ρ → List (List (X ℝ)) → Anm6 ℝ ρ → Anm6 ℝ ρ → Prop where
  | nil (a₁ a₂ : Anm6 ℝ ρ) : BothRun c₁ c₂ a₁ a₂ [] a₁ a₂
  | cons {a₁ a₂ b₁ b₂ a₁' a₂' : Anm6 ℝ ρ} {u : List (X ℝ)} {us : List (List (X ℝ))} {x₁ x₂ : Env.StepOut ℝ} :
      a₁.step c₁ u = .ok (b₁, x₁) → a₂.step c₂ u = .ok (b₂, x₂) → x₁.terminated = false → x₂.terminated = false →
      HighVoltage (busVoltage b₁.env.sim) → HighVoltage (busVoltage b₂.env.sim) → BothRun c₁ c₂ b₁ b₂ us a₁' a₂' →
      BothRun c₁ c₂ a₁ a₂ (u :: us) a₁' a₂'

end Spec

/-- What a step that does not end the episode does. -/
theorem easy_step_adv (ha : EasyOf w s0 a) (hg : Fair w.rng) (G : GoodSolvers w.sim (easySim : Sim ℝ)) {u : List (X ℝ)}
    {o : Env.StepOut ℝ} (h : a.step (easyCtx w s0) u = .ok (a', o)) (ho : o.terminated = false) :
    ∃ y vars args out y', a.env.dyn = some y ∧ a'.env.dyn = some y' ∧ y'.terminated = false ∧
      AdvInv (easyCtx w s0) a.env y u a'.env o vars args out y' ∧ FiniteArgs a.env.sim args ∧ out.converged = true ∧
      y'.eLoss = X.sign out.eLoss * X.clip (X.abs out.eLoss) 0 (.fin 1) := by
  obtain ⟨e, d, d0, h2, h3, h4, rfl⟩ := anm6_step_ok h
  obtain ⟨y', hy', hf'⟩ := C46_flag h2
  obtain ⟨hu, y, hy, ⟨ht, rfl, rfl⟩ | ⟨hf, h5⟩⟩ := step_ok h2
  · cases ho
  · obtain ⟨vars, args, out, y1, I⟩ := advance_ok h5
    have hd : e.dyn = some y1 := by rw [I.result]
    rw [hy'] at hd
    cases hd
    have hc : out.converged = true := by have := I.flag; rw [ho] at this; simpa using this.symm
    obtain ⟨G', hl⟩ := easy_live ha hg G
    obtain ⟨l1, l2, -⟩ := hl y hy
    obtain ⟨t, _, y2, hy2, hlast⟩ := l2 hf
    rw [hy] at hy2
    cases hy2
    obtain ⟨v, hv, xs, rfl, hx⟩ := easyNext_clock hlast
    have hn := I.next
    simp only [easyCtx, hv, Except.map, Except.ok.injEq, Prod.mk.injEq] at hn
    obtain ⟨rfl, -⟩ := hn
    obtain ⟨args', g1, g2, g3⟩ := step_args (easy_ready ha) hu I.size (by
      intro x hm
      rcases List.mem_append.1 hm with hm | hm
      · obtain ⟨s, _, q, _, rfl⟩ := forall₂_mem_right hx hm
        exact ⟨_, rfl⟩
      · rw [List.mem_singleton.1 hm]
        exact ⟨_, rfl⟩)
    rw [I.dicts] at g1
    rw [I.decode] at g2
    obtain rfl : args = args' := by
      cases args; cases args'
      simp only [Except.ok.injEq, Prod.mk.injEq] at g1 g2
      simp [g1, g2]
    have hr := I.reward
    rw [hc] at hr
    simp only [Env.rewardOf, if_true, Except.ok.injEq, Prod.mk.injEq] at hr
    obtain ⟨-, r2, r3⟩ := hr
    obtain ⟨c1, c2⟩ := easy_clipping ha
    rw [c1] at r2
    exact ⟨y, _, args, out, y', hy, hy', hf'.trans ho, I, g3, hc, r2.symm⟩

/-- What the overwritten quantities hide is the same in both environments. -/
theorem both_wipe (h₁ : EasyOf w₁ s0 a₁) (h₂ : EasyOf w₂ s0 a₂) {p q g p' q' g' : ℕ → ℝ} {e : ℝ} {d0 d1 d2 d3 d4 d5 d6 e0 e1 e2 e3 e4 e5 e6 : Device ℝ}
    (D : EasyDevices a₁.env.sim p q g e d0 d1 d2 d3 d4 d5 d6) (E : EasyDevices a₂.env.sim p' q' g' e e0 e1 e2 e3 e4 e5 e6) :
    a₁.env.sim.wipe = a₂.env.sim.wipe := by
  obtain ⟨x₁, I₁, -, H₁, -⟩ := envOf_inv (easy_env h₁)
  obtain ⟨x₂, I₂, -, H₂, -⟩ := envOf_inv (easy_env h₂)
  have e12 : x₁.sim = x₂.sim := by
    have := I₁.sim.symm.trans I₂.sim
    exact Except.ok.inj this
  have hf : a₁.env.sim.forget = a₂.env.sim.forget := by
    rw [forget_history H₁, forget_history H₂, e12]
  have hd : a₁.env.sim.devices.map Device.forget = a₂.env.sim.devices.map Device.forget := congrArg Sim.devices hf
  have hs : d6.soc = e6.soc := by
    have k1 := D.soc
    have k2 := E.soc
    cases hx : d6.soc with
    | none => rw [hx] at k1; cases k1
    | some x =>
      cases hy : e6.soc with
      | none => rw [hy] at k2; cases k2
      | some y =>
        rw [hx] at k1
        rw [hy] at k2
        simp only [Option.getD_some] at k1 k2
        rw [k1, k2]
  have one : ∀ {x y : Device ℝ}, x.forget = y.forget → (x.isStorage = true → x.soc = y.soc) → x.wipe = y.wipe := by
    intro x y hxy hst
    have e : ∀ d : Device ℝ, d.wipe = { d.forget with soc := d.soc } := fun _ => rfl
    have hsoc : x.soc = y.soc := by
      cases hx : x.isStorage with
      | true => exact hst hx
      | false =>
        have hy : y.isStorage = false := by
          have k1 : x.forget.isStorage = x.isStorage := rfl
          have k2 : y.forget.isStorage = y.isStorage := rfl
          rw [← k2, ← hxy, k1, hx]
        have k3 := congrArg Device.soc hxy
        simpa only [Device.forget, hx, hy, Bool.false_eq_true, if_false] using k3
    rw [e x, e y, hxy, hsoc]
  have hd' : a₁.env.sim.devices.map Device.wipe = a₂.env.sim.devices.map Device.wipe := by
    rw [D.list, E.list] at hd ⊢
    simp only [List.map_cons, List.map_nil, List.cons.injEq, and_true] at hd ⊢
    obtain ⟨k0, k1, k2, k3, k4, k5, k6⟩ := hd
    refine ⟨one k0 fun h => ?_, one k1 fun h => ?_, one k2 fun h => ?_, one k3 fun h => ?_, one k4 fun h => ?_, one k5 fun h => ?_, one k6 fun _ => hs⟩
    · rw [D.m0] at h; cases h
    · rw [D.m1] at h; cases h
    · rw [D.m2] at h; cases h
    · rw [D.m3] at h; cases h
    · rw [D.m4] at h; cases h
    · rw [D.m5] at h; cases h
  have e : ∀ s : Sim ℝ, s.wipe = { s.forget with devices := s.devices.map Device.wipe } := fun _ => rfl
  rw [e a₁.env.sim, e a₂.env.sim, hf, hd']

/-- The arguments of the transition do not depend on the overwritten quantities. -/
theorem same_args {c₁ c₂ : EnvCtx ℝ ρ} {e₁ e₂ e₁' e₂' : Env ℝ ρ} {y₁ y₂ y₁' y₂' : EnvDyn ℝ} {u vars : List (X ℝ)} {x₁ x₂ : Env.StepOut ℝ}
    {args₁ args₂ : Sim.Args ℝ} {out₁ out₂ : Sim.TransOut ℝ} (hw : e₁.sim.wipe = e₂.sim.wipe)
    (I₁ : AdvInv c₁ e₁ y₁ u e₁' x₁ vars args₁ out₁ y₁') (I₂ : AdvInv c₂ e₂ y₂ u e₂' x₂ vars args₂ out₂ y₂') : args₁ = args₂ := by
  have hd : e₁.sim.devices.map Device.wipe = e₂.sim.devices.map Device.wipe := congrArg Sim.devices hw
  have fl : ∀ P : Device ℝ → Bool, (∀ d, P d.wipe = P d) → (e₁.sim.devices.filter P).map Device.wipe = (e₂.sim.devices.filter P).map Device.wipe := by
    intro P hP
    rw [← filter_wipe _ _ hP, ← filter_wipe _ _ hP, hd]
  have h1 : e₁.sim.nLoad = e₂.sim.nLoad := by
    have := congrArg List.length (fl Device.isLoad fun _ => rfl)
    rw [List.length_map, List.length_map] at this
    exact this
  have h2 : e₁.sim.nNonSlackGen = e₂.sim.nNonSlackGen := by
    have := congrArg List.length (fl Device.isNonSlackGen fun _ => rfl)
    rw [List.length_map, List.length_map] at this
    exact this
  have h3 := I₁.dicts
  rw [← varDicts_wipe, hd, varDicts_wipe, h1, h2, I₂.dicts] at h3
  have ids : ∀ P : Device ℝ → Bool, (∀ d, P d.wipe = P d) → (e₁.sim.devices.filter P).map Device.id = (e₂.sim.devices.filter P).map Device.id := by
    intro P hP
    have := congrArg (List.map Device.id) (fl P hP)
    rw [List.map_map, List.map_map] at this
    exact this
  have h4 : Env.decode e₁.sim u = Env.decode e₂.sim u := by
    simp only [Env.decode, ids Device.isNonSlackGen fun _ => rfl, ids Device.isStorage fun _ => rfl]
  rw [I₁.decode, I₂.decode] at h4
  cases args₁; cases args₂
  simp only [Except.ok.injEq, Prod.mk.injEq] at h3 h4
  simp [h3, h4]

/-- Clipping the energy loss does not increase differences. -/
theorem clip_close {x y δ : ℝ} (h : |x - y| ≤ δ) : ∃ x' y' : ℝ, X.sign (.fin x) * X.clip (X.abs (.fin x)) 0 (.fin 1) = .fin x' ∧
    X.sign (.fin y) * X.clip (X.abs (.fin y)) 0 (.fin 1) = .fin y' ∧ |x' - y'| ≤ δ := by
  refine ⟨_, _, clip_loss x, clip_loss y, ?_⟩
  rw [abs_le] at h ⊢
  simp only [min_def, max_def]
  split_ifs <;> constructor <;> linarith [h.1, h.2]

theorem solved_high {s : Sim ℝ} {V : ℤ → ℂ} (hc : SameConfig easySim s) (hV : Solved s easyLines V) (h : HighVoltage (busVoltage s)) : HighVoltage V := by
  have hm := numbered_same hc easy_numbered
  intro k
  have hmem : ((k.1 : ℤ) + 1) ∈ s.buses.map Bus.id := by
    rw [hm.ids]
    exact List.mem_map.2 ⟨k.1 + 1, List.mem_range.2 (by omega), by push_cast; rfl⟩
  obtain ⟨b, hb, hid⟩ := List.mem_map.1 hmem
  have e : busVoltage s ((k.1 : ℤ) + 1) = V ((k.1 : ℤ) + 1) := busVoltage_eq hm ⟨b, hb, hid, by rw [hV.v b hb, hid]⟩
  rw [← e]
  exact h k

/-- The same action makes the same transition in both environments, but for the load flow. -/
theorem both_transition {o₁ o₂ : LFOracle} {qp : QP ℝ} {pi : ℝ} (W : OtherSolver w₁ w₂ o₁ o₂ qp pi) (h₁ : EasyOf w₁ s0 a₁) (h₂ : EasyOf w₂ s0 a₂)
    {y₁ y₂ : EnvDyn ℝ} {p q g p' q' g' : ℕ → ℝ} {e : ℝ} {t : ℕ} (hy₁ : a₁.env.dyn = some y₁) (hy₂ : a₂.env.dyn = some y₂) (t₁ : y₁.terminated = false)
    (t₂ : y₂.terminated = false) (V₁ : EasyVector y₁.state p q g e t) (V₂ : EasyVector y₂.state p' q' g' e t) {u : List (X ℝ)} {x₁ x₂ : Env.StepOut ℝ}
    (k₁ : a₁.step (easyCtx w₁ s0) u = .ok (a₁', x₁)) (k₂ : a₂.step (easyCtx w₂ s0) u = .ok (a₂', x₂)) (f₁ : x₁.terminated = false)
    (f₂ : x₂.terminated = false) : ∃ args out₁ out₂ y₁' y₂' pp qq b0 b1 b2 b3 b4 b5 b6,
      a₁.env.sim.transition ⟨qp, realPF o₁, pi⟩ args = .ok (a₁'.env.sim, out₁) ∧ a₁.env.sim.transition ⟨qp, realPF o₂, pi⟩ args = .ok (a₂'.env.sim, out₂) ∧
      out₁.converged = true ∧ out₂.converged = true ∧ Injects a₁'.env.sim pp qq b0 b1 b2 b3 b4 b5 b6 ∧ InReach (busPowers pp qq) ∧
      a₁'.env.dyn = some y₁' ∧ a₂'.env.dyn = some y₂' ∧ y₁'.terminated = false ∧ y₂'.terminated = false ∧
      a₁.env.rewardOf true out₁.eLoss out₁.penalty = .ok (x₁.reward, y₁'.eLoss, y₁'.penalty) ∧
      a₂.env.rewardOf true out₂.eLoss out₂.penalty = .ok (x₂.reward, y₂'.eLoss, y₂'.penalty) := by
  have G₁ : GoodSolvers w₁.sim (easySim : Sim ℝ) := by
    rw [W.sim₁]; exact ⟨W.exact, W.sound, realPF_total easy_numbered easy_finiteLines⟩
  have G₂ : GoodSolvers w₂.sim (easySim : Sim ℝ) := by
    rw [W.sim₂]; exact ⟨W.exact, W.sound, realPF_total easy_numbered easy_finiteLines⟩
  have N₁ : NumericPF w₁.sim := by rw [W.sim₁]; exact C85_solver _ _ _
  have N₂ : NumericPF w₂.sim := by rw [W.sim₂]; exact C85_solver _ _ _
  obtain ⟨-, d0, d1, d2, d3, d4, d5, d6, D⟩ := easy_vector_devices h₁ W.fair₁ G₁ N₁ hy₁ t₁ V₁
  obtain ⟨-, e0, e1, e2, e3, e4, e5, e6, E⟩ := easy_vector_devices h₂ W.fair₂ G₂ N₂ hy₂ t₂ V₂
  have hw := both_wipe h₁ h₂ D E
  obtain ⟨z₁, vars₁, args₁, out₁, y₁', hz₁, hy₁', t₁', I₁, F₁, c₁, l₁⟩ := easy_step_adv h₁ W.fair₁ G₁ k₁ f₁
  obtain ⟨z₂, vars₂, args₂, out₂, y₂', hz₂, hy₂', t₂', I₂, F₂, c₂, l₂⟩ := easy_step_adv h₂ W.fair₂ G₂ k₂ f₂
  rw [hy₁] at hz₁
  cases hz₁
  rw [hy₂] at hz₂
  cases hz₂
  have last₁ : y₁.state.getLast? = some (.fin (t : ℝ)) := by rw [V₁]; rfl
  have last₂ : y₂.state.getLast? = some (.fin (t : ℝ)) := by rw [V₂]; rfl
  have hnext : easyNext y₁.state = easyNext y₂.state := by
    obtain ⟨x, hx, hxs⟩ := easyNext_clock last₁
    obtain ⟨x', hx', hxs'⟩ := easyNext_clock last₂
    rw [hx, hx', exogenous_unique hxs hxs']
  have hvars : vars₁ = vars₂ := by
    have n1 := I₁.next
    have n2 := I₂.next
    simp only [easyCtx, hnext] at n1 n2
    cases hx : easyNext y₂.state with
    | error z => rw [hx] at n1; cases n1
    | ok v =>
      rw [hx] at n1 n2
      simp only [Except.map, Except.ok.injEq, Prod.mk.injEq] at n1 n2
      rw [← n1.1, ← n2.1]
  subst hvars
  have hargs := same_args hw I₁ I₂
  subst hargs
  have tr₁ := I₁.trans
  have tr₂ := I₂.trans
  rw [← transition_wipe, ← hw, transition_wipe] at tr₂
  simp only [easyCtx, W.sim₁, W.sim₂] at tr₁ tr₂
  have hs := envOf_simOf (easy_env h₁)
  have hc := easy_sameConfig h₁
  obtain ⟨pp, qq, b0, b1, b2, b3, b4, b5, b6, J, R⟩ := C150_reach hs hc W.sound (fun d hd hl x hx => by
    obtain ⟨z, hz⟩ := F₁.load d hd hl
    rw [hz] at hx
    cases hx
    trivial) (fun d hd hl x hx => by
    obtain ⟨z, hz⟩ := F₁.pot d hd hl
    rw [hz] at hx
    cases hx
    simp) tr₁
  have R₁ := I₁.reward
  have R₂ := I₂.reward
  rw [c₁] at R₁
  rw [c₂] at R₂
  exact ⟨_, out₁, out₂, y₁', y₂', pp, qq, b0, b1, b2, b3, b4, b5, b6, tr₁, tr₂, c₁, c₂, J, R, hy₁', hy₂', t₁', t₂', R₁, R₂⟩

theorem clipped_loss (ha : EasyOf w s0 a) {out : Sim.TransOut ℝ} {r l pen : X ℝ} (h : a.env.rewardOf true out.eLoss out.penalty = .ok (r, l, pen)) :
    r = -(l + pen) ∧ l = X.sign out.eLoss * X.clip (X.abs out.eLoss) 0 (.fin 1) ∧ pen = X.clip out.penalty 0 (.fin 100) := by
  obtain ⟨c1, c2⟩ := easy_clipping ha
  simp only [Env.rewardOf, if_true, Except.ok.injEq, Prod.mk.injEq, c1, c2] at h
  obtain ⟨h1, h2, h3⟩ := h
  exact ⟨by rw [← h1, ← h2, ← h3], h2.symm, h3.symm⟩

/-- **C152, step.** Two environments with different linear solvers, with the same energy stored and the same time of day: if the same action does not end
the episodes, and the voltages are at least 80 %, then they show the same state again, up to the tolerance of the load flow. -/
theorem C152_step {o₁ o₂ : LFOracle} {qp : QP ℝ} {pi : ℝ} (W : OtherSolver w₁ w₂ o₁ o₂ qp pi) (h₁ : EasyOf w₁ s0 a₁) (h₂ : EasyOf w₂ s0 a₂)
    (T : Together a₁ a₂) {u : List (X ℝ)} {x₁ x₂ : Env.StepOut ℝ} (k₁ : a₁.step (easyCtx w₁ s0) u = .ok (a₁', x₁))
    (k₂ : a₂.step (easyCtx w₂ s0) u = .ok (a₂', x₂)) (f₁ : x₁.terminated = false) (f₂ : x₂.terminated = false)
    (v₁ : HighVoltage (busVoltage a₁'.env.sim)) (v₂ : HighVoltage (busVoltage a₂'.env.sim)) : SideBySide a₁' a₂' := by
  have G₁ : GoodSolvers w₁.sim (easySim : Sim ℝ) := by
    rw [W.sim₁]; exact ⟨W.exact, W.sound, realPF_total easy_numbered easy_finiteLines⟩
  have G₂ : GoodSolvers w₂.sim (easySim : Sim ℝ) := by
    rw [W.sim₂]; exact ⟨W.exact, W.sound, realPF_total easy_numbered easy_finiteLines⟩
  have N₁ : NumericPF w₁.sim := by rw [W.sim₁]; exact C85_solver _ _ _
  have N₂ : NumericPF w₂.sim := by rw [W.sim₂]; exact C85_solver _ _ _
  obtain ⟨y₁, y₂, p, q, g, p', q', g', e, t, hy₁, hy₂, t₁, t₂, V₁, V₂⟩ := T
  have last₁ : y₁.state.getLast? = some (.fin (t : ℝ)) := by rw [V₁]; rfl
  have last₂ : y₂.state.getLast? = some (.fin (t : ℝ)) := by rw [V₂]; rfl
  have hs := envOf_simOf (easy_env h₁)
  have hc := easy_sameConfig h₁
  obtain ⟨args, out₁, out₂, y₁', y₂', pp, qq, b0, b1, b2, b3, b4, b5, b6, tr₁, tr₂, c₁, c₂, J, R, hy₁', hy₂', t₁', t₂', R₁, R₂⟩ :=
    both_transition W h₁ h₂ hy₁ hy₂ t₁ t₂ V₁ V₂ k₁ k₂ f₁ f₂
  obtain ⟨-, l₁, -⟩ := clipped_loss h₁ R₁
  obtain ⟨-, l₂, -⟩ := clipped_loss h₂ R₂
  obtain ⟨c0, J₂, m0, n0⟩ := easy_inject tr₁ tr₂ hc J
  obtain ⟨V, hV, FV⟩ := easy_flow hs hc tr₁ c₁ J
  obtain ⟨U, hU, FU⟩ := easy_flow hs hc tr₂ c₂ J₂
  obtain ⟨P₁, Q₁⟩ := easy_slack_power hs hc tr₁ J m0 hV
  obtain ⟨P₂, Q₂⟩ := easy_slack_power hs hc tr₂ J₂ n0 hU
  have hc₁ := sameConfig_trans hc (sameConfig_transition tr₁)
  have hc₂ := sameConfig_trans hc (sameConfig_transition tr₂)
  have near := (C150_near R FV FU (solved_high hc₁ hV v₁) (solved_high hc₂ hU v₂)).2
  have h₁' := h₁.step k₁
  have h₂' := h₂.step k₂
  obtain ⟨p₁, q₁, g₁, -, -, r₁, -, -, s₁, -, V₁', -⟩ := easy_vector h₁' W.fair₁ G₁ N₁ hy₁' t₁'
  obtain ⟨p₂, q₂, g₂, -, -, r₂, -, -, s₂, -, V₂', -⟩ := easy_vector h₂' W.fair₂ G₂ N₂ hy₂' t₂'
  obtain ⟨-, i0, i1, i2, i3, i4, i5, i6, D'⟩ := easy_vector_devices h₁' W.fair₁ G₁ N₁ hy₁' t₁' V₁'
  obtain ⟨-, j0, j1, j2, j3, j4, j5, j6, E'⟩ := easy_vector_devices h₂' W.fair₂ G₂ N₂ hy₂' t₂' V₂'
  have L₁ := J.list
  rw [D'.list] at L₁
  simp only [List.cons.injEq, and_true] at L₁
  obtain ⟨rfl, rfl, rfl, rfl, rfl, rfl, rfl⟩ := L₁
  have L₂ := J₂.list
  rw [E'.list] at L₂
  simp only [List.cons.injEq, and_true] at L₂
  obtain ⟨rfl, rfl, rfl, rfl, rfl, rfl, rfl⟩ := L₂
  have eq : ∀ {x : X ℝ} {u v : ℝ}, x = .fin (u / 100) → x = .fin (v / 100) → u = v := by
    intro x u v h1 h2
    rw [h1] at h2
    have := X.fin.inj h2
    linarith
  have hr : r₁ = r₂ := eq D'.soc E'.soc
  have clk : ∀ {a b : Anm6 ℝ ρ} {w : EasyWorld ℝ ρ} {x : Env.StepOut ℝ} {y y' : EnvDyn ℝ} {p q g : ℕ → ℝ} {r : ℝ} {s : ℕ}, EasyOf w s0 a →
      a.env.dyn = some y → y.state.getLast? = some (.fin (t : ℝ)) → a.step (easyCtx w s0) u = .ok (b, x) → x.terminated = false →
      b.env.dyn = some y' → EasyVector y'.state p q g r s → s = (t + 1) % 96 := by
    intro a b w x y y' p q g r s ha hy hl hs hx hy' hv
    obtain ⟨y'', h1, h2⟩ := easy_next_step ha ⟨y, hy, hl⟩ hs hx
    rw [hy'] at h1
    cases h1
    rw [hv] at h2
    simp only [List.getLast?_cons_cons, List.getLast?_singleton, Option.some.injEq, X.fin.injEq] at h2
    exact_mod_cast h2
  have ht : s₁ = s₂ := (clk h₁ hy₁ last₁ k₁ f₁ hy₁' V₁').trans (clk h₂ hy₂ last₂ k₂ f₂ hy₂' V₂').symm
  subst hr
  subst ht
  obtain ⟨volt, b₁, b₂, B₁, B₂, B⟩ := C150_solver hs hc tr₁ tr₂ c₁ c₂ v₁ v₂ J R (fun d hd hr => by
    rw [D'.list] at hd
    simp only [List.mem_cons, List.not_mem_nil, or_false] at hd
    rcases hd with rfl | rfl | rfl | rfl | rfl | rfl | rfl
    · rw [D'.m0] at hr; cases hr
    · rw [D'.m1] at hr; cases hr
    · exact ⟨_, D'.pot.1⟩
    · rw [D'.m3] at hr; cases hr
    · exact ⟨_, D'.pot.2⟩
    · rw [D'.m5] at hr; cases hr
    · rw [D'.m6] at hr; cases hr)
  obtain ⟨b₁', b₂', C₁, C₂, C⟩ := clip_close B
  rw [B₁, C₁] at l₁
  rw [B₂, C₂] at l₂
  rw [D'.pq0.1] at P₁
  rw [D'.pq0.2] at Q₁
  rw [E'.pq0.1] at P₂
  rw [E'.pq0.2] at Q₂
  have np := (Complex.abs_re_le_norm _).trans near
  have nq := (Complex.abs_im_le_norm _).trans near
  rw [Complex.sub_re, ← X.fin.inj P₁, ← X.fin.inj P₂, abs_le] at np
  rw [Complex.sub_im, ← X.fin.inj Q₁, ← X.fin.inj Q₂, abs_le] at nq
  refine ⟨y₁', y₂', p₁, q₁, g₁, p₂, q₂, g₂, r₁, s₁, b₁', b₂', hy₁', hy₂', t₁', t₂', V₁', V₂', fun k hk1 hk6 => ?_, eq D'.pot.1 E'.pot.1, eq D'.pot.2 E'.pot.2,
    abs_le.2 ⟨by linarith, by linarith⟩, abs_le.2 ⟨by linarith, by linarith⟩, volt, l₁, l₂, C⟩
  interval_cases k
  · exact ⟨eq D'.pq1.1 E'.pq1.1, eq D'.pq1.2 E'.pq1.2⟩
  · exact ⟨eq D'.pq2.1 E'.pq2.1, eq D'.pq2.2 E'.pq2.2⟩
  · exact ⟨eq D'.pq3.1 E'.pq3.1, eq D'.pq3.2 E'.pq3.2⟩
  · exact ⟨eq D'.pq4.1 E'.pq4.1, eq D'.pq4.2 E'.pq4.2⟩
  · exact ⟨eq D'.pq5.1 E'.pq5.1, eq D'.pq5.2 E'.pq5.2⟩
  · exact ⟨eq D'.pq6.1 E'.pq6.1, eq D'.pq6.2 E'.pq6.2⟩

theorem together_of (h : SideBySide a₁ a₂) : Together a₁ a₂ := by
  obtain ⟨y₁, y₂, p, q, g, p', q', g', e, t, l₁, l₂, h1, h2, h3, h4, h5, h6, -⟩ := h
  exact ⟨y₁, y₂, p, q, g, p', q', g', e, t, h1, h2, h3, h4, h5, h6⟩

/-- **C152, episode.** The same holds after any number of equal actions: the differences do not add up. -/
theorem C152_episode {o₁ o₂ : LFOracle} {qp : QP ℝ} {pi : ℝ} (W : OtherSolver w₁ w₂ o₁ o₂ qp pi) (h₁ : EasyOf w₁ s0 a₁) (h₂ : EasyOf w₂ s0 a₂)
    (T : Together a₁ a₂) {us : List (List (X ℝ))} (B : BothRun (easyCtx w₁ s0) (easyCtx w₂ s0) a₁ a₂ us a₁' a₂') (hus : us ≠ []) :
    SideBySide a₁' a₂' := by
  have key : Together a₁' a₂' ∧ (us ≠ [] → SideBySide a₁' a₂') := by
    clear hus
    induction B with
    | nil => exact ⟨T, fun h => absurd rfl h⟩
    | @cons a₁ a₂ b₁ b₂ a₁' a₂' u us x₁ x₂ k₁ k₂ f₁ f₂ v₁ v₂ tail ih =>
      have S := C152_step W h₁ h₂ T k₁ k₂ f₁ f₂ v₁ v₂
      obtain ⟨r1, r2⟩ := ih (h₁.step k₁) (h₂.step k₂) (together_of S)
      refine ⟨r1, fun _ => ?_⟩
      cases tail with
      | nil => exact S
      | cons => exact r2 (by simp)
  exact key.2 hus

/-! ### Cases that meet the hypotheses -/

theorem idle_high {o : LFOracle} (hex : ExactLF o) {k : ℕ} (hk : k < 96) : ∃ (a a' : Anm6 ℝ Unit) (x : Env.StepOut ℝ) (y : EnvDyn ℝ) (p q g : ℕ → ℝ),
    EasyOf (exactWorld o k) easySim a ∧ a.env.dyn = some y ∧ y.terminated = false ∧ EasyVector y.state p q g (1/2) k ∧
    a.step (easyCtx (exactWorld o k) easySim) nothing = .ok (a', x) ∧ x.terminated = false ∧ HighVoltage (busVoltage a'.env.sim) := by
  have hg : Fair (exactWorld o k).rng := fair_play k
  have G : GoodSolvers (exactWorld o k).sim (easySim : Sim ℝ) := C83_solvers _ _
  have hpf : NumericPF (exactWorld o k).sim := C85_solver _ _ _
  obtain ⟨a, a', obs, ha, h, hc, he⟩ := exact_start hex (k := k) hk
  obtain ⟨-, -, -, y, p, q, g, hy, hf, hv⟩ := reset_vector ha hg G rfl h hc he
  obtain ⟨d, hd, hlt⟩ := reset_room ha hg h
  replace ha := ha.reset h
  rcases C83_step ha hg G hy idle_contained with ⟨a1, o1, h1⟩ | ⟨-, d', hd', hlt'⟩
  swap
  · rw [hd] at hd'
    cases hd'
    omega
  obtain ⟨l1, l3, l5, m2, m4, T⟩ := table_at (t := (k + 1) % 96) (Nat.mod_lt _ (by norm_num))
  obtain ⟨args, tr, c0, c1, c2, c3, c4, c5, c6, htr, hflag, -⟩ := easy_inputs ha hg G hpf hy hf hv T h1
  obtain ⟨d0, d1, d2, d3, d4, d5, d6, J, hsoc⟩ := C125_easy ha hg G hpf hy hf hv T h1
  have J' : Injects a1.env.sim (powers l1 ((min m2 30 : ℚ) : ℝ) l3 m4 l5 0) (powers (l1 / 5) 0 (l3 / 5) 0 (l5 / 5) 0) d0 d1 d2 d3 d4 d5 d6 := by
    push_cast
    exact J
  obtain ⟨hconv, V, hV, hb, -⟩ := C115_converges hex (envOf_simOf (easy_env ha)) (easy_sameConfig ha) htr J'
    (initial_ranges T (q2 := 0) (q4 := 0) (by norm_num) (by norm_num))
  have hm' := numbered_same (sameConfig_transition htr) (numbered_same (easy_sameConfig ha) easy_numbered)
  refine ⟨a', a1, o1, y, p, q, g, ha, hy, hf, hv, h1, by rw [hflag, hconv]; rfl, fun k => ?_⟩
  have hmem : ((k.1 : ℤ) + 1) ∈ a1.env.sim.buses.map Bus.id := by
    rw [hm'.ids]
    exact List.mem_map.2 ⟨k.1 + 1, List.mem_range.2 (by omega), by push_cast; rfl⟩
  obtain ⟨b, hb', hid⟩ := List.mem_map.1 hmem
  rw [busVoltage_eq hm' ⟨b, hb', hid, by rw [hV.v b hb', hid]⟩]
  have e : atId V ((k.1 : ℤ) + 1) = V k.succ := by
    fin_cases k <;> rfl
  rw [e]
  linarith [(hb k).1]

/-- C152 applies to two environments that solve their linear systems exactly, each in its own way, when nothing is done. -/
example {o₁ o₂ : LFOracle} (x₁ : ExactLF o₁) (x₂ : ExactLF o₂) {k : ℕ} (hk : k < 96) : ∃ a₁ a₂ a₁' a₂' : Anm6 ℝ Unit,
    OtherSolver (exactWorld o₁ k) (exactWorld o₂ k) o₁ o₂ exactQP Real.pi ∧ EasyOf (exactWorld o₁ k) easySim a₁ ∧ EasyOf (exactWorld o₂ k) easySim a₂ ∧
    Together a₁ a₂ ∧ BothRun (easyCtx (exactWorld o₁ k) easySim) (easyCtx (exactWorld o₂ k) easySim) a₁ a₂ [nothing] a₁' a₂' ∧ SideBySide a₁' a₂' := by
  obtain ⟨a₁, b₁, z₁, y₁, p, q, g, h1, h2, h3, h4, h5, h6, h7⟩ := idle_high x₁ hk
  obtain ⟨a₂, b₂, z₂, y₂, p', q', g', i1, i2, i3, i4, i5, i6, i7⟩ := idle_high x₂ hk
  have W : OtherSolver (exactWorld o₁ k) (exactWorld o₂ k) o₁ o₂ exactQP Real.pi := ⟨rfl, rfl, fair_play k, fair_play k, C16_exact_solver_exists, exactQP_sound⟩
  have T : Together a₁ a₂ := ⟨y₁, y₂, p, q, g, p', q', g', _, _, h2, i2, h3, i3, h4, i4⟩
  have B : BothRun (easyCtx (exactWorld o₁ k) easySim) (easyCtx (exactWorld o₂ k) easySim) a₁ a₂ [nothing] b₁ b₂ :=
    .cons h5 i5 h6 i6 h7 i7 (.nil _ _)
  exact ⟨a₁, a₂, b₁, b₂, W, h1, i1, T, B, C152_episode W h1 i1 T B (by simp)⟩

end

end Anm
