import Verif.Props.Kept
import Verif.Props.History

/-! # C128: the length of the time step does not matter

One time step, or `k` steps of a `k`-th of its length with the same inputs: if the storage units can follow their set-points, the
network goes through the same electrical state, stores the same energy in the end, and the costs add up to the same sum. -/

set_option linter.unusedSectionVars false

namespace Anm

open Spec

namespace Spec
variable {K : Type} [Field K] [LinearOrder K]

/-- All storage units can follow their set-points during a time `t`. -/
def CanFollow (base t : K) (s : Sim K) (a : Sim.Args K) : Prop :=
  ∀ d ∈ s.devices, d.isStorage = true → ∃ g soc p q, HasDesParams d g ∧ 0 < g.eff ∧ d.soc = some (.fin soc) ∧ g.socMin ≤ soc ∧ soc ≤ g.socMax ∧
    a.pSet.get? d.id = some (.fin p) ∧ a.qSet.get? d.id = some (.fin q) ∧ DesRegion g t soc (p / base) (q / base)

/-- `n` transitions with the same inputs, with all results. -/
def repeatTransition (c : Ctx K) (a : Sim.Args K) : ℕ → Sim K → Except PyErr (Sim K × List (Sim.TransOut K))
  | 0, s => .ok (s, [])
  | n + 1, s => do
    let (s1, o) ← s.transition c a
    let (s2, os) ← repeatTransition c a n s1
    pure (s2, o :: os)

/-- Two simulators in the same electrical state: all buses and branches are the same, and all devices up to the stored energies. -/
def SameElectrical (s s' : Sim K) : Prop :=
  s.buses = s'.buses ∧ s.branches = s'.branches ∧ s.pfeConverged = s'.pfeConverged ∧
    List.Forall₂ (fun d d' : Device K => d = { d' with soc := d.soc }) s.devices s'.devices

end Spec

section
variable {K : Type} [Field K] [LinearOrder K]

/-- A device with another energy. -/
def Device.charged (E : ℤ → K) (d : Device K) : Device K := if d.isStorage then { d with soc := some (.fin (E d.id)) } else d

/-- A simulator with other energies and another time step. -/
def Sim.charged (E : ℤ → K) (τ : K) (s : Sim K) : Sim K := { s with deltaT := .fin τ, devices := s.devices.map (Device.charged E) }

theorem charged_fields (E : ℤ → K) (d : Device K) : (d.charged E).p = d.p ∧ (d.charged E).q = d.q ∧ (d.charged E).busId = d.busId ∧
    (d.charged E).isSlack = d.isSlack ∧ (d.charged E).isStorage = d.isStorage ∧ (d.charged E).id = d.id ∧ (d.charged E).isGen = d.isGen ∧
    (d.charged E).isLoad = d.isLoad ∧ (d.charged E).isRenewable = d.isRenewable ∧ (d.charged E).pPot = d.pPot := by
  unfold Device.charged
  split <;> exact ⟨rfl, rfl, rfl, rfl, rfl, rfl, rfl, rfl, rfl, rfl⟩

theorem charged_pq (E : ℤ → K) (d : Device K) (p q : X K) : Device.charged E { d with p := p, q := q } = { d.charged E with p := p, q := q } := by
  unfold Device.charged
  rw [show Device.isStorage { d with p := p, q := q } = d.isStorage from rfl]
  split <;> rfl

theorem injections_charged (E : ℤ → K) (ds : List (Device K)) (b : Bus K) :
    Sim.busInjections (ds.map (Device.charged E)) b = Sim.busInjections ds b := by
  unfold Sim.busInjections
  have h : (ds.map (Device.charged E)).filter (fun d => d.busId = b.id) = (ds.filter (fun d => d.busId = b.id)).map (Device.charged E) := by
    rw [List.filter_map]
    congr 1
    exact List.filter_congr fun d _ => by simp [Function.comp, (charged_fields E d).2.2.1]
  simp only [h, List.foldl_map, (charged_fields E _).1, (charged_fields E _).2.1]

theorem mapE_comm {α : Type} {f : α → Except PyErr α} {g : α → α} (h : ∀ x, f (g x) = (f x).map g) :
    ∀ l : List α, mapE f (l.map g) = (mapE f l).map (List.map g)
  | [] => rfl
  | x :: l => by
    rw [List.map_cons, mapE, mapE, mapE_comm h l, h]
    cases f x
    · rfl
    · cases mapE f l <;> rfl

theorem applyPF_charged (E : ℤ → K) (τ : K) (s : Sim K) (o : PFOut K) :
    (s.charged E τ).applyPF o = (s.applyPF o).map (Sim.charged E τ) := by
  unfold Sim.applyPF
  simp only [Sim.charged, bind, Except.bind, pure, Except.pure]
  rw [mapE_comm (g := Device.charged E)]
  · generalize mapE _ s.devices = r
    cases r <;> rfl
  · intro d
    by_cases hs : d.isStorage = true
    · have e : d.charged E = { d with soc := some (.fin (E d.id)) } := if_pos hs
      rw [e]
      dsimp only
      split
      · generalize List.find? _ _ = r
        cases r with
        | some b => exact congrArg Except.ok (if_pos (c := Device.isStorage { d with p := b.p, q := b.q } = true) hs).symm
        | none => rfl
      · exact congrArg Except.ok e.symm
    · have e : d.charged E = d := if_neg hs
      rw [e]
      split
      · generalize List.find? _ _ = r
        cases r with
        | some b => exact congrArg Except.ok (if_neg (c := Device.isStorage { d with p := b.p, q := b.q } = true) hs).symm
        | none => rfl
      · exact congrArg Except.ok e.symm

theorem losses_charged (E : ℤ → K) (l : List (Device K)) (x : X K) : (l.map (Device.charged E)).foldl Sim.eLossStep x = l.foldl Sim.eLossStep x := by
  rw [List.foldl_map]
  congr 1
  funext e d
  obtain ⟨h1, -, -, -, -, -, h2, h3, h4, h5⟩ := charged_fields E d
  simp only [Sim.eLossStep, h1, h2, h3, h4, h5]

theorem wipe_charged (E : ℤ → K) (d : Device K) : (d.charged E).wipe = d.forget.charged E := by
  unfold Device.charged
  rw [show d.forget.isStorage = d.isStorage from rfl]
  split
  · rfl
  · rename_i h
    simp only [Device.forget, h]
    rfl

theorem sim_wipe_charged {s s' : Sim K} (h : s'.forget = s.forget) (E : ℤ → K) (τ : K) : (s'.charged E τ).wipe = (s.charged E τ).wipe := by
  have hd : s'.devices.map Device.forget = s.devices.map Device.forget := congrArg Sim.devices h
  have e : ∀ s : Sim K, (s.charged E τ).wipe = { s.forget with deltaT := .fin τ, devices := (s.devices.map Device.forget).map (Device.charged E) } := by
    intro s
    simp only [Sim.wipe, Sim.charged, Sim.forget, List.map_map]
    congr 1
    exact List.map_congr_left fun d _ => wipe_charged E d
  rw [e, e, h, hd]

end

section
variable {K : Type} [Field K] [LinearOrder K] [IsStrictOrderedRing K] [FloorRing K]
variable {c : Ctx K} {s s' : Sim K} {a : Sim.Args K} {out : Sim.TransOut K} {d : Device K}
variable {n : Network K} {lam : X K} {base t τ : K}

/-- The energy after a time `τ`. -/
def laterSoc (eff τ soc p : K) : K := if p ≤ 0 then soc - τ * eff * p else soc - τ * p / eff

/-- A storage unit follows feasible set-points. -/
theorem storage_follows {dt : X K} {soc p q : K} {g : DesParams K} (hn : CleanFile n base) (hs : SimOf n dt lam s) (hτ : 0 < τ) (hq : QPKeeps c.qp)
    (hd : d ∈ s.devices) (hg : d.isStorage = true) (hgp : HasDesParams d g) (he : 0 < g.eff) (hs1 : g.socMin ≤ soc) (hs2 : soc ≤ g.socMax)
    (h2 : a.pSet.get? d.id = some (.fin p)) (h3 : a.qSet.get? d.id = some (.fin q)) (hr : DesRegion g τ soc (p / base) (q / base)) :
    Sim.stepDevice c.qp (.fin base) (.fin τ) a { d with soc := some (.fin soc) } =
      .ok { d with p := .fin (p / base), q := .fin (q / base), soc := some (.fin (laterSoc g.eff τ soc (p / base))) } := by
  have hb := basePos_of_simOf hn hs
  have hdiv : ∀ y : K, (X.fin y / X.fin base : X K) = .fin (y / base) := fun y => X.fin_div_fin hb.ne'
  obtain ⟨r, _, ids, df, hok, hm, hsm, hdf⟩ := simOf_storage hn hs hd hg
  have hgf : HasDesParams df g := by
    rw [hsm] at hgp
    exact ⟨hgp.1, hgp.2, hgp.3, hgp.4, hgp.5, hgp.6, hgp.7, hgp.8, hgp.9, hgp.10, hgp.11⟩
  set d1 : Device K := { d with soc := some (.fin soc) } with hd1
  have hsm1 : SameMachine df d1 := sameMachine_trans hsm rfl
  obtain ⟨rows, hrows, hiff⟩ := C13_storage_region (p := p / base) (q := q / base) hok hb hm hgf hsm1 rfl hτ he
  have hf : FinCoeffs rows := by
    have := desRows_eq hm hgf hsm1 rfl hτ he
    rw [hrows] at this
    injection this with this
    rw [this]
    simp [FinCoeffs, X.IsFin]
  have hk : d1.isLoad = false ∧ d1.isNonSlackGen = false ∧ d1.isStorage = true := by
    have : d1.isStorage = true := hg
    unfold Device.isStorage at this
    unfold Device.isLoad Device.isNonSlackGen Device.isGen Device.isStorage
    cases h : d1.kind <;> simp_all
  have e2 : a.pSet.getE d1.id = .ok (.fin p) := Dict.getE_ok.2 h2
  have e3 : a.qSet.getE d1.id = .ok (.fin q) := Dict.getE_ok.2 h3
  simp only [Sim.stepDevice, hk.1, hk.2.1, hk.2.2, e2, e3, Bool.false_eq_true, if_false, if_true, bind, Except.bind, Device.mapStorage, hrows,
    Device.project, hdiv, hq _ _ _ hf (hiff.2 hr), Device.updateSoc]
  have i1 : d1.eff = .fin g.eff := hgp.eff
  have i2 : d1.socMin = .fin g.socMin := hgp.socMin
  have i3 : d1.socMax = .fin g.socMax := hgp.socMax
  have hc1 := hr.charge
  have hc2 := hr.discharge
  have hte : 0 < τ * g.eff := mul_pos hτ he
  rw [div_le_iff₀ hte] at hc1
  rw [le_div_iff₀ hτ] at hc2
  have key : X.clip (if (X.fin (p / base) : X K) ≤ 0 then .fin soc - .fin τ * d1.eff * .fin (p / base) else .fin soc - .fin τ * .fin (p / base) / d1.eff)
      d1.socMin d1.socMax = .fin (laterSoc g.eff τ soc (p / base)) := by
    rw [i1, i2, i3, laterSoc]
    by_cases h0 : p / base ≤ 0
    · rw [if_pos (show (X.fin (p / base) : X K) ≤ 0 from h0), if_pos h0]
      simp only [X.fin_mul_fin, X.fin_sub_fin]
      rw [X.clip_fin (hs1.trans hs2)]
      have := mul_nonneg hte.le (neg_nonneg.2 h0)
      rw [max_eq_right (by nlinarith), min_eq_left (by nlinarith)]
    · rw [if_neg (show ¬ (X.fin (p / base) : X K) ≤ 0 from h0), if_neg h0]
      simp only [X.fin_mul_fin, X.fin_div_fin he.ne', X.fin_sub_fin]
      rw [X.clip_fin (hs1.trans hs2)]
      have h4 : 0 < p / base := not_le.1 h0
      have h5 : 0 ≤ τ * (p / base) / g.eff := by positivity
      have h6 : τ * (p / base) / g.eff ≤ soc - g.socMin := by
        rw [div_le_iff₀ he]; nlinarith
      rw [max_eq_right (by linarith), min_eq_left (by linarith)]
  show Except.ok { d1 with p := _, q := _, soc := some (X.clip _ _ _) } = _
  rw [key]

/-- Other devices do not depend on the time step. -/
theorem step_anyTime (qp : QP K) (b dt dt' : X K) (a : Sim.Args K) (h : d.isStorage = false) :
    Sim.stepDevice qp b dt a d = Sim.stepDevice qp b dt' a d := by
  simp only [Sim.stepDevice, h, Bool.false_eq_true, if_false]

/-- The storage units follow their set-points during a time `t`, and also during a time `τ` if they start with the energies `F`; they
then have the energies `F'`. -/
def Follow (base t τ : K) (F F' : ℤ → K) (s : Sim K) (a : Sim.Args K) : Prop :=
  ∀ d ∈ s.devices, d.isStorage = true → ∃ g soc p q, HasDesParams d g ∧ 0 < g.eff ∧ d.soc = some (.fin soc) ∧ (g.socMin ≤ soc ∧ soc ≤ g.socMax) ∧
    a.pSet.get? d.id = some (.fin p) ∧ a.qSet.get? d.id = some (.fin q) ∧ DesRegion g t soc (p / base) (q / base) ∧
    (g.socMin ≤ F d.id ∧ F d.id ≤ g.socMax) ∧ DesRegion g τ (F d.id) (p / base) (q / base) ∧ F' d.id = laterSoc g.eff τ (F d.id) (p / base)

theorem devices_charged {dt : X K} {F F' : ℤ → K} (hn : CleanFile n base) (hs : SimOf n dt lam s) (ht : 0 < t) (hτ : 0 < τ) (hq : QPKeeps c.qp)
    (hF : Follow base t τ F F' s a) {ds : List (Device K)} (h : mapE (Sim.stepDevice c.qp (.fin base) (.fin t) a) s.devices = .ok ds) :
    mapE (Sim.stepDevice c.qp (.fin base) (.fin τ) a) (s.devices.map (Device.charged F)) = .ok (ds.map (Device.charged F')) := by
  rw [mapE_ok] at h ⊢
  rw [List.forall₂_map_left_iff, List.forall₂_map_right_iff]
  suffices H : ∀ l, List.Forall₂ (fun x y => Sim.stepDevice c.qp (.fin base) (.fin t) a x = .ok y) l ds → (∀ d ∈ l, d ∈ s.devices) →
      List.Forall₂ (fun x y => Sim.stepDevice c.qp (.fin base) (.fin τ) a (Device.charged F x) = .ok (Device.charged F' y)) l ds from
    H _ h fun _ h => h
  clear h
  intro l h hmem
  induction h with
  | nil => exact .nil
  | @cons d r l ds h1 h2 ih =>
    refine .cons ?_ (ih fun d hd => hmem d (List.mem_cons_of_mem _ hd))
    have hd := hmem d List.mem_cons_self
    cases hst : d.isStorage with
    | false =>
      have e : d.charged F = d := if_neg (by simp [hst])
      have hr : r.isStorage = false := by
        rw [(stepDevice_ok h1).same.classes.2.2.1, hst]
      have e' : r.charged F' = r := if_neg (by simp [hr])
      rw [e, e', step_anyTime _ _ _ (.fin t) _ hst, h1]
    | true =>
      obtain ⟨g, soc, p, q, g1, g2, g3, ⟨g4, g5⟩, g6, g7, g8, ⟨g9, g10⟩, g11, g12⟩ := hF d hd hst
      have k1 := storage_follows hn hs ht hq hd hst g1 g2 g4 g5 g6 g7 g8
      have k2 := storage_follows hn hs hτ hq hd hst g1 g2 g9 g10 g6 g7 g11
      rw [← g3, h1] at k1
      injection k1 with k1
      have e : d.charged F = { d with soc := some (.fin (F d.id)) } := if_pos hst
      rw [e, k2, k1, ← g12]
      exact congrArg Except.ok (if_pos (c := Device.isStorage { d with p := X.fin (p / base), q := .fin (q / base), soc := some (.fin (laterSoc g.eff t soc (p / base))) } = true) hst).symm

theorem solveStep_charged {F F' : ℤ → K} (hn : CleanFile n base) (hs : SimOf n (.fin t) lam s) (ht : 0 < t) (hτ : 0 < τ) (hq : QPKeeps c.qp)
    (hF : Follow base t τ F F' s a) {s1 : Sim K} (h : s.solveStep c a = .ok s1) : (s.charged F τ).solveStep c a = .ok (s1.charged F' τ) := by
  have eb : s.baseMVA = .fin base := (simOf_base hs).1.trans hn.base
  have et : s.deltaT = .fin t := (simOf_base hs).2.1
  simp only [Sim.solveStep, bind_ok, pure_ok] at h
  obtain ⟨ds, h1, o, h2, s2, h3, rfl⟩ := h
  rw [eb, et] at h1
  have k1 := devices_charged hn hs ht hτ hq hF h1
  have e : ({ s.charged F τ with devices := ds.map (Device.charged F'), buses := s.buses.map (Sim.busInjections (ds.map (Device.charged F'))) } : Sim K) =
      Sim.charged F' τ { s with devices := ds, buses := s.buses.map (Sim.busInjections ds) } := by
    rw [show Sim.busInjections (ds.map (Device.charged F')) = Sim.busInjections ds from funext fun b => injections_charged F' ds b]
    rfl
  simp only [Sim.solveStep, bind_ok, pure_ok]
  refine ⟨ds.map (Device.charged F'), ?_, o, ?_, s2.charged F' τ, ?_, rfl⟩
  · rw [show (s.charged F τ).baseMVA = .fin base from eb]
    exact k1
  · refine (congrArg (fun s : Sim K => c.pf s.pfIn) e).trans h2
  · refine (congrArg (fun s : Sim K => s.applyPF o) e).trans ?_
    rw [applyPF_charged, h3]
    rfl

/-- Costs of a step and of another step that is `k` times as long. -/
def Spec.CostShare (k : ℕ) (o out : Sim.TransOut K) : Prop :=
  o.converged = out.converged ∧ o.eLoss * .fin (k : K) = out.eLoss ∧ o.penalty * .fin (k : K) = out.penalty ∧ o.reward * .fin (k : K) = out.reward

theorem scale_inf {x : X K} {a : K} (ha : 0 < a) (hx : ¬ x.IsFin) : x * .fin a = x ∧ .fin a * x = x := by
  cases x with
  | fin b => exact absurd trivial hx
  | nan => exact ⟨rfl, rfl⟩
  | pinf => exact ⟨by show X.infOf _ = _; simp [X.sgn, X.infOf, ha], by show X.infOf _ = _; simp [X.sgn, X.infOf, ha]⟩
  | ninf => exact ⟨by show X.infOf _ = _; simp [X.sgn, X.infOf, ha], by show X.infOf _ = _; simp [X.sgn, X.infOf, ha]⟩

theorem infOf_not_fin (n : ℤ) : ¬ (X.infOf n : X K).IsFin := by
  unfold X.infOf
  split_ifs <;> exact id

theorem mul_not_fin {x y : X K} (h : ¬ x.IsFin ∨ ¬ y.IsFin) : ¬ (x * y).IsFin := by
  cases x <;> cases y <;> first | exact infOf_not_fin _ | exact id | (exfalso; rcases h with h | h <;> exact h trivial)

theorem sgn_scale {a b : K} (ha : 0 < a) : X.sgn (.fin (a * b)) = X.sgn (.fin b) := by
  unfold X.sgn
  simp only [mul_pos_iff_of_pos_left ha, mul_neg_iff, ha, ha.not_gt, true_and, false_and, or_false]

theorem mul_share {x y : X K} {k : ℕ} (hk : 0 < k) (ht : 0 < t) : x * (.fin (t / k) * y) * .fin (k : K) = x * (.fin t * y) := by
  have hk' : (0 : K) < k := by exact_mod_cast hk
  have hτ : 0 < t / k := div_pos ht hk'
  by_cases hy : y.IsFin
  · cases y with
    | fin b =>
      by_cases hx : x.IsFin
      · cases x with
        | fin a =>
          simp only [X.fin_mul_fin]
          congr 1
          field_simp
        | _ => exact absurd hx id
      · rw [X.fin_mul_fin, X.fin_mul_fin, (scale_inf hk' (mul_not_fin (.inl hx))).1]
        cases x with
        | fin a => exact absurd trivial hx
        | nan => rfl
        | pinf =>
          show X.infOf (_ * X.sgn (.fin _)) = X.infOf (_ * X.sgn (.fin _))
          rw [sgn_scale hτ, sgn_scale ht]
        | ninf =>
          show X.infOf (_ * X.sgn (.fin _)) = X.infOf (_ * X.sgn (.fin _))
          rw [sgn_scale hτ, sgn_scale ht]
    | _ => exact absurd hy id
  · rw [(scale_inf hτ hy).2, (scale_inf ht hy).2, (scale_inf hk' (mul_not_fin (.inr hy))).1]

theorem mul_share_one {x : X K} {k : ℕ} (hk : 0 < k) (ht : 0 < t) : x * .fin (t / k) * .fin (k : K) = x * .fin t := by
  have h := mul_share (x := x) (y := .fin 1) hk ht
  simpa [X.fin_mul_fin] using h

theorem neg_add_share {x y : X K} {k : ℕ} (hk : 0 < k) : -(x + y) * .fin (k : K) = -(x * .fin (k : K) + y * .fin (k : K)) := by
  have hk' : (0 : K) < k := by exact_mod_cast hk
  cases x <;> cases y <;> first
    | rfl
    | (simp only [X.fin_mul_fin]; show X.fin _ = X.fin _; congr 1; ring)
    | (simp only [X.fin_mul_fin, (scale_inf hk' (show ¬ (X.pinf : X K).IsFin from id)).1, (scale_inf hk' (show ¬ (X.ninf : X K).IsFin from id)).1, (scale_inf hk' (show ¬ (X.nan : X K).IsFin from id)).1]
       first | rfl | exact (scale_inf hk' (show ¬ (X.pinf : X K).IsFin from id)).1 | exact (scale_inf hk' (show ¬ (X.ninf : X K).IsFin from id)).1)

theorem gather_charged (pi : K) (F : ℤ → K) (s : Sim K) : ∃ st', (s.charged F τ).gatherState pi = .ok st' := by
  obtain ⟨l, hl⟩ := mapE_total (f := fun d : Device K => match d.soc with
    | none => (.error .typeError : Except PyErr (Ident × X K))
    | some x => .ok (Ident.node d.id, x)) (l := (s.charged F τ).devices.filter Device.isStorage) (by
      intro d hd
      rw [List.mem_filter] at hd
      obtain ⟨d0, -, rfl⟩ := List.mem_map.1 hd.1
      have h0 : d0.isStorage = true := by rw [← (charged_fields F d0).2.2.2.2.1]; exact hd.2
      rw [show d0.charged F = { d0 with soc := some (.fin (F d0.id)) } from if_pos h0]
      exact ⟨_, rfl⟩)
  exact ⟨_, bind_ok.2 ⟨l, hl, rfl⟩⟩

theorem transition_charged {k : ℕ} {F F' : ℤ → K} (hn : CleanFile n base) (hs : SimOf n (.fin t) lam s) (ht : 0 < t) (hk : 0 < k) (hq : QPKeeps c.qp)
    (hF : Follow base t (t / k) F F' s a) (h : s.transition c a = .ok (s', out)) :
    ∃ st o, (s.charged F (t / k)).transition c a = .ok ({ s'.charged F' (t / k) with state := st }, o) ∧ CostShare k o out ∧
      ((∀ d ∈ s'.devices, d.charged F' = d) → st = s'.state) := by
  have hτ : 0 < t / k := div_pos ht (by exact_mod_cast hk)
  have et : s'.deltaT = .fin t := (simOf_base (simOf_transition hs h)).2.1
  simp only [Sim.transition, bind_ok, pure_ok, Prod.exists, Prod.mk.injEq] at h
  obtain ⟨s1, h1, st, h2, r, e, pen, h3, rfl, rfl⟩ := h
  have k1 := solveStep_charged hn hs ht hτ hq hF h1
  obtain ⟨st', k2⟩ := gather_charged (τ := t / k) c.pi F' s1
  have h3' := h3
  simp only [Sim.computeReward, bind_ok, pure_ok, Prod.mk.injEq] at h3
  obtain ⟨bp, h4, rfl, rfl, rfl⟩ := h3
  have k3 : Sim.computeReward { s1.charged F' (t / k) with state := some st' } = _ := bind_ok.2 ⟨bp, h4, rfl⟩
  refine ⟨some st', _, bind_ok.2 ⟨_, k1, bind_ok.2 ⟨st', k2, bind_ok.2 ⟨_, k3, rfl⟩⟩⟩, ?_, ?_⟩
  · have e1 : (s1.charged F' (t / k)).devices.foldl Sim.eLossStep 0 * (s1.charged F' (t / k)).deltaT * .fin (k : K) = s1.devices.foldl Sim.eLossStep 0 * s1.deltaT := by
      rw [show (s1.charged F' (t / k)).devices = s1.devices.map (Device.charged F') from rfl, losses_charged, show s1.deltaT = .fin t from et]
      exact mul_share_one hk ht
    have e2 : ∀ x, x * ((s1.charged F' (t / k)).deltaT * s1.lamb) * .fin (k : K) = x * (s1.deltaT * s1.lamb) := fun x => by
      rw [show s1.deltaT = .fin t from et]
      exact mul_share hk ht
    refine ⟨rfl, e1, e2 _, ?_⟩
    refine (neg_add_share hk).trans ?_
    exact congrArg₂ (fun x y => -(x + y)) e1 (e2 _)
  · intro hall
    have e1 : s1.charged F' (t / k) = { s1 with deltaT := .fin (t / k) } := by
      unfold Sim.charged
      congr 1
      exact (List.map_congr_left hall).trans (List.map_id _)
    rw [e1] at k2
    have : s1.gatherState c.pi = .ok st' := k2
    rw [h2] at this
    injection this with this
    rw [this]

/-- The energy that a storage unit gives up in a unit of time. -/
def drainRate (eff p : K) : K := if p ≤ 0 then eff * p else p / eff

theorem laterSoc_eq (eff τ soc p : K) : laterSoc eff τ soc p = soc - τ * drainRate eff p := by
  unfold laterSoc drainRate
  split
  · ring
  · ring

/-- A storage unit that can follow its set-points for `k` short time steps can do so in every one of them. -/
theorem region_later {g : DesParams K} {soc p q : K} {k j : ℕ} (ht : 0 < τ) (he : 0 < g.eff) (hj : j < k) (hs1 : g.socMin ≤ soc) (hs2 : soc ≤ g.socMax)
    (h : DesRegion g (τ * k) soc p q) :
    (g.socMin ≤ soc - j * τ * drainRate g.eff p ∧ soc - j * τ * drainRate g.eff p ≤ g.socMax) ∧ DesRegion g τ (soc - j * τ * drainRate g.eff p) p q := by
  have hk' : (0 : K) < k := by exact_mod_cast (Nat.zero_le j).trans_lt hj
  have hj0 : (0 : K) ≤ j := by exact_mod_cast Nat.zero_le j
  have hj1 : (j : K) + 1 ≤ k := by exact_mod_cast hj
  have hc := h.charge
  have hd := h.discharge
  have hte : 0 < τ * g.eff := mul_pos ht he
  rw [div_le_iff₀ (by positivity)] at hc
  rw [le_div_iff₀ (by positivity)] at hd
  suffices H : (g.socMin ≤ soc - j * τ * drainRate g.eff p ∧ soc - j * τ * drainRate g.eff p ≤ g.socMax) ∧
      soc - j * τ * drainRate g.eff p - g.socMax ≤ p * (τ * g.eff) ∧ p * τ ≤ g.eff * (soc - j * τ * drainRate g.eff p - g.socMin) from
    ⟨H.1, ⟨h.pLo, h.pHi, h.qLo, h.qHi, h.cutHiR, h.cutLoR, h.cutHiL, h.cutLoL, by rw [div_le_iff₀ hte]; exact H.2.1, by rw [le_div_iff₀ ht]; exact H.2.2⟩⟩
  by_cases hp : p ≤ 0
  · have e : drainRate g.eff p = g.eff * p := if_pos hp
    rw [e]
    have y0 : 0 ≤ τ * g.eff * -p := mul_nonneg hte.le (neg_nonneg.2 hp)
    have y1 := mul_nonneg hj0 y0
    have y2 := mul_le_mul_of_nonneg_right hj1 y0
    have z1 : g.socMin ≤ soc - j * τ * (g.eff * p) := by linarith
    refine ⟨⟨z1, by linarith⟩, by linarith, ?_⟩
    have := mul_nonneg he.le (sub_nonneg.2 z1)
    have := mul_nonneg ht.le (neg_nonneg.2 hp)
    linarith
  · have e : drainRate g.eff p = p / g.eff := if_neg hp
    rw [e]
    have hp' := not_le.1 hp
    have y0 : 0 < τ * (p / g.eff) := by positivity
    have e1 : g.eff * (p / g.eff) = p := by field_simp
    have y1 := mul_nonneg hj0 y0.le
    have y2 := mul_le_mul_of_nonneg_right hj1 y0.le
    have y3 : τ * k * (p / g.eff) ≤ soc - g.socMin := by
      rw [← mul_le_mul_iff_right₀ he]
      calc g.eff * (τ * k * (p / g.eff)) = p * (τ * k) := by rw [show g.eff * (τ * k * (p / g.eff)) = τ * k * (g.eff * (p / g.eff)) by ring, e1]; ring
        _ ≤ _ := hd
    have z1 : j * τ * (p / g.eff) + τ * (p / g.eff) ≤ soc - g.socMin := by linarith
    refine ⟨⟨by linarith, by linarith⟩, ?_, ?_⟩
    · have := mul_pos hp' hte
      linarith
    · have := mul_le_mul_of_nonneg_left z1 he.le
      calc p * τ = g.eff * (τ * (p / g.eff)) := by rw [show g.eff * (τ * (p / g.eff)) = τ * (g.eff * (p / g.eff)) by ring, e1]; ring
        _ ≤ g.eff * (soc - j * τ * (p / g.eff) - g.socMin) := mul_le_mul_of_nonneg_left (by linarith) he.le

/-- **C128** One time step of length `t` or `k` steps of length `t / k` with the same inputs: if the storage units can follow their
set-points in the long step, then the short steps all succeed, the electrical state is the one of the long step after every short step,
every short step costs a `k`-th of the long one, and after the last one the simulator is in the same state as after the long step. -/
theorem C128_run {k : ℕ} (hn : CleanFile n base) (hs : SimOf n (.fin t) lam s) (ht : 0 < t) (hk : 0 < k) (hq : QPKeeps c.qp)
    (hf : CanFollow base t s a) (h : s.transition c a = .ok (s', out)) :
    ∀ j, 0 < j → j ≤ k → ∃ u outs, repeatTransition c a j { s with deltaT := .fin (t / k) } = .ok (u, outs) ∧ outs.length = j ∧
      (∀ o ∈ outs, CostShare k o out) ∧ SameElectrical u s' ∧ (j = k → u = { s' with deltaT := .fin (t / k) }) := by
  have hk' : (0 : K) < k := by exact_mod_cast hk
  have hb := basePos_of_simOf hn hs
  have hex : ∀ i : ℤ, ∃ E r : K, ∀ d ∈ s.devices, d.isStorage = true → d.id = i → ∃ g p q, HasDesParams d g ∧ 0 < g.eff ∧ d.soc = some (.fin E) ∧
      g.socMin ≤ E ∧ E ≤ g.socMax ∧ a.pSet.get? d.id = some (.fin p) ∧ a.qSet.get? d.id = some (.fin q) ∧ DesRegion g t E (p / base) (q / base) ∧
      r = drainRate g.eff (p / base) := by
    intro i
    by_cases hi : ∃ d ∈ s.devices, d.isStorage = true ∧ d.id = i
    · obtain ⟨d, hd, hst, rfl⟩ := hi
      obtain ⟨g, soc, p, q, g1, g2, g3, g4, g5, g6, g7, g8⟩ := hf d hd hst
      refine ⟨soc, drainRate g.eff (p / base), fun d' hd' _ he => ?_⟩
      obtain rfl := device_unique hs hd' hd he
      exact ⟨g, p, q, g1, g2, g3, g4, g5, g6, g7, g8, rfl⟩
    · exact ⟨0, 0, fun d hd h1 h2 => absurd ⟨d, hd, h1, h2⟩ hi⟩
  choose E r hE using hex
  set τ := t / k with hτe
  have hτ : 0 < τ := div_pos ht hk'
  have htk : τ * k = t := div_mul_cancel₀ t hk'.ne'
  let En : ℕ → ℤ → K := fun j i => E i - j * τ * r i
  have hfol : ∀ j < k, Follow base t τ (En j) (En (j + 1)) s a := by
    intro j hj d hd hst
    obtain ⟨g, p, q, g1, g2, g3, g4, g5, g6, g7, g8, g9⟩ := hE d.id d hd hst rfl
    have := region_later hτ g2 hj g4 g5 (by rw [htk]; exact g8)
    rw [← g9] at this
    refine ⟨g, E d.id, p, q, g1, g2, g3, ⟨g4, g5⟩, g6, g7, g8, this.1, this.2, ?_⟩
    rw [laterSoc_eq, ← g9]
    simp only [En]
    push_cast
    ring
  have hend : ∀ d ∈ s'.devices, d.charged (En k) = d := by
    intro d hd
    cases hst : d.isStorage with
    | false => exact if_neg (by simp [hst])
    | true =>
      obtain ⟨-, -, -, -, -, -, -, hsl⟩ := simOf_storage hn (simOf_transition hs h) hd hst
      obtain ⟨d1, hd1, hrel⟩ := transition_device h hd hsl
      have hid : d1.id = d.id := by rw [hrel.same]
      have hst1 : d1.isStorage = true := by rw [← hrel.same.classes.2.2.1, hst]
      obtain ⟨g, p, q, g1, g2, g3, g4, g5, g6, g7, g8, g9⟩ := hE d.id d1 hd1 hst1 hid
      have hg : HasDesParams d g := by
        rw [hrel.same]
        exact ⟨g1.1, g1.2, g1.3, g1.4, g1.5, g1.6, g1.7, g1.8, g1.9, g1.10, g1.11⟩
      rw [hid] at g6 g7
      have := (C89_storage hn hs ht hq h hd hst hg g2 hd1 hid g3 g4 g5 g6 g7 g8).2.2
      have e : d.charged (En k) = { d with soc := some (.fin (En k d.id)) } := if_pos hst
      have hpp : p / base ≤ 0 ↔ p ≤ 0 := by rw [div_le_iff₀ hb, zero_mul]
      have e2 : (if p ≤ 0 then E d.id - t * g.eff * (p / base) else E d.id - t * (p / base) / g.eff) = En k d.id := by
        simp only [En, g9, drainRate, hpp]
        rw [mul_comm (k : K) τ, htk]
        split
        · ring
        · ring
      rw [e, ← e2, ← this]
  have hrun : ∀ m j : ℕ, ∀ u : Sim K, j + (m + 1) ≤ k → u.wipe = (s.charged (En j) τ).wipe →
      ∃ st outs, repeatTransition c a (m + 1) u = .ok ({ s'.charged (En (j + (m + 1))) τ with state := st }, outs) ∧ outs.length = m + 1 ∧
        (∀ o ∈ outs, CostShare k o out) ∧ (j + (m + 1) = k → st = s'.state) := by
    intro m
    induction m with
    | zero =>
      intro j u hjm hu
      obtain ⟨st, o, h1, h2, h3⟩ := transition_charged hn hs ht hk hq (hfol j (by omega)) h
      rw [← transition_wipe, ← hu, transition_wipe] at h1
      refine ⟨st, [o], ?_, rfl, ?_, fun e => ?_⟩
      · simp only [repeatTransition]
        rw [h1]
        rfl
      · intro x hx
        rw [List.mem_singleton] at hx
        rwa [hx]
      · rw [show j + 1 = k by omega] at h3
        exact h3 hend
    | succ m ih =>
      intro j u hjm hu
      obtain ⟨st, o, h1, h2, -⟩ := transition_charged hn hs ht hk hq (hfol j (by omega)) h
      rw [← transition_wipe, ← hu, transition_wipe] at h1
      obtain ⟨st', outs, k1, k2, k3, k4⟩ := ih (j + 1) { s'.charged (En (j + 1)) τ with state := st } (by omega)
        (Eq.trans rfl (sim_wipe_charged (forget_transition h) _ _))
      rw [show j + 1 + (m + 1) = j + (m + 1 + 1) by omega] at k1 k4
      refine ⟨st', o :: outs, ?_, by rw [List.length_cons, k2], ?_, k4⟩
      · rw [repeatTransition, h1]
        simp only [bind, Except.bind]
        rw [k1]
        rfl
      · intro x hx
        rcases List.mem_cons.1 hx with rfl | hx
        · exact h2
        · exact k3 x hx
  intro j hj0 hjk
  obtain ⟨m, rfl⟩ : ∃ m, j = m + 1 := ⟨j - 1, by omega⟩
  obtain ⟨st, outs, k1, k2, k3, k4⟩ := hrun m 0 { s with deltaT := .fin τ } (by omega) (congrArg Sim.wipe (by
    unfold Sim.charged
    congr 1
    refine ((List.map_congr_left fun d hd => ?_).trans (List.map_id' _)).symm
    cases hst : d.isStorage with
    | false => exact if_neg (by simp [hst])
    | true =>
      obtain ⟨g, p, q, -, -, g3, -⟩ := hE d.id d hd hst rfl
      have e : d.charged (En 0) = { d with soc := some (.fin (En 0 d.id)) } := if_pos hst
      rw [e, show En 0 d.id = E d.id by simp [En], ← g3]))
  rw [Nat.zero_add] at k1 k4
  refine ⟨_, outs, k1, k2, k3, ⟨rfl, rfl, rfl, ?_⟩, fun e => ?_⟩
  · show List.Forall₂ _ (s'.devices.map _) s'.devices
    rw [List.forall₂_map_left_iff]
    refine List.forall₂_same.2 fun d _ => ?_
    unfold Device.charged
    split <;> rfl
  · rw [k4 e, e]
    unfold Sim.charged
    rw [(List.map_congr_left hend).trans (List.map_id' _)]

end

/-- C128 on the demo run: a quarter of an hour of charging at 40 MW, or three times five minutes. -/
example : ∃ (s1 s2 : Sim ℚ) (o : Sim.TransOut ℚ) (outs : List (Sim.TransOut ℚ)), s1.transition demoCtx (demoArgs (-40)) = .ok (s2, o) ∧
    repeatTransition demoCtx (demoArgs (-40)) 3 { s1 with deltaT := .fin (1/4 / (3 : ℕ)) } = .ok ({ s2 with deltaT := .fin (1/4 / (3 : ℕ)) }, outs) ∧
    outs.length = 3 ∧ ∀ x ∈ outs, CostShare 3 x o := by
  obtain ⟨⟨s0, s1, b, s2, o⟩, h, hp⟩ : ∃ r, (do
      let s0 ← mkSim demoNet (.fin (1/4)) (.fin 100)
      let r ← s0.reset demoCtx demoInit
      let t ← r.1.transition demoCtx (demoArgs (-40))
      pure (s0, r.1, r.2, t.1, t.2) : Except PyErr (Sim ℚ × Sim ℚ × Bool × Sim ℚ × Sim.TransOut ℚ)) = .ok r ∧
      (∀ d ∈ r.2.1.devices, d.isStorage = true → (d.id = 3 ∧ HasDesParams d desG ∧ d.soc = some (.fin (1/2)))) :=
    exOk (by decide +kernel)
  simp only [bind_ok, pure_ok] at h
  obtain ⟨s0', h0, ⟨s1', b'⟩, h1, ⟨s2', o'⟩, h2, h4⟩ := h
  simp only [Prod.mk.injEq] at h4
  obtain ⟨rfl, rfl, rfl, rfl, rfl⟩ := h4
  have hs1 := simOf_reset (simOf_mk h0) h1
  obtain ⟨u, outs, k1, k2, k3, -, k4⟩ := C128_run (k := 3) demo_clean hs1 (by norm_num) (by norm_num) demoQP_keeps (fun d hd hst => by
    obtain ⟨e1, e2, e3⟩ := hp d hd hst
    exact ⟨desG, 1/2, -40, 0, e2, by norm_num [desG], e3, by norm_num [desG], by norm_num [desG], by rw [e1]; rfl, by rw [e1]; rfl,
      by constructor <;> norm_num [desG, lineAt]⟩) h2 3 (by norm_num) le_rfl
  rw [k4 rfl] at k1
  exact ⟨_, _, _, outs, h2, k1, k2, k3⟩

end Anm
