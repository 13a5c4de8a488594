import Verif.Lemmas.Mpc

/-! # Properties of the MPC agents -/

set_option linter.unusedSectionVars false

namespace Anm
open Spec

section
variable {K ρ : Type} [Field K] [LinearOrder K] [IsStrictOrderedRing K]

/-! ### C63, C64: actions -/

theorem X.mul_pos_mono {a b : X K} {c : K} (hc : 0 < c) (h : a ≤ b) : a * .fin c ≤ b * .fin c := by
  show X.mul _ _ ≤ X.mul _ _
  cases a <;> cases b <;> simp_all [X.mul, X.sgn, X.infOf]

theorem X.mul_pos_notNan {a : X K} {c : K} (hc : 0 < c) (h : X.NotNan a) : X.NotNan (a * .fin c) := by
  show X.NotNan (X.mul _ _)
  cases a <;> simp_all [X.mul, X.sgn, X.infOf]

theorem base_pos [FloorRing K] {n : Network K} {dt lam : X K} {s : Sim K} {b : K} (h : SimOf n dt lam s)
    (hb : n.baseMVA = .fin b) : 0 < b := by
  obtain ⟨s0, h0, _⟩ := h
  obtain ⟨⟨hc, _⟩, _⟩ := mkSim_ok.1 h0
  simp only [checkNetwork, bind_ok, guardE_ok] at hc
  obtain ⟨_, hc, _⟩ := hc
  rw [hb] at hc
  exact not_le.1 hc

theorem idxOf_get {l : List ℤ} (hn : l.Nodup) {j : ℕ} {i : ℤ} (h : l[j]? = some i) : l.idxOf i = j := by
  obtain ⟨hj, rfl⟩ := List.getElem?_eq_some_iff.1 h
  exact hn.idxOf_getElem j hj

/-- The action, component by component: the planned power of the device of the slot, or zero, clipped to the
bounds. -/
theorem act_slots [FloorRing K] {c : EnvCtx K ρ} {a : EnvArgs K} {cv : Cvx K} {Y : ℕ → ℕ → K} {m : Mpc K} {e : Env K ρ}
    {pi : K} {fc : List (List (X K)) × List (List (X K))} {act : List (X K)}
    (h : AgentOf c a cv Y m e) (ha : m.act cv pi e.sim fc = .ok act) :
    ∃ v raw, Planned cv pi m e.sim fc v ∧ act = Env.clipVec raw e.actionSpace.low e.actionSpace.high ∧
      raw.length = e.actionSpace.low.length ∧ raw.length = e.actionSpace.high.length ∧
      List.Forall₂ (fun x y => if x.2 = true then
        ∃ (j : ℕ) (u : X K), e.sim.devices[j]? = some x.1 ∧ v[j]? = some u ∧ y = u * e.sim.baseMVA else y = 0) (slots e.sim) raw := by
  obtain ⟨he, g, β, n, I⟩ := agentOf_inv h
  obtain ⟨v, pg, pd, hv, h1, h2, h3, h4, h5⟩ := act_ok ha
  refine ⟨v, pg ++ pg.map (fun _ => 0) ++ pd ++ pd.map (fun _ => 0), hv, ?_, ?_, ?_, ?_⟩
  rotate_left
  · rw [← I.low]; exact h3
  · rw [← I.high]; exact h4
  · have hsort := simOf_sorted (envOf_simOf he)
    have hnd : m.deviceIds.Nodup := by
      rw [I.deviceIds]
      exact (List.pairwise_map.2 hsort).imp fun h => ne_of_lt h
    have key : ∀ (P : Device K → Bool) (l : List (X K)),
        List.Forall₂ (fun i y => ∃ x, v[m.devIdx i]? = some x ∧ y = x * m.baseMVA) ((e.sim.devices.filter P).map Device.id) l →
        List.Forall₂ (fun (x : Device K × Bool) y => if x.2 = true then
          ∃ (j : ℕ) (u : X K), e.sim.devices[j]? = some x.1 ∧ v[j]? = some u ∧ y = u * e.sim.baseMVA else y = 0)
          ((e.sim.devices.filter P).map (·, true)) l := by
      intro P l hl
      rw [List.forall₂_map_left_iff] at hl ⊢
      refine (List.forall₂_and_left _ _ |>.2 ⟨fun d hd => hd, hl⟩).imp fun d y hy => ?_
      obtain ⟨hd, x, hx, rfl⟩ := hy
      rw [if_pos rfl]
      obtain ⟨j, hj⟩ := List.mem_iff_getElem?.1 (List.mem_filter.1 hd).1
      refine ⟨j, x, hj, ?_, by rw [I.base]⟩
      have : m.devIdx d.id = j := by
        refine idxOf_get hnd ?_
        rw [I.deviceIds, List.getElem?_map, hj]; rfl
      rwa [this] at hx
    have zero : ∀ (P : Device K → Bool) (l : List (X K)), l.length = (e.sim.devices.filter P).length →
        List.Forall₂ (fun (x : Device K × Bool) y => if x.2 = true then
          ∃ (j : ℕ) (u : X K), e.sim.devices[j]? = some x.1 ∧ v[j]? = some u ∧ y = u * e.sim.baseMVA else y = 0)
          ((e.sim.devices.filter P).map (·, false)) (l.map fun _ => (0 : X K)) := by
      intro P l hl
      rw [List.forall₂_map_left_iff, List.forall₂_map_right_iff, List.forall₂_iff_get]
      exact ⟨hl.symm, fun i _ _ => by simp⟩
    rw [I.nonSlackGenIds] at h1
    rw [I.desIds] at h2
    have l1 := h1.length_eq
    have l2 := h2.length_eq
    simp only [List.length_map] at l1 l2
    exact List.rel_append (List.rel_append (List.rel_append (key _ _ h1) (zero _ _ l1.symm)) (key _ _ h2)) (zero _ _ l2.symm)
  · rw [← I.low, ← I.high]; exact h5

theorem clipVec_mem {l lo hi : List (X K)} (h1 : l.length = lo.length) (h2 : l.length = hi.length)
    (ho : List.Forall₂ (fun l h => l ≤ h) lo hi) (hn : ∀ x ∈ l, X.NotNan x) :
    (Env.clipVec l lo hi).length = lo.length ∧ List.Forall₂ (fun l x => l ≤ x) lo (Env.clipVec l lo hi) ∧
      List.Forall₂ (fun h x => x ≤ h) hi (Env.clipVec l lo hi) := by
  induction ho generalizing l with
  | nil => simp at h1; subst h1; exact ⟨rfl, .nil, .nil⟩
  | @cons a b lo hi hab _ ih =>
    cases l with
    | nil => simp at h1
    | cons x l =>
      obtain ⟨i1, i2, i3⟩ := ih (l := l) (by simpa using h1) (by simpa using h2) fun y hy => hn y (by simp [hy])
      obtain ⟨j1, j2⟩ := X.clip_mem (hn x (by simp)) hab
      refine ⟨?_, .cons j1 i2, .cons j2 i3⟩
      change (_ :: Env.clipVec l lo hi).length = _
      simp [i1]

/-- **C63** without NaN.  If the bounds of the action space are ordered and the solver does not return
NaN, the vector returned by `act` is in the action space, so that `step` does not reject it.

Missing: NaN values of the solver, see `C63_counterexample`. -/
theorem C63_action_partial [FloorRing K] {c : EnvCtx K ρ} {a : EnvArgs K} {cv : Cvx K} {Y : ℕ → ℕ → K} {m : Mpc K} {e : Env K ρ}
    {pi b : K} {fc : List (List (X K)) × List (List (X K))} {act : List (X K)}
    (h : AgentOf c a cv Y m e) (hb : a.network.baseMVA = .fin b)
    (ho : List.Forall₂ (fun l h => l ≤ h) e.actionSpace.low e.actionSpace.high)
    (hv : ∀ v, Planned cv pi m e.sim fc v → ∀ x ∈ v, X.NotNan x) (ha : m.act cv pi e.sim fc = .ok act) :
    e.actionSpace.contains act true ∧
      ∀ y, e.dyn = some y → y.terminated = false → e.step c act = e.advance c y act := by
  obtain ⟨v, raw, h1, rfl, h3, h4, h5⟩ := act_slots h ha
  obtain ⟨he, -⟩ := agentOf_inv h
  have hs := envOf_simOf he
  have hbase : e.sim.baseMVA = .fin b := by rw [(simOf_base hs).1, hb]
  have hn : ∀ x ∈ raw, X.NotNan x := by
    intro x hx
    obtain ⟨⟨d, isP⟩, _, hd⟩ := forall₂_mem_right h5 hx
    cases isP with
    | false => rw [if_neg (by simp)] at hd; rw [hd]; trivial
    | true =>
      rw [if_pos rfl] at hd
      obtain ⟨j, u, _, hu, rfl⟩ := hd
      rw [hbase]
      exact X.mul_pos_notNan (base_pos hs hb) (hv v h1 u (List.mem_of_getElem? hu))
  obtain ⟨i1, i2, i3⟩ := clipVec_mem h3 h4 ho hn
  have hc : e.actionSpace.contains (Env.clipVec raw e.actionSpace.low e.actionSpace.high) true :=
    ⟨fun _ => rfl, i1, i2, i3⟩
  refine ⟨hc, fun y hy ht => ?_⟩
  unfold Env.step
  rw [show guardE (e.actionSpace.contains (Env.clipVec raw e.actionSpace.low e.actionSpace.high) true)
    PyErr.assertionError = .ok () from guardE_ok.2 hc]
  show (match e.dyn with | none => _ | some y => _) = _
  rw [hy]
  simp [ht]

theorem clipVec_get {l lo hi : List (X K)} {j : ℕ} {x a b : X K} (h : l[j]? = some x) (h1 : lo[j]? = some a)
    (h2 : hi[j]? = some b) : (Env.clipVec l lo hi)[j]? = some (X.clip x a b) := by
  unfold Env.clipVec
  rw [List.getElem?_zipWith, h, (List.getElem?_zip_eq_some (z := (a, b))).2 ⟨h1, h2⟩]

/-- **C64.**  Device number `j` (by increasing ID) is a non-slack generator or a storage unit for which the
plan `v` is within the limits of active power, and no reactive power is within its limits.  Then the step
with the action of the agent sets it to its planned power in MW and to no reactive power. -/
theorem C64_setpoints [FloorRing K] {c : EnvCtx K ρ} {a : EnvArgs K} {cv : Cvx K} {Y : ℕ → ℕ → K} {m : Mpc K} {e e' : Env K ρ}
    {pi b : K} {fc : List (List (X K)) × List (List (X K))} {act v : List (X K)} {y : EnvDyn K} {out : Env.StepOut K}
    (h : AgentOf c a cv Y m e) (hb : a.network.baseMVA = .fin b)
    (ha : m.act cv pi e.sim fc = .ok act) (hv : Planned cv pi m e.sim fc v)
    (hy : e.dyn = some y) (ht : y.terminated = false) (hstep : e.step c act = .ok (e', out)) :
    ∃ args o, e.sim.transition c.sim args = .ok (e'.sim, o) ∧
      ∀ (j : ℕ) d u, e.sim.devices[j]? = some d → (d.isNonSlackGen = true ∨ d.isStorage = true) → v[j]? = some u →
        (d.pMin ≤ u → u ≤ d.pMax → args.pSet.get? d.id = some (u * .fin b)) ∧
        (d.qMin ≤ 0 → 0 ≤ d.qMax → args.qSet.get? d.id = some 0) := by
  obtain ⟨v', raw, h1, h2, h3, h4, h5⟩ := act_slots h ha
  have hvv : v' = v := by
    obtain ⟨soc, cs, obj, i1, i2, i3⟩ := hv
    obtain ⟨soc', cs', obj', j1, j2, j3⟩ := h1
    rw [i1] at j1; cases j1
    rw [i2] at j2; cases j2
    rw [i3] at j3; cases j3
    rfl
  subst hvv
  obtain ⟨he, -⟩ := agentOf_inv h
  have hs := envOf_simOf he
  have hbase : e.sim.baseMVA = .fin b := by rw [(simOf_base hs).1, hb]
  have hpos := base_pos hs hb
  obtain ⟨⟨hlow, hhigh⟩, hC⟩ := C45_actions he
  obtain ⟨args, o, ht, happ⟩ := hC act e' out y hstep hy ht
  refine ⟨args, o, ht, fun j d u hj hd hu => ?_⟩
  -- the components of the device
  have comp : ∀ isP, ∃ (k : ℕ) (r : X K), (slots e.sim)[k]? = some (d, isP) ∧ raw[k]? = some r ∧
      (if isP = true then r = u * .fin b else r = 0) := by
    intro isP
    have hmem : (d, isP) ∈ slots e.sim := by
      have hd' := List.mem_of_getElem? hj
      unfold slots
      simp only [List.mem_append, List.mem_map, List.mem_filter, Prod.mk.injEq]
      cases isP <;> rcases hd with hd | hd <;> simp [hd', hd]
    obtain ⟨k, hk⟩ := List.mem_iff_getElem?.1 hmem
    obtain ⟨hl, hf⟩ := List.forall₂_iff_get.1 h5
    obtain ⟨hk1, hk2⟩ := List.getElem?_eq_some_iff.1 hk
    have := hf k hk1 (hl ▸ hk1)
    refine ⟨k, raw[k]'(hl ▸ hk1), hk, List.getElem?_eq_getElem _, ?_⟩
    simp only [List.get_eq_getElem, hk2] at this
    cases isP with
    | false => simpa using this
    | true =>
      simp only [if_true] at this ⊢
      obtain ⟨j', u', g1, g2, g3⟩ := this
      have hjj : j' = j := by
        have hsort := simOf_sorted hs
        have hnd : (e.sim.devices.map Device.id).Nodup := (List.pairwise_map.2 hsort).imp fun h => ne_of_lt h
        rw [← idxOf_get hnd (j := j') (i := d.id) (by rw [List.getElem?_map, g1]; rfl),
          ← idxOf_get hnd (j := j) (i := d.id) (by rw [List.getElem?_map, hj]; rfl)]
      subst hjj
      rw [hu] at g2; cases g2
      rw [g3, hbase]
  have bounds : ∀ (k : ℕ) x, (slots e.sim)[k]? = some x → e.actionSpace.low[k]? = some (slotBounds e.sim x).1 ∧
      e.actionSpace.high[k]? = some (slotBounds e.sim x).2 := by
    intro k x hk
    rw [hlow, hhigh, List.getElem?_map, List.getElem?_map, hk]
    exact ⟨rfl, rfl⟩
  constructor
  · intro q1 q2
    obtain ⟨k, r, g1, g2, g3⟩ := comp true
    rw [if_pos rfl] at g3
    obtain ⟨b1, b2⟩ := bounds k _ g1
    obtain ⟨x, x1, x2⟩ := happ.1 k d true g1
    rw [if_pos rfl] at x2
    rw [h2, clipVec_get g2 b1 b2] at x1
    rw [x2, ← x1, g3]
    congr 1
    refine X.clip_eq_self ?_ ?_
    · simp only [slotBounds, if_true, hbase]; exact X.mul_pos_mono hpos q1
    · simp only [slotBounds, if_true, hbase]; exact X.mul_pos_mono hpos q2
  · intro q1 q2
    obtain ⟨k, r, g1, g2, g3⟩ := comp false
    rw [if_neg (by simp)] at g3
    obtain ⟨b1, b2⟩ := bounds k _ g1
    obtain ⟨x, x1, x2⟩ := happ.1 k d false g1
    rw [if_neg (by simp)] at x2
    rw [h2, clipVec_get g2 b1 b2] at x1
    rw [x2, ← x1, g3]
    have z : (0 : X K) * .fin b = 0 := by
      show X.mul _ _ = _
      simp [X.mul, X.zero_def]
    congr 1
    refine X.clip_eq_self ?_ ?_
    · simp only [slotBounds, hbase]
      rw [← z]; exact X.mul_pos_mono hpos q1
    · simp only [slotBounds, hbase]
      rw [← z]; exact X.mul_pos_mono hpos q2

end

end Anm
