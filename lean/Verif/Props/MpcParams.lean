import Verif.Props.MpcExact

/-! # C137: what the parameters and the forecasts change in the plans of the MPC agents; C138: the problem is convex -/

set_option linter.unusedSectionVars false

namespace Anm
open Spec

namespace Spec
variable {K : Type} [Field K] [LinearOrder K]

/-- The first `N` columns of a forecast. -/
def firstColumns (N : ℕ) (rows : List (List (X K))) : List (List (X K)) := rows.map (·.take N)

/-- The values of a forecast are at least those of another one, entry by entry. -/
def MoreForecast (rows rows' : List (List (X K))) : Prop := List.Forall₂ (List.Forall₂ (· ≤ ·)) rows rows'

/-- `x` is an optimal plan of the agent, of cost `v`. -/
def OptimalPlan (pi : K) (m : Mpc K) (load gen : List (List (X K))) (soc : List (X K)) (x : Plan K) (v : K) : Prop :=
  ∃ cs obj, m.problem pi load gen soc = .ok (cs, obj) ∧ (∀ c ∈ cs, c x = true) ∧ obj x = .fin v ∧
    ∀ y, (∀ c ∈ cs, c y = true) → .fin v ≤ obj y

/-- The plan between two plans, at the fraction `r` of the way. -/
def betweenPlans (r : K) (x y : Plan K) : Plan K := fun k =>
  { ang := fun i => (1 - r) * (x k).ang i + r * (y k).ang i
    p := fun i => (1 - r) * (x k).p i + r * (y k).p i
    ch := fun i => (1 - r) * (x k).ch i + r * (y k).ch i
    dis := fun i => (1 - r) * (x k).dis i + r * (y k).dis i }

end Spec

section
variable {K : Type} [Field K] [LinearOrder K] [IsStrictOrderedRing K]
variable {cv : Cvx K} {s : Sim K} {Y : ℕ → ℕ → K} {box : Box K} {g g' β β' : X K} {N N' : ℕ} {m m' : Mpc K}
variable {pi : K} {load gen load' gen' : List (List (X K))} {soc : List (X K)} {x : Plan K}

theorem mkMpc_params (h : mkMpc cv s Y box g β N = .ok m) (h' : mkMpc cv s Y box g' β' N' = .ok m') :
    m' = { m with gamma := g', margin := β', steps := N' } := by
  unfold mkMpc at h h'
  simp only [bind_ok, guardE_ok, pure_ok] at h h'
  obtain ⟨i, h1, _, _, rfl⟩ := h
  obtain ⟨i', h1', _, _, rfl⟩ := h'
  rw [h1] at h1'
  cases h1'
  rfl

theorem socAt_params (s0 : List (Expr K)) (k : ℕ) : socAt { m with gamma := g', margin := β', steps := N' } s0 k = socAt m s0 k := by
  induction k with
  | zero => rfl
  | succ k ih => rw [socAt, socAt, ih]; rfl

theorem stageInv_params {k : ℕ} {l g0 : List (X K)} {s0 : List (Expr K)} :
    StageInv pi { m with gamma := g', margin := β', steps := N' } k l g0 s0 x ↔ StageInv pi m k l g0 s0 x :=
  ⟨fun I => ⟨I.idx, I.balance, I.load, I.genMin, I.genMax, I.desMin, I.desMax, I.pot, I.links, I.socMin, I.socMax, I.angMin, I.angMax, I.ref⟩,
    fun I => ⟨I.idx, I.balance, I.load, I.genMin, I.genMax, I.desMin, I.desMax, I.pot, I.links, I.socMin, I.socMax, I.angMin, I.angMax, I.ref⟩⟩

theorem feasible_pos (h : FeasiblePlan pi m load gen soc x) : 0 < m.steps := by
  obtain ⟨cs, obj, h, hx⟩ := h
  simp only [Mpc.problem, bind_ok, guardE_ok, pure_ok] at h
  obtain ⟨_, _, _, h2, _⟩ := h
  exact Nat.pos_of_ne_zero h2

theorem feasible_stages : FeasiblePlan pi m load gen soc x ↔ 0 < m.steps ∧
    ∀ k < m.steps, StageInv pi m k (column k load) (column k gen) (socAt m (soc.map Expr.const) k) x := by
  refine ⟨fun h => ⟨feasible_pos h, fun k hk => feasible_stage h hk⟩, fun h => ?_⟩
  exact (feasible_iff (h.2 0 h.1).idx h.1).2 h.2

theorem column_first {k : ℕ} (hk : k < N) (rows : List (List (X K))) : column k (firstColumns N rows) = column k rows := by
  unfold column firstColumns
  rw [List.map_map]
  refine List.map_congr_left fun r _ => ?_
  simp [List.getD_eq_getElem?_getD, List.getElem?_take, hk]

/-- **C137** The discount factor and the safety margin do not influence which plans are feasible. -/
theorem C137_feasible (h : mkMpc cv s Y box g β N = .ok m) (h' : mkMpc cv s Y box g' β' N = .ok m') :
    FeasiblePlan pi m load gen soc x ↔ FeasiblePlan pi m' load gen soc x := by
  have e := mkMpc_params h h'
  have i := (mkMpc_ok h).steps
  rw [feasible_stages, feasible_stages, e]
  simp only [stageInv_params, socAt_params, i]

/-- **C137** Planning further ahead adds requirements: the beginning of a feasible plan for `N'` stages is a feasible plan for the first `N`
stages. -/
theorem C137_horizon (h : mkMpc cv s Y box g β N = .ok m) (h' : mkMpc cv s Y box g' β' N' = .ok m') (hN : 0 < N) (hle : N ≤ N')
    (hx : FeasiblePlan pi m' load gen soc x) : FeasiblePlan pi m (firstColumns N load) (firstColumns N gen) soc x := by
  have e := mkMpc_params h h'
  have i := (mkMpc_ok h).steps
  rw [feasible_stages] at hx ⊢
  rw [i]
  refine ⟨hN, fun k hk => ?_⟩
  have := hx.2 k (by rw [(mkMpc_ok h').steps]; omega)
  rw [e, stageInv_params, socAt_params] at this
  rwa [column_first hk, column_first hk]

theorem moreForecast_row {r r' : List (X K)} (h : List.Forall₂ (· ≤ ·) r r') : ∀ k : ℕ, r.getD k .nan ≤ r'.getD k .nan ∨ r.getD k .nan = .nan := by
  induction h with
  | nil => exact fun _ => .inr rfl
  | cons h _ ih =>
    intro k
    cases k with
    | zero => exact .inl h
    | succ k => simpa using ih k

theorem moreForecast_column {k : ℕ} (h : MoreForecast gen gen') : List.Forall₂ (fun a b => a ≤ b ∨ a = .nan) (column k gen) (column k gen') := by
  unfold column
  induction h with
  | nil => exact .nil
  | cons h _ ih => exact .cons (moreForecast_row h k) ih

theorem x_le_trans {a b c : X K} (h : a ≤ b) (h' : b ≤ c) : a ≤ c := X.le_trans' h h'

/-- **C137** Higher forecasts of what the generators can produce allow more plans. -/
theorem C137_potential (hg : MoreForecast gen gen') (hx : FeasiblePlan pi m load gen soc x) : FeasiblePlan pi m load gen' soc x := by
  rw [feasible_stages] at hx ⊢
  refine ⟨hx.1, fun k hk => ?_⟩
  have I := hx.2 k hk
  refine ⟨I.idx, I.balance, I.load, I.genMin, I.genMax, I.desMin, I.desMax, ?_, I.links, I.socMin, I.socMax, I.angMin, I.angMax, I.ref⟩
  have hc := moreForecast_column (k := k) hg
  rw [leConstrs_iff]
  intro i a b ha hb
  rw [List.getElem?_map, Option.map_eq_some_iff] at hb
  obtain ⟨v, hv, rfl⟩ := hb
  have hi : i < (column k gen').length := (List.getElem?_eq_some_iff.1 hv).1
  have hi' : i < (column k gen).length := by rw [hc.length_eq]; exact hi
  have h1 := (leConstrs_iff.1 I.pot) i a (Expr.const (column k gen)[i]) ha (by simp [hi'])
  have h2 := (List.forall₂_iff_get.1 hc).2 i hi' hi
  rw [List.getElem?_eq_getElem hi] at hv
  cases hv
  simp only [List.get_eq_getElem] at h2
  rcases h2 with h2 | h2
  · exact x_le_trans h1 h2
  · rw [Expr.const, h2] at h1
    cases hax : a x <;> rw [hax] at h1 <;> exact absurd h1 (by simp)

/-- The objective depends on the plan only, not on the forecasts. -/
theorem stages_objective : ∀ (n k : ℕ) {soc soc' : List (Expr K)} {cs cs' : List (Constr K)} {obj obj' : Expr K},
    m.stages pi load gen k n soc = .ok (cs, obj) → m.stages pi load' gen' k n soc' = .ok (cs', obj') → obj' = obj := by
  intro n
  induction n with
  | zero =>
    intro k soc soc' cs cs' obj obj' h h'
    simp only [Mpc.stages, Except.ok.injEq, Prod.mk.injEq] at h h'
    rw [← h.2, ← h'.2]
  | succ n ih =>
    intro k soc soc' cs cs' obj obj' h h'
    simp only [Mpc.stages, bind_ok, pure_ok] at h h'
    obtain ⟨c1, g1, ⟨c2, o2⟩, g2, h⟩ := h
    obtain ⟨c1', g1', ⟨c2', o2'⟩, g2', h'⟩ := h'
    cases h
    cases h'
    rw [ih (k + 1) g2 g2']

theorem problem_objective {soc' : List (X K)} {cs cs' : List (Constr K)} {obj obj' : Expr K} (h : m.problem pi load gen soc = .ok (cs, obj))
    (h' : m.problem pi load' gen' soc' = .ok (cs', obj')) : obj' = obj := by
  simp only [Mpc.problem, bind_ok, guardE_ok, pure_ok] at h h'
  obtain ⟨⟨c, o⟩, h1, _, _, h2⟩ := h
  obtain ⟨⟨c', o'⟩, h1', _, _, h2'⟩ := h'
  cases h2
  cases h2'
  exact stages_objective m.steps 0 h1 h1'

/-- **C137** Higher forecasts of what the generators can produce never make the best plan more costly. -/
theorem C137_potential_cost {x' : Plan K} {v v' : K} (hg : MoreForecast gen gen') (h : OptimalPlan pi m load gen soc x v)
    (h' : OptimalPlan pi m load gen' soc x' v') : v' ≤ v := by
  obtain ⟨cs, obj, h1, h2, h3, h4⟩ := h
  obtain ⟨cs', obj', k1, k2, k3, k4⟩ := h'
  obtain ⟨cs2, obj2, l1, l2⟩ := C137_potential hg ⟨cs, obj, h1, h2⟩
  rw [k1] at l1
  cases l1
  have e := problem_objective h1 k1
  have := k4 x l2
  rw [e, h3] at this
  simpa using this

end

section
variable {n : Network ℝ} {dt lam : X ℝ} {s : Sim ℝ} {cv : Cvx ℝ} {box : Box ℝ} {γ β : X ℝ} {N : ℕ} {m m' : Mpc ℝ}
  {load gen : List (List (X ℝ))} {x y : Plan ℝ} {ls : List LineC}

theorem sum_le_map {α : Type} {f g : α → ℝ} : ∀ {l : List α}, (∀ a ∈ l, f a ≤ g a) → (l.map f).sum ≤ (l.map g).sum := by
  intro l
  induction l with
  | nil => intro _; simp
  | cons a l ih =>
    intro h
    simp only [List.map_cons, List.sum_cons]
    exact add_le_add (h a (by simp)) (ih fun b hb => h b (by simp [hb]))

theorem stageCost_margin {l0 b b' : ℝ} {rate : LineC → Option ℝ} (hl0 : 0 ≤ l0) (hbb : b ≤ b') (hr0 : ∀ l ∈ ls, ∀ r, rate l = some r → 0 ≤ r) (k : ℕ) :
    stageCost s ls l0 b' rate x k ≤ stageCost s ls l0 b rate x k := by
  unfold stageCost
  refine add_le_add le_rfl (mul_le_mul_of_nonneg_left (sum_le_map fun l hl => ?_) hl0)
  cases hr : rate l with
  | none => exact le_rfl
  | some r =>
    have := mul_le_mul_of_nonneg_right hbb (hr0 l hl r hr)
    exact max_le_max le_rfl (by linarith)

/-- **C137** A safety margin that allows more of the branch limits never makes the best plan more costly: the same plans are feasible, and
each of them costs no more. -/
theorem C137_margin {base g b b' l0 : ℝ} {M : ℕ} (hn : CleanFile n base) (hs : SimOf n dt (.fin l0) s) (hM : Numbered s M)
    (hf : FiniteLines s ls) (hl : ∀ l ∈ ls, l.shiftDeg = 0)
    (hm : mkMpc cv s (bBus ls) box (.fin g) (.fin b) N = .ok m) (hm' : mkMpc cv s (bBus ls) box (.fin g) (.fin b') N = .ok m')
    (hb : 0 < b) (hbb : b ≤ b') (hg : 0 ≤ g) (hl0 : 0 ≤ l0) (rate : LineC → Option ℝ)
    (hr : List.Forall₂ (fun (br : Branch ℝ) l => br.line.rate = (rate l).elim .pinf .fin) s.branches ls)
    (hr0 : ∀ l ∈ ls, ∀ r, rate l = some r → 0 ≤ r)
    {pi : ℝ} {soc : List (X ℝ)} {x' : Plan ℝ} {v v' : ℝ} (h : OptimalPlan pi m load gen soc x v)
    (h' : OptimalPlan pi m' load gen soc x' v') : v' ≤ v := by
  obtain ⟨cs, obj, h1, h2, h3, h4⟩ := h
  obtain ⟨cs', obj', k1, k2, k3, k4⟩ := h'
  obtain ⟨cs2, obj2, l1, l2⟩ := (C137_feasible hm hm').1 ⟨cs, obj, h1, h2⟩
  rw [k1] at l1
  cases l1
  have a := k4 x l2
  rw [C80_objective hn hs hM hf hl hm' (hb.trans_le hbb) rate hr k1 x] at a
  rw [C80_objective hn hs hM hf hl hm hb rate hr h1 x] at h3
  have h3 := X.fin.inj h3
  rw [X.fin_le_fin] at a
  rw [← h3]
  exact a.trans (Finset.sum_le_sum fun k _ => mul_le_mul_of_nonneg_left (stageCost_margin hl0 hbb hr0 k) (pow_nonneg hg k))

/-! ### Convexity -/

theorem between_ge {a : X ℝ} {u v r : ℝ} (h0 : 0 ≤ r) (h1 : r ≤ 1) (hu : a ≤ .fin u) (hv : a ≤ .fin v) : a ≤ .fin ((1 - r) * u + r * v) := by
  cases a with
  | fin w =>
    simp only [X.fin_le_fin] at hu hv ⊢
    nlinarith
  | _ => simp_all

theorem between_le {a : X ℝ} {u v r : ℝ} (h0 : 0 ≤ r) (h1 : r ≤ 1) (hu : .fin u ≤ a) (hv : .fin v ≤ a) : .fin ((1 - r) * u + r * v) ≤ a := by
  cases a with
  | fin w =>
    simp only [X.fin_le_fin] at hu hv ⊢
    nlinarith
  | _ => simp_all

theorem plannedSoc_between {r : ℝ} {i : ℕ} {δ η z : ℝ} (k : ℕ) : plannedSoc (betweenPlans r x y) i δ η z k =
    (1 - r) * plannedSoc x i δ η z k + r * plannedSoc y i δ η z k := by
  induction k with
  | zero => simp only [plannedSoc]; ring
  | succ k ih => simp only [plannedSoc, ih, betweenPlans]; ring

theorem dcLeaving_between {r : ℝ} (θ θ' : ℤ → ℝ) (i : ℤ) : dcLeaving ls (fun j => (1 - r) * θ j + r * θ' j) i =
    (1 - r) * dcLeaving ls θ i + r * dcLeaving ls θ' i := by
  unfold dcLeaving dcLine
  induction ls with
  | nil => simp
  | cons l ls ih =>
    simp only [List.map_cons, List.sum_cons] at ih ⊢
    rw [ih]
    split_ifs <;> ring

theorem busInjection_between {r : ℝ} (k : ℕ) (i : ℤ) : busInjection s (betweenPlans r x y) k i =
    (1 - r) * busInjection s x k i + r * busInjection s y k i := by
  unfold busInjection
  rw [Finset.mul_sum, Finset.mul_sum, ← Finset.sum_add_distrib]
  refine Finset.sum_congr rfl fun j _ => ?_
  split_ifs
  · rfl
  · ring

theorem planAt_between {r δ : ℝ} {soc : List ℝ} {k : ℕ} (h0 : 0 ≤ r) (h1 : r ≤ 1) (hx : PlanAt s ls δ load gen soc x k)
    (hy : PlanAt s ls δ load gen soc y k) : PlanAt s ls δ load gen soc (betweenPlans r x y) k := by
  refine ⟨?_, ?_, ?_, ?_, ?_, ?_, ?_⟩
  · intro b hb
    rw [busInjection_between, hx.flow b hb, hy.flow b hb]
    exact (dcLeaving_between _ _ _).symm
  · intro i j d row v a1 a2 a3 a4
    have e1 := hx.load i j d row v a1 a2 a3 a4
    have e2 := hy.load i j d row v a1 a2 a3 a4
    rw [e1] at e2
    have e2 : power x k j = power y k j := X.fin.inj e2
    rw [e1]
    congr 1
    show _ = (1 - r) * power x k j + r * power y k j
    rw [← e2]
    ring
  · intro i j d row v a1 a2 a3 a4
    obtain ⟨u1, u2, u3⟩ := hx.gen i j d row v a1 a2 a3 a4
    obtain ⟨w1, w2, w3⟩ := hy.gen i j d row v a1 a2 a3 a4
    exact ⟨between_ge h0 h1 u1 w1, between_le h0 h1 u2 w2, between_le h0 h1 u3 w3⟩
  · intro i j d a1 a2
    obtain ⟨u1, u2, u3, u4, u5⟩ := hx.des i j d a1 a2
    obtain ⟨w1, w2, w3, w4, w5⟩ := hy.des i j d a1 a2
    refine ⟨between_ge h0 h1 u1 w1, between_le h0 h1 u2 w2, ?_, ?_, ?_⟩
    · exact add_nonneg (mul_nonneg (by linarith) u3) (mul_nonneg h0 w3)
    · exact add_nonneg (mul_nonneg (by linarith) u4) (mul_nonneg h0 w4)
    · show (1 - r) * power x k j + r * power y k j = _
      rw [u5, w5]
      simp only [betweenPlans]
      ring
  · intro i d z η a1 a2 a3
    obtain ⟨u1, u2⟩ := hx.soc i d z η a1 a2 a3
    obtain ⟨w1, w2⟩ := hy.soc i d z η a1 a2 a3
    rw [plannedSoc_between]
    exact ⟨between_ge h0 h1 u1 w1, between_le h0 h1 u2 w2⟩
  · intro j hj
    obtain ⟨u1, u2⟩ := hx.ang j hj
    obtain ⟨w1, w2⟩ := hy.ang j hj
    constructor <;> simp only [angle, betweenPlans] at * <;> nlinarith
  · intro j d a1 a2
    have u := hx.ref j d a1 a2
    have w := hy.ref j d a1 a2
    simp only [angle, betweenPlans] at *
    rw [u, w]
    ring

theorem excess_between {r a b c : ℝ} (h0 : 0 ≤ r) (h1 : r ≤ 1) : max 0 (|(1 - r) * a + r * b| - c) ≤ (1 - r) * max 0 (|a| - c) + r * max 0 (|b| - c) := by
  have k1 : |(1 - r) * a + r * b| ≤ (1 - r) * |a| + r * |b| := by
    refine (abs_add_le _ _).trans (le_of_eq ?_)
    rw [abs_mul, abs_mul, abs_of_nonneg h0, abs_of_nonneg (by linarith : (0:ℝ) ≤ 1 - r)]
  refine max_le (add_nonneg (mul_nonneg (by linarith) (le_max_left _ _)) (mul_nonneg h0 (le_max_left _ _))) ?_
  have k2 := mul_le_mul_of_nonneg_left (le_max_right 0 (|a| - c)) (by linarith : (0:ℝ) ≤ 1 - r)
  have k3 := mul_le_mul_of_nonneg_left (le_max_right 0 (|b| - c)) h0
  linarith

theorem sum_between {α : Type} {f g h : α → ℝ} {r : ℝ} : ∀ {l : List α}, (∀ a ∈ l, f a ≤ (1 - r) * g a + r * h a) →
    (l.map f).sum ≤ (1 - r) * (l.map g).sum + r * (l.map h).sum := by
  intro l
  induction l with
  | nil => intro _; simp
  | cons a l ih =>
    intro k
    simp only [List.map_cons, List.sum_cons]
    have k1 := k a (by simp)
    have k2 := ih fun b hb => k b (by simp [hb])
    linarith

theorem stageCost_between {r l0 b : ℝ} {rate : LineC → Option ℝ} (h0 : 0 ≤ r) (h1 : r ≤ 1) (hl0 : 0 ≤ l0) (k : ℕ) :
    stageCost s ls l0 b rate (betweenPlans r x y) k ≤ (1 - r) * stageCost s ls l0 b rate x k + r * stageCost s ls l0 b rate y k := by
  unfold stageCost
  have e : (∑ j ∈ Finset.range s.devices.length, if (s.devices[j]?).map Device.kind = some .classical then power (betweenPlans r x y) k j else 0) =
      (1 - r) * (∑ j ∈ Finset.range s.devices.length, if (s.devices[j]?).map Device.kind = some .classical then power x k j else 0) +
      r * (∑ j ∈ Finset.range s.devices.length, if (s.devices[j]?).map Device.kind = some .classical then power y k j else 0) := by
    rw [Finset.mul_sum, Finset.mul_sum, ← Finset.sum_add_distrib]
    refine Finset.sum_congr rfl fun j _ => ?_
    split_ifs
    · rfl
    · ring
  rw [e]
  have := mul_le_mul_of_nonneg_left (sum_between (r := r) (l := ls)
    (f := fun l => (rate l).elim 0 fun q => max 0 (|dcLine l (angle (betweenPlans r x y) k l.fBus.toNat - angle (betweenPlans r x y) k l.tBus.toNat)| - b * q))
    (g := fun l => (rate l).elim 0 fun q => max 0 (|dcLine l (angle x k l.fBus.toNat - angle x k l.tBus.toNat)| - b * q))
    (h := fun l => (rate l).elim 0 fun q => max 0 (|dcLine l (angle y k l.fBus.toNat - angle y k l.tBus.toNat)| - b * q)) (by
      intro l _
      cases hq : rate l with
      | none => simp
      | some q =>
        simp only [Option.elim]
        refine le_trans (le_of_eq ?_) (excess_between h0 h1)
        congr 3
        simp only [dcLine, angle, betweenPlans]
        ring)) hl0
  linarith

/-- **C138** The feasible plans of an MPC agent form a convex set. -/
theorem C138_feasible {base δ : ℝ} {M : ℕ} {soc : List ℝ} (hn : CleanFile n base) (hd : Documented n) (hs : SimOf n (.fin δ) lam s)
    (hM : Numbered s M) (hf : FiniteLines s ls) (hl : ∀ l ∈ ls, l.shiftDeg = 0)
    (hm : mkMpc cv s (bBus ls) box γ β N = .ok m) (hN : 0 < N)
    {j0 : ℕ} {d0 : Device ℝ} (hj0 : s.devices[j0]? = some d0) (hd0 : d0.isSlack = true) (hlt : j0 < s.buses.length)
    (hload' : ∀ r ∈ load, r.length = N)
    (hgen : gen.length = (s.devices.filter fun d => (d.kind = .classical ∨ d.kind = .renewable) ∧ d.isSlack = false).length)
    (hgen' : ∀ r ∈ gen, r.length = N)
    (hsoc : soc.length = (s.devices.filter fun d => d.kind = .storage).length)
    (heff : ∀ d ∈ s.devices, d.kind = .storage → ∃ η, d.eff = .fin η ∧ η ≠ 0) {r : ℝ} (h0 : 0 ≤ r) (h1 : r ≤ 1)
    (hx : FeasiblePlan Real.pi m load gen (soc.map .fin) x) (hy : FeasiblePlan Real.pi m load gen (soc.map .fin) y) :
    FeasiblePlan Real.pi m load gen (soc.map .fin) (betweenPlans r x y) := by
  have key := C81_feasible_iff hn hd hs hM hf hl hm hN hj0 hd0 hlt hload' hgen hgen' hsoc heff
  rw [key] at hx hy ⊢
  exact fun k hk => planAt_between h0 h1 (hx k hk) (hy k hk)

/-- **C138** The objective of an MPC agent is convex. -/
theorem C138_cost {base g b l0 : ℝ} {M : ℕ} (hn : CleanFile n base) (hs : SimOf n dt (.fin l0) s) (hM : Numbered s M)
    (hf : FiniteLines s ls) (hl : ∀ l ∈ ls, l.shiftDeg = 0)
    (hm : mkMpc cv s (bBus ls) box (.fin g) (.fin b) N = .ok m) (hb : 0 < b) (hg : 0 ≤ g) (hl0 : 0 ≤ l0) (rate : LineC → Option ℝ)
    (hr : List.Forall₂ (fun (br : Branch ℝ) l => br.line.rate = (rate l).elim .pinf .fin) s.branches ls)
    {pi : ℝ} {soc : List (X ℝ)} {cs : List (Constr ℝ)} {obj : Expr ℝ}
    (hp : m.problem pi load gen soc = .ok (cs, obj)) {r : ℝ} (h0 : 0 ≤ r) (h1 : r ≤ 1) (x y : Plan ℝ) :
    ∃ u v w, obj x = .fin u ∧ obj y = .fin v ∧ obj (betweenPlans r x y) = .fin w ∧ w ≤ (1 - r) * u + r * v := by
  have key := C80_objective hn hs hM hf hl hm hb rate hr hp
  refine ⟨_, _, _, key x, key y, key _, ?_⟩
  rw [Finset.mul_sum, Finset.mul_sum, ← Finset.sum_add_distrib]
  refine Finset.sum_le_sum fun k _ => ?_
  have := mul_le_mul_of_nonneg_left (stageCost_between (s := s) (ls := ls) (x := x) (y := y) (b := b) (rate := rate) h0 h1 hl0 k) (pow_nonneg hg k)
  linarith

/-- **C138** There are no merely local optima: on the way from a feasible plan to a cheaper feasible plan, every plan is feasible and cheaper. -/
theorem C138_no_local {base δ g b l0 : ℝ} {M : ℕ} {soc : List ℝ} (hn : CleanFile n base) (hd : Documented n) (hs : SimOf n (.fin δ) (.fin l0) s)
    (hM : Numbered s M) (hf : FiniteLines s ls) (hl : ∀ l ∈ ls, l.shiftDeg = 0)
    (hm : mkMpc cv s (bBus ls) box (.fin g) (.fin b) N = .ok m) (hN : 0 < N) (hb : 0 < b) (hg : 0 ≤ g) (hl0 : 0 ≤ l0)
    {j0 : ℕ} {d0 : Device ℝ} (hj0 : s.devices[j0]? = some d0) (hd0 : d0.isSlack = true) (hlt : j0 < s.buses.length)
    (hload' : ∀ r ∈ load, r.length = N)
    (hgen : gen.length = (s.devices.filter fun d => (d.kind = .classical ∨ d.kind = .renewable) ∧ d.isSlack = false).length)
    (hgen' : ∀ r ∈ gen, r.length = N)
    (hsoc : soc.length = (s.devices.filter fun d => d.kind = .storage).length)
    (heff : ∀ d ∈ s.devices, d.kind = .storage → ∃ η, d.eff = .fin η ∧ η ≠ 0) (rate : LineC → Option ℝ)
    (hr : List.Forall₂ (fun (br : Branch ℝ) l => br.line.rate = (rate l).elim .pinf .fin) s.branches ls)
    {cs : List (Constr ℝ)} {obj : Expr ℝ} (hp : m.problem Real.pi load gen (soc.map .fin) = .ok (cs, obj))
    (hx : ∀ c ∈ cs, c x = true) (hy : ∀ c ∈ cs, c y = true) {u v : ℝ} (hu : obj x = .fin u) (hv : obj y = .fin v) (huv : v < u)
    {r : ℝ} (h0 : 0 < r) (h1 : r ≤ 1) :
    (∀ c ∈ cs, c (betweenPlans r x y) = true) ∧ ∃ w, obj (betweenPlans r x y) = .fin w ∧ w < u := by
  obtain ⟨cs2, obj2, e1, e2⟩ := C138_feasible hn hd hs hM hf hl hm hN hj0 hd0 hlt hload' hgen hgen' hsoc heff h0.le h1
    ⟨cs, obj, hp, hx⟩ ⟨cs, obj, hp, hy⟩
  rw [hp] at e1
  cases e1
  obtain ⟨u', v', w, k1, k2, k3, k4⟩ := C138_cost hn hs hM hf hl hm hb hg hl0 rate hr hp h0.le h1 x y
  rw [hu] at k1
  rw [hv] at k2
  cases k1
  cases k2
  exact ⟨e2, w, k3, by nlinarith⟩

end

end Anm
