import Verif.Props.MpcPlan

/-! # C80, C81: the optimisation problem of the MPC agents, exactly -/

set_option linter.unusedSectionVars false

namespace Anm
open Spec

section
variable {K : Type} [Field K] [LinearOrder K] [IsStrictOrderedRing K] {x : Plan K}

theorem leConstrs_iff {l l' : List (Expr K)} : (∀ c ∈ leConstrs l l', c x = true) ↔
    ∀ (i : ℕ) a b, l[i]? = some a → l'[i]? = some b → a x ≤ b x := by
  refine ⟨fun h i a b => leConstrs_get h, fun h c hc => ?_⟩
  obtain ⟨i, hi⟩ := List.mem_iff_getElem?.1 hc
  unfold leConstrs at hi
  rw [List.getElem?_zipWith] at hi
  cases ha : l[i]? <;> cases hb : l'[i]? <;> rw [ha, hb] at hi <;> simp only [reduceCtorEq, Option.some.injEq] at hi
  rw [← hi]
  simpa [Expr.le] using h i _ _ ha hb

theorem eqConstrs_iff {l l' : List (Expr K)} : (∀ c ∈ eqConstrs l l', c x = true) ↔
    ∀ (i : ℕ) a b, l[i]? = some a → l'[i]? = some b → X.feq (a x) (b x) := by
  refine ⟨fun h i a b => eqConstrs_get h, fun h c hc => ?_⟩
  obtain ⟨i, hi⟩ := List.mem_iff_getElem?.1 hc
  unfold eqConstrs at hi
  rw [List.getElem?_zipWith] at hi
  cases ha : l[i]? <;> cases hb : l'[i]? <;> rw [ha, hb] at hi <;> simp only [reduceCtorEq, Option.some.injEq] at hi
  rw [← hi]
  simpa [Expr.eq] using h i _ _ ha hb

theorem constraints_iff {pi : K} {m : Mpc K} {k : ℕ} {load gen : List (X K)} {soc : List (Expr K)} {cs : List (Constr K)}
    (h : m.constraints pi k load gen soc = .ok cs) : (∀ c ∈ cs, c x = true) ↔ StageInv pi m k load gen soc x := by
  refine ⟨constraints_ok h, fun I => ?_⟩
  simp only [Mpc.constraints, bind_ok, guardE_ok, pure_ok] at h
  obtain ⟨_, h1, rfl⟩ := h
  simp only [List.mem_append, or_imp, forall_and, List.mem_singleton, forall_eq]
  refine ⟨⟨⟨⟨⟨⟨⟨⟨⟨⟨⟨⟨I.balance, I.load⟩, I.genMin⟩, I.genMax⟩, I.desMin⟩, I.desMax⟩, I.pot⟩, I.links⟩, I.socMin⟩, I.socMax⟩,
    I.angMin⟩, I.angMax⟩, ?_⟩
  simpa [Expr.eq, Mpc.ang, Expr.const, X.zero_def] using I.ref

theorem stages_iff {pi : K} {m : Mpc K} {load gen : List (List (X K))} {s0 : List (Expr K)} :
    ∀ (n k : ℕ) {cs : List (Constr K)} {obj : Expr K}, m.stages pi load gen k n (socAt m s0 k) = .ok (cs, obj) →
      ((∀ c ∈ cs, c x = true) ↔ ∀ j, k ≤ j → j < k + n →
        StageInv pi m j (column j load) (column j gen) (socAt m s0 j) x) := by
  intro n
  induction n with
  | zero =>
    intro k cs obj h
    simp only [Mpc.stages, Except.ok.injEq, Prod.mk.injEq] at h
    rw [← h.1]
    refine ⟨fun _ j h1 h2 => by omega, fun _ c hc => by simp at hc⟩
  | succ n ih =>
    intro k cs obj h
    refine ⟨stages_ok (n + 1) k h, fun hI => ?_⟩
    simp only [Mpc.stages, bind_ok, pure_ok] at h
    obtain ⟨c1, g1, ⟨c2, o2⟩, g2, h⟩ := h
    cases h
    intro c hc
    rcases List.mem_append.1 hc with hc | hc
    · exact (constraints_iff g1).2 (hI k le_rfl (by omega)) c hc
    · exact (ih (k + 1) g2).2 (fun j h1 h2 => hI j (by omega) (by omega)) c hc

theorem stages_total {pi : K} {m : Mpc K} {load gen : List (List (X K))} (h : m.devIdx m.slackDevId < m.nBus) :
    ∀ (n k : ℕ) (soc : List (Expr K)), ∃ cs obj, m.stages pi load gen k n soc = .ok (cs, obj) := by
  intro n
  induction n with
  | zero => intro k soc; exact ⟨_, _, rfl⟩
  | succ n ih =>
    intro k soc
    obtain ⟨cs, obj, e⟩ := ih (k + 1) (m.newSocs k soc)
    simp [Mpc.stages, Mpc.constraints, guardE, h, e, bind, Except.bind, pure, Except.pure]

/-- The feasible plans are those that satisfy the constraints of every stage. -/
theorem feasible_iff {pi : K} {m : Mpc K} {load gen : List (List (X K))} {soc : List (X K)}
    (hi : m.devIdx m.slackDevId < m.nBus) (hN : 0 < m.steps) : FeasiblePlan pi m load gen soc x ↔
    ∀ k < m.steps, StageInv pi m k (column k load) (column k gen) (socAt m (soc.map Expr.const) k) x := by
  refine ⟨fun h k hk => feasible_stage h hk, fun h => ?_⟩
  obtain ⟨cs, obj, e⟩ := stages_total (pi := pi) (load := load) (gen := gen) hi m.steps 0 (soc.map .const)
  refine ⟨cs, obj, ?_, (stages_iff m.steps 0 e).2 fun j _ hj => h j (by omega)⟩
  simp only [Mpc.problem, bind_ok, guardE_ok, pure_ok]
  exact ⟨_, e, (), hN.ne', rfl⟩

/-- The objective is the sum of the discounted costs. -/
theorem stages_obj {pi : K} {m : Mpc K} {load gen : List (List (X K))} {g : K} {f : ℕ → K} (hg : m.gamma = .fin g)
    (hc : ∀ k, m.cost k x = .fin (f k)) : ∀ (n k : ℕ) (soc : List (Expr K)) {cs : List (Constr K)} {obj : Expr K},
    m.stages pi load gen k n soc = .ok (cs, obj) → obj x = .fin (∑ j ∈ Finset.range n, g ^ (k + j) * f (k + j)) := by
  have hpow : ∀ j, Mpc.pow m.gamma j = .fin (g ^ j) := by
    intro j
    induction j with
    | zero => rw [Mpc.pow, pow_zero]
    | succ j ih => rw [Mpc.pow, ih, hg, X.fin_mul_fin, pow_succ]
  intro n
  induction n with
  | zero =>
    intro k soc cs obj h
    simp only [Mpc.stages, Except.ok.injEq, Prod.mk.injEq] at h
    rw [← h.2]
    rfl
  | succ n ih =>
    intro k soc cs obj h
    simp only [Mpc.stages, bind_ok, pure_ok] at h
    obtain ⟨c1, g1, ⟨c2, o2⟩, g2, h⟩ := h
    cases h
    show Expr.mul _ _ x + o2 x = _
    rw [ih (k + 1) _ g2, Expr.mul, Expr.const, hpow, hc, X.fin_mul_fin, X.fin_add_fin,
      Finset.sum_range_succ', add_comm]
    congr 2
    refine Finset.sum_congr rfl fun j _ => ?_
    rw [show k + 1 + j = k + (j + 1) by omega]

end

section

variable {n : Network ℝ} {dt lam : X ℝ} {s : Sim ℝ} {cv : Cvx ℝ} {box : Box ℝ} {γ β : X ℝ} {N : ℕ} {m : Mpc ℝ}
  {load gen : List (List (X ℝ))} {soc : List ℝ} {x : Plan ℝ} {ls : List LineC}

/-- The power of the conventional generators. -/
theorem cost_gen {Y : ℕ → ℕ → ℝ} (hs : SimOf n dt lam s) (I : MpcInv cv s Y box γ β N m) (k : ℕ) :
    Expr.sum ((m.genIds.filter fun i => i ∉ m.genRerIds).map (m.pOf k)) x =
      .fin (∑ j ∈ Finset.range s.devices.length,
        if (s.devices[j]?).map Device.kind = some .classical then power x k j else 0) := by
  have hnd : (s.devices.map Device.id).Nodup := (List.pairwise_map.2 (simOf_sorted hs)).imp fun h => ne_of_lt h
  have e1 : (m.genIds.filter fun i => i ∉ m.genRerIds) =
      (s.devices.filter fun d => d.kind = .classical).map Device.id := by
    rw [I.genIds, I.genRerIds, List.filter_map, List.filter_filter]
    congr 1
    refine List.filter_congr fun d hd => ?_
    have : d.id ∈ ((s.devices.filter Device.isRenewable).map Device.id) ↔ d.kind = .renewable := by
      rw [List.mem_map]
      constructor
      · rintro ⟨d', hd', he⟩
        rw [List.mem_filter] at hd'
        have := List.inj_on_of_nodup_map hnd hd'.1 hd he
        rw [← this]
        simpa [Device.isRenewable] using hd'.2
      · intro h
        exact ⟨d, List.mem_filter.2 ⟨hd, by simp [Device.isRenewable, h]⟩, rfl⟩
    simp only [Function.comp, this, Device.isGen]
    cases d.kind <;> simp
  rw [e1, List.map_map, expr_sum (g := fun d : Device ℝ => (x k).p (m.devIdx d.id)) _ fun d _ => rfl]
  congr 1
  have e2 : ((s.devices.filter fun d => d.kind = .classical).map fun d : Device ℝ => (x k).p (m.devIdx d.id)).sum =
      (s.devices.map fun d : Device ℝ => if d.kind = .classical then (x k).p (m.devIdx d.id) else 0).sum := by
    generalize s.devices = ds
    induction ds with
    | nil => rfl
    | cons d ds ih =>
      rw [List.filter_cons, List.map_cons, List.sum_cons]
      by_cases h : d.kind = .classical
      · simp [h, ih]
      · simp [h, ih]
  rw [e2]
  have e3 : (s.devices.map fun d : Device ℝ => if d.kind = .classical then (x k).p (m.devIdx d.id) else 0) =
      (List.range s.devices.length).map fun j =>
        if (s.devices[j]?).map Device.kind = some .classical then power x k j else 0 := by
    refine List.ext_getElem (by simp) fun j h1 h2 => ?_
    have hj : j < s.devices.length := by simpa using h1
    have hj' : s.devices[j]? = some s.devices[j] := List.getElem?_eq_getElem hj
    simp only [List.getElem_map, List.getElem_range, hj', Option.map_some, Option.some.injEq,
      devIdx_get hs I hj', power]
  rw [e3]
  rfl

/-- **C80.**  The problem given to the solver minimises the sum over the stages of the discounted costs: the
power of the conventional generators and `lam` times the violations of the derated branch limits, with the DC flows
of the lines. -/
theorem C80_objective {base g b l0 : ℝ} {M : ℕ} (hn : CleanFile n base) (hs : SimOf n dt (.fin l0) s) (hM : Numbered s M)
    (hf : FiniteLines s ls) (hl : ∀ l ∈ ls, l.shiftDeg = 0)
    (hm : mkMpc cv s (bBus ls) box (.fin g) (.fin b) N = .ok m) (hb : 0 < b)
    (rate : LineC → Option ℝ)
    (hr : List.Forall₂ (fun (br : Branch ℝ) l => br.line.rate = (rate l).elim .pinf .fin) s.branches ls)
    {pi : ℝ} {soc : List (X ℝ)} {cs : List (Constr ℝ)} {obj : Expr ℝ}
    (hp : m.problem pi load gen soc = .ok (cs, obj)) (x : Plan ℝ) :
    obj x = .fin (∑ k ∈ Finset.range N, g ^ k * stageCost s ls l0 b rate x k) := by
  have I := mkMpc_ok hm
  simp only [Mpc.problem, bind_ok, guardE_ok, pure_ok] at hp
  obtain ⟨⟨c, o⟩, h1, _, _, h2⟩ := hp
  cases h2
  have hc : ∀ k, m.cost k x = .fin (stageCost s ls l0 b rate x k) := by
    intro k
    have hrates : m.rates = ls.map fun l => (rate l).elim .pinf .fin := by
      rw [I.rates]
      clear h1 hf hl hm I
      generalize s.branches = bs at hr
      induction hr with
      | nil => rfl
      | cons h _ ih => simp [h, ih]
    rw [Mpc.cost, Expr.add, cost_gen hs I, Expr.mul, Expr.const, I.lamb, (simOf_base hs).2.2]
    have e : List.zipWith (fun (p : Expr ℝ) r => fun x => X.maximum 0 (X.abs (p x) - m.margin * r)) (m.pBranch k) m.rates =
        ls.map fun l => fun x => X.maximum 0 (X.abs (m.dcFlow k (m.busIdx l.fBus) (m.busIdx l.tBus) x) - m.margin * (rate l).elim .pinf .fin) := by
      rw [Mpc.pBranch, mpc_branches hf I, hrates, List.map_map, List.zipWith_map, List.zipWith_self]
      rfl
    rw [e, expr_sum (g := fun l => (rate l).elim 0 fun r =>
        max 0 (|dcLine l (angle x k l.fBus.toNat - angle x k l.tBus.toNat)| - b * r)),
      X.fin_mul_fin, X.fin_add_fin]
    · rfl
    · intro l hll
      have hfl : m.dcFlow k (m.busIdx l.fBus) (m.busIdx l.tBus) x = .fin (flowVal m x k l.fBus l.tBus) := by
        simp [Mpc.dcFlow, Expr.mul, Expr.sub, Expr.const, Mpc.ang, flowVal]
      rw [hfl, (flowVal_dc hn hs hM hf hl hm x k hll).1, I.margin,
        show ∀ a : ℝ, X.abs (.fin a) = .fin |a| from fun a => rfl]
      cases rate l with
      | none =>
        have h1 : (X.fin b * X.pinf : X ℝ) = .pinf := by
          show X.mul _ _ = _
          simp [X.mul, hb, hb.ne', X.sgn, X.infOf]
        simp only [Option.elim]
        rw [h1]
        rfl
      | some r =>
        simp only [Option.elim]
        rw [X.fin_mul_fin, X.fin_sub_fin, X.zero_def, X.maximum_fin]
  have := stages_obj I.gamma hc m.steps 0 _ h1
  rw [this, I.steps]
  simp

/-- The positions of the slack device are those of a bus. -/
theorem slack_position {base : ℝ} (hn : CleanFile n base) (hd : Documented n) (hs : SimOf n dt lam s)
    {Y : ℕ → ℕ → ℝ} (I : MpcInv cv s Y box γ β N m) {j : ℕ} {d : Device ℝ} (hj : s.devices[j]? = some d)
    (hsl : d.isSlack = true) : m.devIdx m.slackDevId = j := by
  obtain ⟨i, j', O⟩ := oneSlack_of_file hn hd hs
  obtain ⟨d', hd', e1, e2⟩ := slackDev_mem I
  have : d.id = m.slackDevId := by
    rw [← e1, (O.dev d' hd').1 e2, (O.dev d (List.mem_of_getElem? hj)).1 hsl]
  rw [← this, devIdx_get hs I hj]

/-- **C81.**  The feasible plans are exactly the plans described by `PlanAt`: nothing else is required. -/
theorem C81_feasible_iff {base δ : ℝ} {M : ℕ} (hn : CleanFile n base) (hd : Documented n) (hs : SimOf n (.fin δ) lam s)
    (hM : Numbered s M) (hf : FiniteLines s ls) (hl : ∀ l ∈ ls, l.shiftDeg = 0)
    (hm : mkMpc cv s (bBus ls) box γ β N = .ok m) (hN : 0 < N)
    {j0 : ℕ} {d0 : Device ℝ} (hj0 : s.devices[j0]? = some d0) (hd0 : d0.isSlack = true) (hlt : j0 < s.buses.length)
    (hload' : ∀ r ∈ load, r.length = N)
    (hgen : gen.length = (s.devices.filter fun d => (d.kind = .classical ∨ d.kind = .renewable) ∧ d.isSlack = false).length)
    (hgen' : ∀ r ∈ gen, r.length = N)
    (hsoc : soc.length = (s.devices.filter fun d => d.kind = .storage).length)
    (heff : ∀ d ∈ s.devices, d.kind = .storage → ∃ η, d.eff = .fin η ∧ η ≠ 0) (x : Plan ℝ) :
    FeasiblePlan Real.pi m load gen (soc.map .fin) x ↔ ∀ k < N, PlanAt s ls δ load gen soc x k := by
  have I := mkMpc_ok hm
  have hpos := slack_position hn hd hs I hj0 hd0
  have hbl : m.nBus = s.buses.length := by rw [Mpc.nBus, I.busIds, List.length_map]
  have fload : Device.isLoad (K := ℝ) = fun d => decide (d.kind = .load) := rfl
  have fdes : Device.isStorage (K := ℝ) = fun d => decide (d.kind = .storage) := rfl
  have fgen : Device.isNonSlackGen (K := ℝ) = fun d => decide ((d.kind = .classical ∨ d.kind = .renewable) ∧ d.isSlack = false) := by
    funext d
    simp [Device.isNonSlackGen, Device.isGen]
  obtain ⟨hbus, hidx, _⟩ := mpc_buses hM I
  constructor
  · intro hx k hk
    have hk' : k < m.steps := by rw [I.steps]; exact hk
    have F := feasible_stage hx hk'
    refine ⟨?_, ?_, ?_, ?_, ?_, ?_, ?_⟩
    · intro b hb
      have : b.id ∈ s.buses.map Bus.id := List.mem_map.2 ⟨b, hb, rfl⟩
      rw [hM.ids] at this
      obtain ⟨i, hi, e⟩ := List.mem_map.1 this
      rw [← e]
      exact C78_dc_flow hn hs hM hf hl hm hx hk' (Nat.lt_succ_iff.1 (List.mem_range.1 hi))
    · intro i j d row v h1 h2 h3 h4
      exact C79_load hs hm hx hk' (by rw [fload]; exact h1) h2 h3 h4
    · intro i j d row v h1 h2 h3 h4
      obtain ⟨a, b, c⟩ := C79_generator hs hm hx hk' (i := i) (by rw [fgen]; exact h1) h2
      exact ⟨a, b, c row v h3 h4⟩
    · intro i j d h1 h2
      obtain ⟨a, b⟩ := C79_storage hs hm hx hk' (i := i) (by rw [fdes]; exact h1) h2
      refine ⟨a, b, ?_⟩
      have hid : m.desIds[i]? = some d.id := by rw [I.desIds, fdes]; simp [h1]
      have hil : i < m.desIds.length := (List.getElem?_eq_some_iff.1 hid).1
      have : (m.desLinks k)[i]? = some (fun x : Plan ℝ => decide (0 ≤ (x k).ch i ∧ 0 ≤ (x k).dis i ∧
          X.feq (m.pOf k d.id x) (.fin ((x k).dis i - (x k).ch i)))) := by
        unfold Mpc.desLinks
        rw [List.getElem?_zipWith, hid, List.getElem?_range hil]
      have h := F.links _ (List.mem_of_getElem? this)
      simpa only [decide_eq_true_eq, Mpc.pOf, Mpc.pDev, devIdx_get hs I h2, X.feq_fin, power] using h
    · intro i d z η h1 h2 h3
      obtain ⟨η', e1, e2⟩ := heff d (List.mem_of_mem_filter (List.mem_of_getElem? h1))
        (by simpa using (List.mem_filter.1 (List.mem_of_getElem? h1)).2)
      rw [h3] at e1
      cases e1
      exact C79_soc hs hm hx (by rw [fdes]; exact h1) (by simp [h2]) rfl e2 h3 hk'
    · intro j hj
      exact C79_angles hm hx hk' hj
    · intro j d h1 h2
      exact (C69_fixed hn hd hs hm hx hk' h1 h2).2
  · intro H
    rw [feasible_iff (by rw [hpos, hbl]; exact hlt) (by rw [I.steps]; exact hN)]
    intro k hk
    rw [I.steps] at hk
    have P := H k hk
    have find : ∀ {f : Device ℝ → Bool} {i : ℕ} {e : Expr ℝ}, (((s.devices.filter f).map Device.id).map (m.pOf k))[i]? = some e →
        ∃ d j, (s.devices.filter f)[i]? = some d ∧ s.devices[j]? = some d ∧ e x = .fin (power x k j) := by
      intro f i e he
      rw [List.map_map, List.getElem?_map, Option.map_eq_some_iff] at he
      obtain ⟨d, h1, rfl⟩ := he
      obtain ⟨j, hj⟩ := List.mem_iff_getElem?.1 (List.mem_of_mem_filter (List.mem_of_getElem? h1))
      refine ⟨d, j, h1, hj, ?_⟩
      simp only [Function.comp, Mpc.pOf, devIdx_get hs I hj]
      rfl
    have consts : ∀ {f : Device ℝ → X ℝ} {l : List (Device ℝ)} {i : ℕ} {e : Expr ℝ}, ((l.map f).map Expr.const)[i]? = some e →
        ∃ d, l[i]? = some d ∧ e x = f d := by
      intro f l i e he
      rw [List.map_map, List.getElem?_map, Option.map_eq_some_iff] at he
      obtain ⟨d, h1, rfl⟩ := he
      exact ⟨d, h1, rfl⟩
    have cols : ∀ {rows : List (List (X ℝ))} {i : ℕ} {e : Expr ℝ}, (∀ r ∈ rows, r.length = N) →
        ((column k rows).map Expr.const)[i]? = some e → ∃ row v, rows[i]? = some row ∧ row[k]? = some v ∧ e x = v := by
      intro rows i e hr he
      rw [column, List.map_map, List.getElem?_map, Option.map_eq_some_iff] at he
      obtain ⟨row, h1, rfl⟩ := he
      have hlen := hr row (List.mem_of_getElem? h1)
      refine ⟨row, row[k]'(by omega), h1, List.getElem?_eq_getElem _, ?_⟩
      simp only [Function.comp, Expr.const]
      rw [List.getD_eq_getElem?_getD, List.getElem?_eq_getElem (by omega)]
      rfl
    have rowOf : ∀ {rows : List (List (X ℝ))} {i c : ℕ}, rows.length = c → (∀ r ∈ rows, r.length = N) → i < c →
        ∃ row v, rows[i]? = some row ∧ row[k]? = some v := by
      intro rows i c h1 h2 h3
      have hi : i < rows.length := by omega
      have := h2 rows[i] (List.getElem_mem hi)
      exact ⟨rows[i], rows[i][k]'(by omega), List.getElem?_eq_getElem hi, List.getElem?_eq_getElem _⟩
    refine ⟨by rw [hpos, hbl]; exact hlt, ?_, ?_, ?_, ?_, ?_, ?_, ?_, ?_, ?_, ?_, ?_, ?_, ?_⟩
    · rw [eqConstrs_iff]
      intro i a b ha hb
      rw [Mpc.outflow, List.getElem?_map, Option.map_eq_some_iff] at ha
      rw [Mpc.pBus, List.getElem?_map, Option.map_eq_some_iff] at hb
      obtain ⟨id, h1, rfl⟩ := ha
      obtain ⟨i', h2, rfl⟩ := hb
      have hi : i < m.nBus := by
        have := (List.getElem?_eq_some_iff.1 h2).1
        simpa using this
      rw [List.getElem?_range hi] at h2
      cases h2
      have hlen : m.nBus = M + 1 := by rw [Mpc.nBus, hbus]; simp
      have hiM : i < M + 1 := by omega
      have : id = (i : ℤ) := by
        rw [hbus, List.getElem?_map, List.getElem?_range hiM] at h1
        simpa using h1.symm
      subst this
      have e1 : (Expr.sum (m.branchIds.map fun b => if b.1 = (i : ℤ) then m.dcFlow k (m.busIdx b.1) (m.busIdx b.2)
          else if b.2 = (i : ℤ) then m.dcFlow k (m.busIdx b.2) (m.busIdx b.1) else .const 0)) x =
          .fin (dcLeaving ls (fun j => angle x k j.toNat) i) := by
        rw [← outflow_dc hn hs hM hf hl hm x k i]
        refine expr_sum _ fun b _ => ?_
        split
        · simp [Mpc.dcFlow, Expr.mul, Expr.sub, Expr.const, Mpc.ang, flowVal]
        · split
          · simp [Mpc.dcFlow, Expr.mul, Expr.sub, Expr.const, Mpc.ang, flowVal]
          · rfl
      have e2 : (Expr.sum ((m.devToBus.filter fun d => m.busIdx d.2 = i).map fun d => m.pOf k d.1)) x =
          .fin (busInjection s x k i) := by
        rw [busInjection_eq hs hM I x k (Nat.lt_succ_iff.1 hiM)]
        exact expr_sum _ fun d _ => rfl
      rw [e1, e2, X.feq_fin]
      obtain ⟨b, hb, hbid⟩ : ∃ b ∈ s.buses, b.id = (i : ℤ) := by
        have : (i : ℤ) ∈ s.buses.map Bus.id := by
          rw [hM.ids]; exact List.mem_map.2 ⟨i, List.mem_range.2 hiM, rfl⟩
        obtain ⟨b, h1, h2⟩ := List.mem_map.1 this
        exact ⟨b, h1, h2⟩
      have := P.flow b hb
      rw [hbid] at this
      exact this.symm
    · rw [eqConstrs_iff, I.loadIds]
      intro i a b ha hb
      obtain ⟨d, j, h1, h2, h3⟩ := find ha
      obtain ⟨row, v, h4, h5, h6⟩ := cols hload' hb
      rw [h3, h6, P.load i j d row v h1 h2 h4 h5, X.feq_fin]
    · rw [leConstrs_iff, I.nonSlackGenIds, I.pGenMin]
      intro i a b ha hb
      obtain ⟨d, j, h1, h2, h3⟩ := find hb
      obtain ⟨d', h4, h5⟩ := consts ha
      rw [h1] at h4
      cases h4
      rw [fgen] at h1
      obtain ⟨row, v, h6, h7⟩ := rowOf hgen hgen' (List.getElem?_eq_some_iff.1 h1).1
      rw [h3, h5]
      exact (P.gen i j d row v h1 h2 h6 h7).1
    · rw [leConstrs_iff, I.nonSlackGenIds, I.pGenMax]
      intro i a b ha hb
      obtain ⟨d, j, h1, h2, h3⟩ := find ha
      obtain ⟨d', h4, h5⟩ := consts hb
      rw [h1] at h4
      cases h4
      rw [fgen] at h1
      obtain ⟨row, v, h6, h7⟩ := rowOf hgen hgen' (List.getElem?_eq_some_iff.1 h1).1
      rw [h3, h5]
      exact (P.gen i j d row v h1 h2 h6 h7).2.1
    · rw [leConstrs_iff, I.desIds, I.pDesMin]
      intro i a b ha hb
      obtain ⟨d, j, h1, h2, h3⟩ := find hb
      obtain ⟨d', h4, h5⟩ := consts ha
      rw [h1] at h4
      cases h4
      rw [h3, h5]
      exact (P.des i j d h1 h2).1
    · rw [leConstrs_iff, I.desIds, I.pDesMax]
      intro i a b ha hb
      obtain ⟨d, j, h1, h2, h3⟩ := find ha
      obtain ⟨d', h4, h5⟩ := consts hb
      rw [h1] at h4
      cases h4
      rw [h3, h5]
      exact (P.des i j d h1 h2).2.1
    · rw [leConstrs_iff, I.nonSlackGenIds]
      intro i a b ha hb
      obtain ⟨d, j, h1, h2, h3⟩ := find ha
      obtain ⟨row, v, h4, h5, h6⟩ := cols hgen' hb
      rw [fgen] at h1
      rw [h3, h6]
      exact (P.gen i j d row v h1 h2 h4 h5).2.2
    · intro c hc
      obtain ⟨i, hi⟩ := List.mem_iff_getElem?.1 hc
      unfold Mpc.desLinks at hi
      rw [List.getElem?_zipWith] at hi
      cases hd : m.desIds[i]? with
      | none => rw [hd] at hi; cases hr : (List.range m.desIds.length)[i]? <;> rw [hr] at hi <;> simp at hi
      | some id =>
        have hil : i < m.desIds.length := (List.getElem?_eq_some_iff.1 hd).1
        rw [hd, List.getElem?_range hil] at hi
        simp only [Option.some.injEq] at hi
        subst hi
        rw [I.desIds, List.getElem?_map, Option.map_eq_some_iff] at hd
        obtain ⟨d, h1, rfl⟩ := hd
        obtain ⟨j, hj⟩ := List.mem_iff_getElem?.1 (List.mem_of_mem_filter (List.mem_of_getElem? h1))
        have := (P.des i j d h1 hj).2.2
        simpa only [decide_eq_true_eq, Mpc.pOf, Mpc.pDev, devIdx_get hs I hj, X.feq_fin, power] using this
    · rw [leConstrs_iff, I.socMin]
      intro i a b ha hb
      obtain ⟨d, h1, h2⟩ := consts ha
      have hil : i < soc.length := by rw [hsoc]; exact (List.getElem?_eq_some_iff.1 h1).1
      obtain ⟨η, e1, e2⟩ := heff d (List.mem_of_mem_filter (List.mem_of_getElem? h1))
        (by simpa [Device.isStorage] using (List.mem_filter.1 (List.mem_of_getElem? h1)).2)
      obtain ⟨e, g1, g2⟩ := socAt_get (m := m) (x := x) (soc := soc.map .fin) (i := i) (z := soc[i]) (δ := δ) (η := η)
        (by simp [hil]) (by rw [I.deltaT, (simOf_base hs).2.1]) e2 (by rw [I.desEff]; simp [h1, e1])
        (by rw [I.desIds]; simpa using (List.getElem?_eq_some_iff.1 h1).1) (k + 1)
      rw [socAt] at g1
      rw [g1] at hb
      cases hb
      rw [h2, g2]
      exact (P.soc i d soc[i] η h1 (List.getElem?_eq_getElem hil) e1).1
    · rw [leConstrs_iff, I.socMax]
      intro i a b ha hb
      obtain ⟨d, h1, h2⟩ := consts hb
      have hil : i < soc.length := by rw [hsoc]; exact (List.getElem?_eq_some_iff.1 h1).1
      obtain ⟨η, e1, e2⟩ := heff d (List.mem_of_mem_filter (List.mem_of_getElem? h1))
        (by simpa [Device.isStorage] using (List.mem_filter.1 (List.mem_of_getElem? h1)).2)
      obtain ⟨e, g1, g2⟩ := socAt_get (m := m) (x := x) (soc := soc.map .fin) (i := i) (z := soc[i]) (δ := δ) (η := η)
        (by simp [hil]) (by rw [I.deltaT, (simOf_base hs).2.1]) e2 (by rw [I.desEff]; simp [h1, e1])
        (by rw [I.desIds]; simpa using (List.getElem?_eq_some_iff.1 h1).1) (k + 1)
      rw [socAt] at g1
      rw [g1] at ha
      cases ha
      rw [h2, g2]
      exact (P.soc i d soc[i] η h1 (List.getElem?_eq_getElem hil) e1).2
    · rw [leConstrs_iff]
      intro i a b ha hb
      have hi : i < m.nBus := by simpa using (List.getElem?_eq_some_iff.1 ha).1
      rw [List.getElem?_replicate_of_lt hi] at ha
      rw [List.getElem?_map, List.getElem?_range hi] at hb
      simp only [Option.some.injEq, Option.map_some] at ha hb
      rw [← ha, ← hb]
      simpa [Expr.const, Mpc.ang, angle] using (P.ang i (by omega)).1
    · rw [leConstrs_iff]
      intro i a b ha hb
      have hi : i < m.nBus := by simpa using (List.getElem?_eq_some_iff.1 hb).1
      rw [List.getElem?_replicate_of_lt hi] at hb
      rw [List.getElem?_map, List.getElem?_range hi] at ha
      simp only [Option.some.injEq, Option.map_some] at ha hb
      rw [← ha, ← hb]
      simpa [Expr.const, Mpc.ang, angle] using (P.ang i (by omega)).2
    · rw [hpos]
      exact P.ref j0 d0 hj0 hd0

end

end Anm
