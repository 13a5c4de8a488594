import Verif.Props.Mpc
import Verif.Props.Anm6
import Verif.Props.EnvObs

/-! # Properties of the forecasts of the MPC agents -/

set_option linter.unusedSectionVars false

namespace Anm
open Spec

section
variable {K ρ : Type} [Field K] [LinearOrder K] [IsStrictOrderedRing K] [FloorRing K]

/-! ### C66: constant forecasts -/

/-- As soon as there is a state vector, the simulator has a state dictionary that describes its objects. -/
theorem env_state {c : EnvCtx K ρ} {a : EnvArgs K} {e : Env K ρ} {y : EnvDyn K} (he : EnvOf c a e)
    (hy : e.dyn = some y) : ∃ st, e.sim.state = some st ∧ e.sim.gatherState c.sim.pi = .ok st := by
  obtain ⟨e0, h0, hh⟩ := he
  induction hh generalizing y with
  | refl => rw [(mkEnv_ok h0).dyn] at hy; cases hy
  | @tail e1 e2 hh hc ih =>
    rcases hc with ⟨seed, obs, h⟩ | ⟨act, out, h⟩ | ⟨r, rfl⟩
    · obtain ⟨v, st, n, I⟩ := env_reset_ok h
      obtain ⟨r', h1, _⟩ := I.search
      obtain ⟨s1, r1, g1, _, _, g2⟩ := search_ok h1
      exact call_state (.inr ⟨_, _, g2⟩)
    · obtain ⟨_, y1, hy1, ⟨_, rfl, _⟩ | ⟨_, h⟩⟩ := step_ok h
      · exact ih hy
      · obtain ⟨vars, args, o, y', I⟩ := advance_ok h
        exact call_state (.inl ⟨_, _, I.trans⟩)
    · exact ih hy

theorem present_ok {s : Sim K} {st : SimState K} (hs : s.state = some st) {key : Key} {ds : List (Device K)}
    (h : ∀ d ∈ ds, ∃ x, reading st key .pu (.node d.id) = some x) :
    ∃ l, Mpc.present s key (ds.map Device.id) = .ok l ∧
      List.Forall₂ (fun d x => reading st key .pu (.node d.id) = some x) ds l := by
  unfold Mpc.present
  rw [hs]
  induction ds with
  | nil => exact ⟨[], rfl, .nil⟩
  | cons d ds ih =>
    obtain ⟨x, hx⟩ := h d (by simp)
    obtain ⟨l, h1, h2⟩ := ih fun d hd => h d (by simp [hd])
    refine ⟨x :: l, ?_, .cons hx h2⟩
    have hx' := hx
    simp only [reading, Option.bind_eq_some_iff] at hx'
    obtain ⟨e, ⟨q, q1, q2⟩, q3⟩ := hx'
    simp only [List.map_cons, mapE, bind_ok, pure_ok]
    exact ⟨x, ⟨q, Dict.getE_ok.2 q1, e, Dict.getE_ok.2 q2, Dict.getE_ok.2 q3⟩, l, h1, rfl⟩

/-- **C66.**  In a state of the environment the constant forecast exists: one row per load and per
non-slack generator, by increasing ID, with `planning_steps` copies of the present active power or
potential in per-unit. -/
theorem C66_constant_forecast {c : EnvCtx K ρ} {a : EnvArgs K} {cv : Cvx K} {Y : ℕ → ℕ → K} {m : Mpc K} {e : Env K ρ}
    {y : EnvDyn K} (h : AgentOf c a cv Y m e) (hy : e.dyn = some y) :
    ∃ l g st, e.sim.state = some st ∧ m.constantForecast e.sim = .ok (l, g) ∧
      e.sim.devices.Pairwise (fun d d' => d.id < d'.id) ∧
      List.Forall₂ (fun d row => ∃ x, reading st .devP .pu (.node d.id) = some x ∧ row = List.replicate m.steps x)
        (e.sim.devices.filter Device.isLoad) l ∧
      List.Forall₂ (fun d row => ∃ x, reading st .genPMax .pu (.node d.id) = some x ∧ row = List.replicate m.steps x)
        (e.sim.devices.filter Device.isNonSlackGen) g := by
  obtain ⟨he, γ, β, n, I⟩ := agentOf_inv h
  obtain ⟨st, hst, hg⟩ := env_state he hy
  obtain ⟨l, l1, l2⟩ := present_ok (key := .devP) hst (ds := e.sim.devices.filter Device.isLoad) fun d hd =>
    reading_total hg (by simp) ⟨[.mw, .pu], by simp [quantities], by simp⟩
      (.inr (.inl ⟨by simp, d, (List.mem_filter.1 hd).1, rfl⟩) : Located e.sim 0 _ _)
  obtain ⟨g, g1, g2⟩ := present_ok (key := .genPMax) hst (ds := e.sim.devices.filter Device.isNonSlackGen) fun d hd =>
    reading_total hg (by simp) ⟨[.mw, .pu], by simp [quantities], by simp⟩
      (.inr (.inr (.inr (.inl ⟨rfl, d, (List.mem_filter.1 hd).1, (List.mem_filter.1 hd).2, rfl⟩))) :
        Located e.sim 0 _ _)
  refine ⟨l.map fun x => List.replicate m.steps x, g.map fun x => List.replicate m.steps x, st, hst, ?_,
    simOf_sorted (envOf_simOf he), ?_, ?_⟩
  · unfold Mpc.constantForecast
    rw [I.loadIds, I.nonSlackGenIds, l1, g1]
    rfl
  · rw [List.forall₂_map_right_iff]
    exact l2.imp fun d x hx => ⟨x, hx, rfl⟩
  · rw [List.forall₂_map_right_iff]
    exact g2.imp fun d x hx => ⟨x, hx, rfl⟩

/-- **C68.**  In a state of the environment the plan starts at the present states of charge, by increasing device ID. -/
theorem C68_present {c : EnvCtx K ρ} {a : EnvArgs K} {cv : Cvx K} {Y : ℕ → ℕ → K} {m : Mpc K} {e : Env K ρ}
    {y : EnvDyn K} (h : AgentOf c a cv Y m e) (hy : e.dyn = some y) :
    ∃ l st, e.sim.state = some st ∧ m.socs e.sim = .ok l ∧ e.sim.devices.Pairwise (fun d d' => d.id < d'.id) ∧
      List.Forall₂ (fun d x => reading st .desSoc .pu (.node d.id) = some x) (e.sim.devices.filter Device.isStorage) l := by
  obtain ⟨he, γ, β, n, I⟩ := agentOf_inv h
  obtain ⟨st, hst, hg⟩ := env_state he hy
  obtain ⟨l, l1, l2⟩ := present_ok (key := .desSoc) hst (ds := e.sim.devices.filter Device.isStorage) fun d hd =>
    reading_total hg (by simp) ⟨[.mwh, .pu], by simp [quantities], by simp⟩
      (.inr (.inr (.inl ⟨rfl, d, (List.mem_filter.1 hd).1, (List.mem_filter.1 hd).2, rfl⟩)) : Located e.sim 0 _ _)
  refine ⟨l, st, hst, ?_, simOf_sorted (envOf_simOf he), l2⟩
  unfold Mpc.socs
  unfold Mpc.present at l1
  rw [I.desIds]
  exact l1

/-! ### C65: perfect forecasts -/

/-- The series of `k + 1` days. -/
def tiled (k : ℕ) (s : List (X K)) : List (X K) := (List.replicate (k + 1) s).flatten

theorem tiled_succ (k : ℕ) (s : List (X K)) : tiled k s ++ s = tiled (k + 1) s := by
  unfold tiled
  rw [List.replicate_succ' (n := k + 1), List.flatten_append]
  simp

theorem tiled_get (k : ℕ) {s : List (X K)} {n i : ℕ} (hs : s.length = n) (hi : i < (k + 1) * n) :
    (tiled k s)[i]? = s[i % n]? := by
  subst hs
  induction k generalizing i with
  | zero =>
    rw [Nat.mod_eq_of_lt (by simpa using hi)]
    simp [tiled]
  | succ k ih =>
    have e : tiled (k + 1) s = s ++ tiled k s := by
      unfold tiled
      rw [List.replicate_succ, List.flatten_cons]
    rw [e]
    by_cases h : i < s.length
    · rw [List.getElem?_append_left h, Nat.mod_eq_of_lt h]
    · rw [List.getElem?_append_right (by omega), ih (by rw [Nat.succ_mul (k + 1)] at hi; omega),
        ← Nat.mod_eq_sub_mod (by omega)]

theorem zipWith_tiled (k : ℕ) (L : List (List (X K))) :
    List.zipWith (· ++ ·) (L.map (tiled k)) L = L.map (tiled (k + 1)) := by
  induction L with
  | nil => rfl
  | cons s L ih => rw [List.map_cons, List.zipWith_cons_cons, ih, tiled_succ, List.map_cons]

theorem pLoads_head (k : ℕ) : ((((pLoads : List (List (X K))).map (tiled k)).head?).getD []).length = (k + 1) * 96 := by
  have h : (pLoads : List (List (X K))) = floats (loadSeries.head?.getD []) :: (loadSeries.drop 1).map floats := rfl
  have h0 : (loadSeries.head?.getD []).length = 96 := series_length _ (by simp [loadSeries])
  rw [h]
  simp [tiled, floats, h0]

theorem extend_tiled (tEnd : ℕ) : ∀ fuel k, tEnd ≤ (k + 1 + fuel) * 96 →
    ∃ k', tEnd ≤ (k' + 1) * 96 ∧ Mpc.extend (K := K) tEnd fuel (pLoads.map (tiled k), pMaxs.map (tiled k)) =
      (pLoads.map (tiled k'), pMaxs.map (tiled k')) := by
  intro fuel
  induction fuel with
  | zero => intro k hk; exact ⟨k, by simpa using hk, rfl⟩
  | succ fuel ih =>
    intro k hk
    unfold Mpc.extend
    rw [pLoads_head]
    split
    · rw [zipWith_tiled, zipWith_tiled]
      exact ih (k + 1) (by rw [show k + 1 + 1 + fuel = k + 1 + (fuel + 1) by omega]; exact hk)
    · exact ⟨k, by omega, rfl⟩

/-- The forecast at the time of day `t`. -/
theorem perfect_series {m : Mpc K} {b : K} (hb : m.baseMVA = .fin b) (hb0 : b ≠ 0) {st : List (X K)} {t : ℕ}
    (ht : st.getLast? = some (.fin (t : K))) :
    ∃ l g, m.perfectForecast st = .ok (l, g) ∧ ∀ L rows, (L = loadSeries ∧ rows = l ∨ L = genSeries ∧ rows = g) →
      List.Forall₂ (fun (s : List ℚ) row => row.length = m.steps ∧ ∀ j < m.steps, ∃ q : ℚ, s[(t + 1 + j) % 96]? = some q ∧
        row[j]? = some (.fin ((q : K) / b))) L rows := by
  obtain ⟨k, hk, he⟩ := extend_tiled (K := K) (t + 1 + m.steps) (t + 1 + m.steps) 0 (by omega)
  have e0 : ∀ L : List (List (X K)), L.map (tiled 0) = L := by
    intro L
    rw [show (tiled 0 : List (X K) → List (X K)) = id from funext fun s => by simp [tiled], List.map_id]
  rw [e0, e0] at he
  refine ⟨(pLoads.map (tiled k)).map fun r => (Sim.slice r (t + 1) (t + 1 + m.steps)).map (· / m.baseMVA),
    (pMaxs.map (tiled k)).map fun r => (Sim.slice r (t + 1) (t + 1 + m.steps)).map (· / m.baseMVA), ?_, ?_⟩
  · unfold Mpc.perfectForecast
    rw [(pyGet_last st _).2 ht]
    simp only [bind, Except.bind, toInt_nat, pure, Except.pure]
    rw [show ((t : ℤ) + 1).toNat = t + 1 by omega, he]
  · have main : ∀ L : List (List ℚ), (∀ s ∈ L, s.length = 96) →
        List.Forall₂ (fun (s : List ℚ) row => row.length = m.steps ∧ ∀ j < m.steps, ∃ q : ℚ, s[(t + 1 + j) % 96]? = some q ∧
          row[j]? = some (.fin ((q : K) / b))) L
          (((L.map (floats (K := K))).map (tiled k)).map fun r => (Sim.slice r (t + 1) (t + 1 + m.steps)).map (· / m.baseMVA)) := by
      intro L hL
      induction L with
      | nil => exact .nil
      | cons s L ih =>
        refine .cons ?_ (ih fun s hs => hL s (by simp [hs]))
        have hs := hL s (by simp)
        have hsl : (floats (K := K) s).length = 96 := by simp [floats, hs]
        have hlen : (tiled k (floats (K := K) s)).length = (k + 1) * 96 := by simp [tiled, hsl]
        constructor
        · simp only [Sim.slice, List.length_map, List.length_take, List.length_drop, hlen]
          omega
        · intro j hj
          have hlt : (t + 1 + j) % 96 < 96 := Nat.mod_lt _ (by norm_num)
          refine ⟨s[(t + 1 + j) % 96]'(by omega), List.getElem?_eq_getElem _, ?_⟩
          rw [List.getElem?_map, Sim.slice, List.getElem?_take_of_lt (by omega), List.getElem?_drop,
            tiled_get k hsl (by omega), floats, List.getElem?_map, List.getElem?_eq_getElem (by omega)]
          simp only [Option.map_some]
          rw [hb, X.fin_div_fin hb0]
    rintro L rows (⟨rfl, rfl⟩ | ⟨rfl, rfl⟩)
    · exact main loadSeries fun s hs => series_length s (by simp [hs])
    · exact main genSeries fun s hs => series_length s (by simp [hs])

/-- **C65.**  An ANM6Easy environment is reset and used for some steps; then the agent makes a perfect
forecast with `planning_steps` columns.  Whatever is done in the following steps, column `j` is what
`next_vars` returns in step `j + 1` from now, divided by the base power: loads, then generators. -/
theorem C65_perfect_forecast {w : EasyWorld K ρ} {s0 : Sim K} {a a1 a2 : Anm6 K ρ} {seed date : Option ℤ}
    {obs : List (X K)} {us : List (List (X K))} {os : List (Env.StepOut K)} {cv : Cvx K} {Y : ℕ → ℕ → K} {m : Mpc K}
    {y : EnvDyn K} (hg : Fair w.rng) (ha : EasyOf w s0 a)
    (hr : a.easyReset (easyCtx w s0) w.rng seed date = .ok (a1, obs))
    (h1 : Anm6Episode (easyCtx w s0) a1 us os a2) (ho : ∀ o ∈ os, o.terminated = false)
    (hm : AgentOf (easyCtx w s0) easyArgs cv Y m a2.env) (hy : a2.env.dyn = some y) :
    ∃ l g, m.perfectForecast y.state = .ok (l, g) ∧ (∀ row ∈ l ++ g, row.length = m.steps) ∧
      ∀ vs ps a3 y', Anm6Episode (easyCtx w s0) a2 vs ps a3 → (∀ o ∈ ps, o.terminated = false) →
        vs.length < m.steps → a3.env.dyn = some y' →
        ∃ xs t, easyNext y'.state = .ok (xs ++ [t]) ∧
          List.Forall₂ (fun row x => row[vs.length]? = some (x / .fin 100)) (l ++ g) xs := by
  obtain ⟨t0, ht0, hc0, hC⟩ := C56_clock hg ha hr
  obtain ⟨hc, -⟩ := hC us os a2 h1 ho
  set t := (t0 + us.length) % 96 with ht
  have htl : t < 96 := Nat.mod_lt _ (by norm_num)
  obtain ⟨he, γ, β, n, I⟩ := agentOf_inv hm
  have hbase : m.baseMVA = .fin 100 := by rw [I.base, (simOf_base (envOf_simOf he)).1]; rfl
  have hst : y.state.getLast? = some (.fin (t : K)) := by
    obtain ⟨y1, e1, e2⟩ := hc
    rw [hy] at e1; cases e1
    exact e2
  obtain ⟨l, g, f1, f2⟩ := perfect_series hbase (by norm_num) hst
  have hrows : List.Forall₂ (fun (s : List ℚ) row => row.length = m.steps ∧ ∀ j < m.steps, ∃ q : ℚ,
      s[(t + 1 + j) % 96]? = some q ∧ row[j]? = some (.fin ((q : K) / 100))) (loadSeries ++ genSeries) (l ++ g) :=
    List.rel_append (f2 loadSeries l (.inl ⟨rfl, rfl⟩)) (f2 genSeries g (.inr ⟨rfl, rfl⟩))
  refine ⟨l, g, f1, ?_, ?_⟩
  · intro row hrow
    obtain ⟨s, _, hs⟩ := forall₂_mem_right hrows hrow
    exact hs.1
  · intro vs ps a3 y' h2 hp hvs hy'
    have ha2 : EasyOf w s0 a2 := easy_episode (ha.reset hr) h1
    obtain ⟨y3, e3, e4⟩ := easy_clock h2 ha2 hc htl hp
    rw [hy'] at e3; cases e3
    obtain ⟨v, v1, xs, rfl, v3⟩ := easyNext_clock e4
    refine ⟨xs, _, v1, ?_⟩
    have hmod : ((t + vs.length) % 96 + 1) % 96 = (t + 1 + vs.length) % 96 := by omega
    rw [hmod] at v3
    generalize loadSeries ++ genSeries = L at hrows v3
    clear f1 f2 v1
    generalize l ++ g = R at hrows
    induction hrows generalizing xs with
    | nil => cases v3; exact .nil
    | cons hh _ ih =>
      cases v3 with
      | cons hx hxs =>
        refine .cons ?_ (ih _ hxs)
        obtain ⟨q, q1, rfl⟩ := hx
        obtain ⟨q', q2, q3⟩ := hh.2 vs.length hvs
        rw [q1] at q2; cases q2
        rw [q3, X.fin_div_fin (by norm_num)]

end

end Anm
