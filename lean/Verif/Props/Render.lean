import Verif.Spec.Render
import Verif.Props.Calendar
import Verif.Props.EnvObs
import Verif.Props.EnvStep

/-! # C84: what `render` sends to the visualisation -/

set_option linter.unusedSectionVars false

namespace Anm

open Spec

/-! ### Dates -/

theorem isLeap_iff (y : ℕ) : isLeap y = true ↔ Leap y := by
  simp [isLeap, Leap]

theorem monthDays_eq (y : ℕ) : monthDays y = (List.range' 1 12).map (monthLength y) := by
  by_cases h : Leap y
  · simp [monthDays, (isLeap_iff y).2 h, List.range', monthLength, h]
  · have : isLeap y = false := by
      cases hb : isLeap y
      · rfl
      · exact absurd ((isLeap_iff y).1 hb) h
    simp [monthDays, this, List.range', monthLength, h]

theorem monthDays_sum (y : ℕ) : (monthDays y).sum = yearDays y := by
  by_cases h : Leap y
  · simp [monthDays, (isLeap_iff y).2 h, yearDays, h]
  · have : isLeap y = false := by
      cases hb : isLeap y
      · rfl
      · exact absurd ((isLeap_iff y).1 hb) h
    simp [monthDays, this, yearDays, h]

theorem findYear_spec (fuel : ℕ) : ∀ y n, 1 ≤ y → n < 365 * fuel → ∃ y' n', findYear fuel y n = (y', n') ∧ y ≤ y' ∧
    daysBefore y' + n' = daysBefore y + n ∧ n' < yearDays y' := by
  induction fuel with
  | zero => intro y n _ h; omega
  | succ fuel ih =>
    intro y n hy h
    rw [findYear, monthDays_sum]
    split
    · exact ⟨y, n, rfl, le_refl _, rfl, ‹_›⟩
    · have h365 : 365 ≤ yearDays y := by unfold yearDays; split <;> omega
      obtain ⟨y', n', h1, h2, h3, h4⟩ := ih (y + 1) (n - yearDays y) (by omega) (by omega)
      refine ⟨y', n', h1, by omega, ?_, h4⟩
      rw [h3, daysBefore_succ y hy]
      omega

theorem findMonth_spec (y : ℕ) (j : ℕ) : ∀ m n, n < ((List.range' m j).map (monthLength y)).sum → ∃ m' k,
    findMonth ((List.range' m j).map (monthLength y)) m n = (m', k) ∧ m ≤ m' ∧ m' < m + j ∧ 1 ≤ k ∧ k ≤ monthLength y m' ∧
    ((List.range' m (m' - m)).map (monthLength y)).sum + (k - 1) = n := by
  induction j with
  | zero => intro m n h; simp at h
  | succ j ih =>
    intro m n h
    rw [List.range'_succ, List.map_cons, List.sum_cons] at h
    rw [List.range'_succ, List.map_cons, findMonth]
    split
    · exact ⟨m, n + 1, rfl, le_refl _, by omega, by omega, by omega, by simp⟩
    · obtain ⟨m', k, h1, h2, h3, h4, h5, h6⟩ := ih (m + 1) (n - monthLength y m) (by omega)
      refine ⟨m', k, h1, by omega, by omega, h4, h5, ?_⟩
      obtain ⟨i, rfl⟩ := Nat.exists_eq_add_of_le h2
      have e1 : m + 1 + i - m = i + 1 := by omega
      have e2 : m + 1 + i - (m + 1) = i := by omega
      rw [e2] at h6
      rw [e1, List.range'_succ, List.map_cons, List.sum_cons]
      omega

/-- **C84, date.** The month, day, hour and minute sent to the visualisation are those of the date, for every
date of the years 1 to 9999. -/
theorem C84_date {d : ℤ} (h0 : 0 ≤ d) (h1 : d < 3652059 * dayMicros) :
    ∃ y, CalendarTime d y (timeArray d).1 (timeArray d).2.1 (timeArray d).2.2.1 (timeArray d).2.2.2 := by
  obtain ⟨n, rfl⟩ := Int.eq_ofNat_of_zero_le h0
  have hdays : ((n : ℤ) / (24 * 60 * 60 * 1000000)).toNat = n / 86400000000 := by omega
  have hmin : ((n : ℤ) % (24 * 60 * 60 * 1000000) / (60 * 1000000)).toNat = n % 86400000000 / 60000000 := by omega
  have hlt : n / 86400000000 < 365 * 11000 := by unfold dayMicros at h1; omega
  obtain ⟨y, r, e1, e2, e3, e4⟩ := findYear_spec 11000 1 (n / 86400000000) (le_refl _) hlt
  rw [← monthDays_sum, monthDays_eq] at e4
  obtain ⟨m, k, f1, f2, f3, f4, f5, f6⟩ := findMonth_spec y 12 1 r e4
  have ht : timeArray (n : ℤ) = (m, k, n % 86400000000 / 60000000 / 60, n % 86400000000 / 60000000 % 60) := by
    unfold timeArray
    simp only [hdays, hmin, e1, monthDays_eq, f1]
  rw [ht]
  dsimp only
  refine ⟨y, e2, ⟨f2, by omega⟩, ⟨f4, f5⟩, by omega, by omega, n % 60000000, by omega, ?_⟩
  have e5 : daysBefore 1 = 0 := rfl
  have e6 : daysBefore y + daysBeforeMonth y m + (k - 1) = n / 86400000000 := by
    unfold daysBeforeMonth; omega
  rw [e6]
  refine congrArg Int.ofNat ?_
  omega

/-! ### The state -/

section
variable {K ρ : Type} [Field K] [LinearOrder K]

theorem values_lists {α : Type} {st : SimState K} {k : Key} {u : QUnit} {d : Dict QUnit (Dict Ident (X K))}
    {l : List α} {key : α → Ident} {f : α → X K} (hd : Dict.get? st k = some d)
    (he : Dict.get? d u = some (l.map fun x => (key x, f x))) (hn : (l.map key).Nodup) :
    stateValues st k u = .ok (l.map f) ∧ Lists st k u (l.map key) (l.map f) := by
  constructor
  · simp [stateValues, Dict.getE, hd, he, bind, Except.bind, pure, Except.pure, Function.comp_def]
  · have hr : ∀ i, reading st k u i = Dict.get? (l.map fun x => (key x, f x)) i := by
      intro i; simp [reading, hd, he]
    have : ∀ x ∈ l, reading st k u (key x) = some (f x) := by
      intro x hx
      rw [hr, get?_map]
      cases hfi : l.find? (fun y => key y = key x) with
      | none => have := List.find?_eq_none.1 hfi x hx; simp at this
      | some y =>
        have h1 := List.find?_some hfi
        have h2 := List.mem_of_find?_eq_some hfi
        simp only [decide_eq_true_eq] at h1
        rw [List.inj_on_of_nodup_map hn h2 hx h1]
        rfl
    rw [Lists, List.forall₂_map_left_iff, List.forall₂_map_right_iff, List.forall₂_same]
    exact this

theorem lists_unique {st : SimState K} {k : Key} {u : QUnit} {ids : List Ident} {xs ys : List (X K)}
    (h1 : Lists st k u ids xs) (h2 : Lists st k u ids ys) : xs = ys := by
  unfold Lists at h1 h2
  induction h1 generalizing ys with
  | nil => cases h2; rfl
  | cons h _ ih =>
    cases h2 with
    | cons h' t => rw [h] at h'; cases h'; rw [ih t]

/-- The last call left the state that the simulator reports, and says whether the load flow converged. -/
theorem env_reported [FloorRing K] {c : EnvCtx K ρ} {a : EnvArgs K} {e : Env K ρ} {y : EnvDyn K} (he : EnvOf c a e)
    (hy : e.dyn = some y) : (∃ st, e.sim.state = some st ∧ e.sim.gatherState c.sim.pi = .ok st) ∧
      e.sim.pfeConverged = some (!y.terminated) := by
  obtain ⟨e0, h0, hh⟩ := he
  induction hh generalizing y with
  | refl => rw [(mkEnv_ok h0).dyn] at hy; cases hy
  | @tail e1 e2 hh hc ih =>
    rcases hc with ⟨seed, obs, h⟩ | ⟨act, out, h⟩ | ⟨r, rfl⟩
    · obtain ⟨v, st, nw, I⟩ := env_reset_ok h
      obtain ⟨r', hs, -⟩ := I.search
      obtain ⟨n, s1, r1, -, -, -, -, h4⟩ := C53_search_partial.1 hs
      have hd : e2.dyn = some { terminated := false, timestep := 0, eLoss := 0, penalty := 0, state := st } := by
        rw [I.result]
      rw [hy] at hd; cases hd
      refine ⟨call_state (.inr ⟨_, _, h4⟩), ?_⟩
      obtain ⟨args, ds, ds', s2, o, J, hconv⟩ := reset_ok h4
      obtain ⟨ds2, po, T⟩ := transition_ok J.trans
      obtain ⟨st', -, hres⟩ := J.result
      rw [hres]
      dsimp only
      rw [T.solve.conv, ← T.converged, ← hconv]
      rfl
    · obtain ⟨_, y1, hy1, ⟨ht, rfl, rfl⟩ | ⟨hf, h⟩⟩ := step_ok h
      · exact ih hy
      · obtain ⟨vars, args, o, y', I⟩ := advance_ok h
        have hd : e2.dyn = some y' := by rw [I.result]
        rw [hy] at hd; cases hd
        refine ⟨call_state (.inl ⟨_, _, I.trans⟩), ?_⟩
        obtain ⟨ds2, po, T⟩ := transition_ok I.trans
        rw [T.solve.conv, ← T.converged, I.terminated, Bool.not_not]
    · exact ih hy

/-- The frame of an environment, in terms of its attributes. -/
def frameOf (a : Anm6 K ρ) (y : EnvDyn K) (d : ℤ) : Frame K :=
  { month := (timeArray d).1, day := (timeArray d).2.1, hour := (timeArray d).2.2.1, minute := (timeArray d).2.2.2
    yearCount := a.yearCount
    pInjections := a.env.sim.devices.map fun d => d.p * a.env.sim.baseMVA
    qInjections := a.env.sim.devices.map fun d => d.q * a.env.sim.baseMVA
    sFlows := a.env.sim.branches.map fun b => b.flow.sApparentMax * a.env.sim.baseMVA
    socStorage := (a.env.sim.devices.filter Device.isStorage).map fun d => d.soc.getD .nan * a.env.sim.baseMVA
    pPotential := (a.env.sim.devices.filter Device.isNonSlackGen).map fun d => d.pPot * a.env.sim.baseMVA
    vMagn := a.env.sim.buses.map fun b => b.v.abs
    energyLoss := y.eLoss, penalty := y.penalty, networkCollapsed := y.terminated }

theorem frame_explicit [IsStrictOrderedRing K] [FloorRing K] {c : EnvCtx K ρ} {args : EnvArgs K} {a : Anm6 K ρ} {y : EnvDyn K} {d : ℤ}
    (he : EnvOf c args a.env) (hy : a.env.dyn = some y) (hd : a.date = some d) :
    a.frame = .ok (frameOf a y d) ∧ ShowsState a.env.sim (frameOf a y d) := by
  obtain ⟨⟨st, hst, hg⟩, hc⟩ := env_reported he hy
  have hS := envOf_simOf he
  have nodeNodup : ∀ {α : Type} {l : List α} {f : α → ℤ}, l.Pairwise (fun x y => f x < f y) →
      (l.map fun x => Ident.node (f x)).Nodup := by
    intro α l f h
    rw [List.Nodup, List.pairwise_map]
    refine h.imp ?_
    intro x y hxy he
    have := Ident.node.inj he
    omega
  have hdev := simOf_sorted hS
  have hbr : (a.env.sim.branches.map fun b => Ident.br b.line.fBus b.line.tBus).Nodup := by
    have : (a.env.sim.branches.map fun b => Ident.br b.line.fBus b.line.tBus) =
        (a.env.sim.branches.map fun b => (b.line.fBus, b.line.tBus)).map fun p => Ident.br p.1 p.2 := by
      rw [List.map_map]; rfl
    rw [this]
    refine (simOf_branch_nodup hS).map ?_
    rintro ⟨a, b⟩ ⟨a', b'⟩ h
    simp only [Ident.br.injEq] at h
    exact Prod.ext h.1 h.2
  simp only [Sim.gatherState, bind_ok, pure_ok] at hg
  obtain ⟨soc, hsoc, hg⟩ := hg
  have hsoc' : soc = (a.env.sim.devices.filter Device.isStorage).map fun d => (Ident.node d.id, d.soc.getD .nan) := by
    have := mapE_ok.1 hsoc
    clear hg hsoc
    generalize a.env.sim.devices.filter Device.isStorage = l at this
    induction this with
    | nil => rfl
    | @cons x y l l' h _ ih =>
      rw [List.map_cons, ← ih]
      cases hx : x.soc with
      | none => rw [hx] at h; cases h
      | some z => rw [hx] at h; cases h; simp [hx]
  subst hsoc'
  rw [List.map_map] at hg
  have vP := values_lists (st := st) (k := .devP) (u := .mw) (l := a.env.sim.devices) (key := fun d => .node d.id)
    (f := fun d => d.p * a.env.sim.baseMVA) (by rw [← hg]; rfl) rfl (nodeNodup hdev)
  have vQ := values_lists (st := st) (k := .devQ) (u := .mvar) (l := a.env.sim.devices) (key := fun d => .node d.id)
    (f := fun d => d.q * a.env.sim.baseMVA) (by rw [← hg]; rfl) rfl (nodeNodup hdev)
  have vS := values_lists (st := st) (k := .branchS) (u := .mva) (l := a.env.sim.branches)
    (key := fun b => .br b.line.fBus b.line.tBus) (f := fun b => b.flow.sApparentMax * a.env.sim.baseMVA)
    (by rw [← hg]; rfl) rfl hbr
  have vE := values_lists (st := st) (k := .desSoc) (u := .mwh) (l := a.env.sim.devices.filter Device.isStorage)
    (key := fun d => .node d.id) (f := fun d => d.soc.getD .nan * a.env.sim.baseMVA) (by rw [← hg]; rfl) rfl
    (nodeNodup (hdev.filter _))
  have vG := values_lists (st := st) (k := .genPMax) (u := .mw) (l := a.env.sim.devices.filter Device.isNonSlackGen)
    (key := fun d => .node d.id) (f := fun d => d.pPot * a.env.sim.baseMVA) (by rw [← hg]; rfl) rfl
    (nodeNodup (hdev.filter _))
  have vV := values_lists (st := st) (k := .busVMagn) (u := .pu) (l := a.env.sim.buses) (key := fun b => .node b.id)
    (f := fun b => b.v.abs) (by rw [← hg]; rfl) rfl (nodeNodup (simOf_bus_sorted hS))
  refine ⟨?_, st, hst, vP.2, vQ.2, vS.2, vE.2, vG.2, vV.2⟩
  rw [Anm6.frame, hst, hy, hd]
  dsimp only
  rw [vP.1, vQ.1, vS.1, vE.1, vG.1, vV.1, hc]
  simp only [bind, Except.bind, pure, Except.pure, Option.getD_some, Bool.not_not]
  rfl

/-- **C84, frame.** In every environment of the ANM6 family after `reset` and any steps, the frame sent by
`render` shows the powers, flows, energies, potentials and voltages reported by the simulator, the current
date and year count, both parts of the cost, and says that the network collapsed exactly if the state is
terminal. -/
theorem C84_frame [IsStrictOrderedRing K] [FloorRing K] {c : EnvCtx K ρ} {args : EnvArgs K} {a : Anm6 K ρ} {y : EnvDyn K} {d : ℤ}
    (he : EnvOf c args a.env) (hy : a.env.dyn = some y) (hd : a.date = some d) (h0 : 0 ≤ d)
    (h1 : d < 3652059 * dayMicros) :
    ∃ f, a.frame = .ok f ∧ ShowsState a.env.sim f ∧
      (∃ year, CalendarTime d year f.month f.day f.hour f.minute) ∧ f.yearCount = a.yearCount ∧
      f.energyLoss = y.eLoss ∧ f.penalty = y.penalty ∧ f.networkCollapsed = y.terminated := by
  obtain ⟨h2, h3⟩ := frame_explicit he hy hd
  exact ⟨_, h2, h3, C84_date h0 h1, rfl, rfl, rfl, rfl⟩

/-- **C84, state.** While the state is not terminal, the powers, energies and potentials of the frame are the
state vector without its auxiliary variables. -/
theorem C84_state [IsStrictOrderedRing K] [FloorRing K] {c : EnvCtx K ρ} {args : EnvArgs K} {e : Env K ρ} {y : EnvDyn K} {f : Frame K}
    (he : EnvOf c args e) (hy : e.dyn = some y) (ht : y.terminated = false) (hf : ShowsState e.sim f) :
    ∃ aux, aux.length = e.nAux ∧
      y.state = f.pInjections ++ f.qInjections ++ f.socStorage ++ f.pPotential ++ aux := by
  obtain ⟨-, -, -, -, h1, -⟩ := C49_state_layout he hy
  obtain ⟨aux, ha, st, p, q, soc, g, hst, hv, r1, r2, r3, r4⟩ := h1 ht
  obtain ⟨st', hst', l1, l2, -, l4, l5, -⟩ := hf
  rw [hst] at hst'
  cases hst'
  refine ⟨aux, ha, ?_⟩
  rw [hv, lists_unique l1 (List.forall₂_map_left_iff.2 r1), lists_unique l2 (List.forall₂_map_left_iff.2 r2),
    lists_unique l4 (List.forall₂_map_left_iff.2 r3), lists_unique l5 (List.forall₂_map_left_iff.2 r4)]

end

end Anm
