import Verif.Props.Reward
import Verif.Props.History

/-! # C38, C39, C40: units and bounds of the state variables -/

set_option linter.unusedSectionVars false

namespace Anm

open Spec

namespace Spec
variable {K : Type} [Field K] [LinearOrder K]

/-- The entry `state[key][unit][id]` of the state dictionary (`none` if it does not exist). -/
def reading (st : SimState K) (k : Key) (u : QUnit) (i : Ident) : Option (X K) :=
  ((st.get? k).bind (·.get? u)).bind (·.get? i)

/-- The entry `bounds[key][id][unit]` of the state-space dictionary. -/
def bound (bs : StateBounds K) (k : Key) (u : QUnit) (i : Ident) : Option (X K × X K) :=
  ((bs.get? k).bind (·.get? i)).bind (·.get? u)

/-- The power and energy quantities with their unit. -/
def powerUnits : List (Key × QUnit) :=
  [(.busP, .mw), (.busQ, .mvar), (.devP, .mw), (.devQ, .mvar), (.desSoc, .mwh), (.genPMax, .mw),
   (.branchP, .mw), (.branchQ, .mvar), (.branchS, .mva)]

/-- The angles. -/
def angles : List Key := [.busVAng, .busIAng, .branchIAng]

end Spec

section
variable {K : Type} [Field K] [LinearOrder K]

theorem get?_map {α β : Type} (l : List α) (k : α → Ident) (f : α → β) (i : Ident) :
    Dict.get? (l.map fun x => (k x, f x)) i = (l.find? (fun x => k x = i)).map f := by
  unfold Dict.get?
  rw [List.find?_map]
  cases h : List.find? ((fun p : Ident × β => decide (p.1 = i)) ∘ fun x => (k x, f x)) l with
  | none =>
    have : List.find? (fun x => decide (k x = i)) l = none := h
    rw [this]; rfl
  | some x =>
    have : List.find? (fun x => decide (k x = i)) l = some x := h
    rw [this]; rfl

theorem get?_scale {β γ : Type} (l : Dict Ident β) (f : β → γ) (i : Ident) :
    Dict.get? (l.map fun e => (e.1, f e.2)) i = (Dict.get? l i).map f := by
  rw [get?_map l (·.1) (fun e => f e.2)]
  unfold Dict.get?
  rw [Option.map_map]; rfl

theorem get?_map_scale {α β γ : Type} (l : List α) (k : α → Ident) (f : α → β) (g : β → γ) (i : Ident) :
    Dict.get? (l.map fun x => (k x, g (f x))) i = (Dict.get? (l.map fun x => (k x, f x)) i).map g := by
  rw [get?_map, get?_map l k f, Option.map_map]; rfl

variable {pi : K} {s : Sim K} {st : SimState K}

/-- **C38, powers and energies.** Every MW / MVAr / MVA / MWh entry of the state dictionary is `baseMVA`
times the p.u. entry, for the same identifiers. -/
theorem C38_power_units (h : s.gatherState pi = .ok st) {k : Key} {u : QUnit} (hk : (k, u) ∈ powerUnits)
    (i : Ident) : reading st k u i = (reading st k .pu i).map (· * s.baseMVA) := by
  simp only [Sim.gatherState, bind_ok, pure_ok] at h
  obtain ⟨soc, hsoc, rfl⟩ := h
  simp only [powerUnits, List.mem_cons, Prod.mk.injEq, List.not_mem_nil, or_false] at hk
  rcases hk with ⟨rfl, rfl⟩ | ⟨rfl, rfl⟩ | ⟨rfl, rfl⟩ | ⟨rfl, rfl⟩ | ⟨rfl, rfl⟩ | ⟨rfl, rfl⟩ | ⟨rfl, rfl⟩ |
    ⟨rfl, rfl⟩ | ⟨rfl, rfl⟩
  · exact get?_map_scale s.buses _ _ (· * s.baseMVA) i
  · exact get?_map_scale s.buses _ _ (· * s.baseMVA) i
  · exact get?_map_scale s.devices _ _ (· * s.baseMVA) i
  · exact get?_map_scale s.devices _ _ (· * s.baseMVA) i
  · exact get?_scale soc (· * s.baseMVA) i
  · exact get?_map_scale (s.devices.filter Device.isNonSlackGen) _ _ (· * s.baseMVA) i
  · exact get?_map_scale s.branches _ _ (· * s.baseMVA) i
  · exact get?_map_scale s.branches _ _ (· * s.baseMVA) i
  · exact get?_map_scale s.branches _ _ (· * s.baseMVA) i

theorem find?_node {α : Type} (l : List α) (f : α → ℤ) (i : ℤ) :
    l.find? (fun x => decide (Ident.node (f x) = Ident.node i)) = l.find? (fun x => decide (f x = i)) := by
  congr 1
  funext x
  simp

theorem find?_unique {α : Type} {l : List α} {f : α → ℤ} (hinj : ∀ x ∈ l, ∀ y ∈ l, f x = f y → x = y)
    {x : α} (hx : x ∈ l) : l.find? (fun y => decide (Ident.node (f y) = Ident.node (f x))) = some x := by
  rw [find?_node]
  cases h : l.find? (fun y => decide (f y = f x)) with
  | none => have := List.find?_eq_none.1 h x hx; simp at this
  | some y =>
    have h1 := List.find?_some h
    rw [hinj y (List.mem_of_find?_eq_some h) x hx (by simpa using h1)]

/-- Units that depend on the bus. -/
theorem get?_bus {β γ : Type} (l : List (Bus K)) (f : Bus K → β) (g : Bus K → β → γ) (i : ℤ) :
    Dict.get? (l.map fun b => (Ident.node b.id, g b (f b))) (.node i) =
      (l.find? (fun b => b.id = i)).bind fun b =>
        (Dict.get? (l.map fun b => (Ident.node b.id, f b)) (.node i)).map (g b) := by
  rw [get?_map l (fun b => Ident.node b.id) (fun b => g b (f b)), get?_map l (fun b => Ident.node b.id) f,
    find?_node]
  cases l.find? (fun b => decide (b.id = i)) <;> rfl

/-- Kilovolts and kiloamperes. -/
theorem C38_voltage_units (h : s.gatherState pi = .ok st) (i : ℤ) :
    reading st .busVMagn .kv (.node i) = ((s.bus? i).bind fun b =>
      (reading st .busVMagn .pu (.node i)).map (· * b.baseKV)) ∧
    reading st .busIMagn .ka (.node i) = ((s.bus? i).bind fun b =>
      (reading st .busIMagn .pu (.node i)).map (· * s.baseMVA / b.baseKV)) := by
  simp only [Sim.gatherState, bind_ok, pure_ok] at h
  obtain ⟨soc, hsoc, rfl⟩ := h
  exact ⟨get?_bus s.buses (fun b => b.v.abs) (fun b x => x * b.baseKV) i,
    get?_bus s.buses (fun b => b.i.abs) (fun b x => x * s.baseMVA / b.baseKV) i⟩

/-- Degrees. -/
theorem C38_angle_units (h : s.gatherState pi = .ok st) {k : Key} (hk : k ∈ angles) (i : Ident) :
    reading st k .degree i = (reading st k .rad i).map (· * .fin 180 / .fin pi) := by
  simp only [Sim.gatherState, bind_ok, pure_ok] at h
  obtain ⟨soc, hsoc, rfl⟩ := h
  simp only [angles, List.mem_cons, List.not_mem_nil, or_false] at hk
  rcases hk with rfl | rfl | rfl
  · exact get?_map_scale s.buses _ _ (fun x : X K => x * .fin 180 / .fin pi) i
  · exact get?_map_scale s.buses _ _ (fun x : X K => x * .fin 180 / .fin pi) i
  · exact get?_map_scale s.branches _ _ (fun x : X K => x * .fin 180 / .fin pi) i

/-- The state dictionary left by a call describes the objects after the call. -/
theorem call_state {c : Ctx K} {s s' : Sim K} (h : Call c s s') :
    ∃ st, s'.state = some st ∧ s'.gatherState c.pi = .ok st := by
  rcases h with ⟨a, out, h⟩ | ⟨init, conv, h⟩
  · obtain ⟨ds, o, I⟩ := transition_ok h
    obtain ⟨st, h1, h2⟩ := I.state
    exact ⟨st, h2, h1⟩
  · obtain ⟨a, ds, ds', s1, out, I, _⟩ := reset_ok h
    obtain ⟨st, h1, rfl⟩ := I.result
    exact ⟨st, rfl, h1⟩

/-- **C38.** After any transition or reset, in the state dictionary: every MW / MVAr / MVA / MWh entry is
`baseMVA` times the p.u. entry, every kV entry is the base voltage of the bus times the p.u. entry, every
kA entry is `baseMVA / baseKV` times the p.u. entry, and every angle in degrees is `180 / pi` times the
angle in radians; an entry exists in one unit exactly if it exists in the other. -/
theorem C38_units {c : Ctx K} {s s' : Sim K} (h : Call c s s') : ∃ st, s'.state = some st ∧
    (∀ k u, (k, u) ∈ powerUnits → ∀ i, reading st k u i = (reading st k .pu i).map (· * s'.baseMVA)) ∧
    (∀ i, reading st .busVMagn .kv (.node i) = (s'.bus? i).bind fun b =>
      (reading st .busVMagn .pu (.node i)).map (· * b.baseKV)) ∧
    (∀ i, reading st .busIMagn .ka (.node i) = (s'.bus? i).bind fun b =>
      (reading st .busIMagn .pu (.node i)).map (· * s'.baseMVA / b.baseKV)) ∧
    (∀ k ∈ angles, ∀ i, reading st k .degree i =
      (reading st k .rad i).map (· * .fin 180 / .fin c.pi)) := by
  obtain ⟨st, h1, h2⟩ := call_state h
  exact ⟨st, h1, fun _ _ hk i => C38_power_units h2 hk i, fun i => (C38_voltage_units h2 i).1,
    fun i => (C38_voltage_units h2 i).2, fun _ hk i => C38_angle_units h2 hk i⟩

/-! ### C39 -/

/-- Bounds multiplied by the base power. -/
def scaled (m : X K) (b : X K × X K) : X K × X K := (b.1 * m, b.2 * m)

/-- The quantities whose bounds are converted correctly. -/
def scaledBounds : List (Key × QUnit) :=
  [(.busP, .mw), (.busQ, .mvar), (.devP, .mw), (.devQ, .mvar), (.desSoc, .mwh), (.branchP, .mw),
   (.branchQ, .mvar), (.branchS, .mva)]

theorem bound_scale {α : Type} (l : List α) (k : α → Ident) (f : α → X K × X K) (g : X K × X K → X K × X K)
    {u : QUnit} (hu : u ≠ .pu) (i : Ident) :
    ((Dict.get? (l.map fun x => (k x, ([(u, g (f x)), (.pu, f x)] : Dict QUnit (X K × X K)))) i).bind
        (Dict.get? · u)) =
      (((Dict.get? (l.map fun x => (k x, ([(u, g (f x)), (.pu, f x)] : Dict QUnit (X K × X K)))) i).bind
        (Dict.get? · .pu))).map g := by
  rw [get?_map l k]
  cases l.find? (fun x => decide (k x = i)) with
  | none => rfl
  | some x =>
    simp [Dict.get?, hu]

theorem inf_mul [IsStrictOrderedRing K] {m : K} (hm : 0 < m) :
    (X.pinf * .fin m : X K) = .pinf ∧ (X.ninf * .fin m : X K) = .ninf := by
  constructor
  · show X.mul _ _ = _
    simp [X.mul, X.sgn, X.infOf, hm]
  · show X.mul _ _ = _
    simp [X.mul, X.sgn, X.infOf, hm]

/-- **C39 (partial).** For every quantity except `gen_p_max`, the bounds in MW / MVAr / MVA / MWh are
`baseMVA` times the bounds in p.u.  Missing: `gen_p_max`, for which the claim is false (see
`C39_counterexample` and `C39_gen_p_max`). -/
theorem C39_bounds_partial [IsStrictOrderedRing K] {m : K} (hm : s.baseMVA = .fin m) (h0 : 0 < m) {k : Key}
    {u : QUnit} (hk : (k, u) ∈ scaledBounds) (i : Ident) :
    bound (s.stateSpace pi) k u i = (bound (s.stateSpace pi) k .pu i).map (scaled s.baseMVA) := by
  have hinf : scaled s.baseMVA (.ninf, .pinf) = ((.ninf, .pinf) : X K × X K) := by
    simp only [scaled, hm, (inf_mul h0).1, (inf_mul h0).2]
  simp only [scaledBounds, List.mem_cons, Prod.mk.injEq, List.not_mem_nil, or_false] at hk
  rcases hk with ⟨rfl, rfl⟩ | ⟨rfl, rfl⟩ | ⟨rfl, rfl⟩ | ⟨rfl, rfl⟩ | ⟨rfl, rfl⟩ | ⟨rfl, rfl⟩ | ⟨rfl, rfl⟩ |
    ⟨rfl, rfl⟩
  · exact bound_scale s.buses _ (fun b => (b.pMin, b.pMax)) (scaled s.baseMVA) (by simp) i
  · exact bound_scale s.buses _ (fun b => (b.qMin, b.qMax)) (scaled s.baseMVA) (by simp) i
  · exact bound_scale s.devices _ (fun b => (b.pMin, b.pMax)) (scaled s.baseMVA) (by simp) i
  · exact bound_scale s.devices _ (fun b => (b.qMin, b.qMax)) (scaled s.baseMVA) (by simp) i
  · exact bound_scale _ _ (fun b : Device K => (b.socMin, b.socMax)) (scaled s.baseMVA) (by simp) i
  all_goals
    have := bound_scale s.branches (fun b => Ident.br b.line.fBus b.line.tBus)
      (fun _ => ((.ninf, .pinf) : X K × X K)) (scaled s.baseMVA) (u := .mw) (by simp) i
    have h2 := bound_scale s.branches (fun b => Ident.br b.line.fBus b.line.tBus)
      (fun _ => ((.ninf, .pinf) : X K × X K)) (scaled s.baseMVA) (u := .mvar) (by simp) i
    have h3 := bound_scale s.branches (fun b => Ident.br b.line.fBus b.line.tBus)
      (fun _ => ((.ninf, .pinf) : X K × X K)) (scaled s.baseMVA) (u := .mva) (by simp) i
    simp only [hinf] at this h2 h3
    first | exact this | exact h2 | exact h3

/-- The bounds of `gen_p_max` in MW: the upper bound is the limit of the *reactive* power. -/
theorem C39_gen_p_max [FloorRing K] {d : Device K} (hs : s.devices.Pairwise (fun a b => a.id < b.id))
    (hd : d ∈ s.devices) (hg : d.isNonSlackGen = true) :
    bound (s.stateSpace pi) .genPMax .mw (.node d.id) = some (d.pMin * s.baseMVA, d.qMax * s.baseMVA) ∧
    bound (s.stateSpace pi) .genPMax .pu (.node d.id) = some (d.pMin, d.pMax) := by
  have hf : (s.devices.filter Device.isNonSlackGen).find? (fun x => decide (Ident.node x.id = Ident.node d.id)) =
      some d := by
    refine find?_unique (f := Device.id) (fun x hx y hy e => ?_) (List.mem_filter.2 ⟨hd, hg⟩)
    exact sorted_id_inj hs (List.mem_filter.1 hx).1 (List.mem_filter.1 hy).1 e
  have key := get?_map (s.devices.filter Device.isNonSlackGen) (fun d => Ident.node d.id) (fun d =>
    ([(.mw, (d.pMin * s.baseMVA, d.qMax * s.baseMVA)), (.pu, (d.pMin, d.pMax))] : Dict QUnit (X K × X K)))
    (.node d.id)
  rw [hf] at key
  constructor
  · show Option.bind (Dict.get? ((s.devices.filter Device.isNonSlackGen).map _) _) _ = _
    rw [key]; rfl
  · show Option.bind (Dict.get? ((s.devices.filter Device.isNonSlackGen).map _) _) _ = _
    rw [key]; rfl

end

/-! ### C40 -/

namespace Spec
variable {K : Type} [Field K] [LinearOrder K]

/-- The reported value of a quantity is within the bounds advertised by the state space. -/
def InBounds (bs : StateBounds K) (st : SimState K) (k : Key) (u : QUnit) (i : ℤ) : Prop :=
  ∃ v lo hi, reading st k u (.node i) = some v ∧ bound bs k u (.node i) = some (lo, hi) ∧
    lo ≤ v ∧ v ≤ hi

end Spec

section
variable {K : Type} [Field K] [LinearOrder K] [IsStrictOrderedRing K] [FloorRing K]
  {n : Network K} {base : K} {dt lam : X K} {s s' : Sim K} {c : Ctx K} {a : Sim.Args K}
  {out : Sim.TransOut K} {d : Device K}

theorem X.mul_pos_le {x y : X K} {m : K} (hm : 0 < m) (h : x ≤ y) : x * .fin m ≤ y * .fin m := by
  have hi := inf_mul (K := K) hm
  cases x <;> cases y <;> simp_all

theorem X.mul_nonneg_le {x y : X K} {m : K} (hm : 0 ≤ m) (hx : X.IsFin x) (hy : X.IsFin y) (h : x ≤ y) :
    x * .fin m ≤ y * .fin m := by
  obtain ⟨x, rfl⟩ := X.isFin_iff.1 hx
  obtain ⟨y, rfl⟩ := X.isFin_iff.1 hy
  exact mul_le_mul_of_nonneg_right h hm

theorem inBounds_scale {bs : StateBounds K} {st : SimState K} {k : Key} {u : QUnit} {i : ℤ}
    (hm : 0 < base) (h : InBounds bs st k .pu i)
    (h1 : reading st k u (.node i) = (reading st k .pu (.node i)).map (· * .fin base))
    (h2 : bound bs k u (.node i) = (bound bs k .pu (.node i)).map (scaled (.fin base))) :
    InBounds bs st k u i := by
  obtain ⟨v, lo, hi, e1, e2, l1, l2⟩ := h
  refine ⟨v * .fin base, lo * .fin base, hi * .fin base, by rw [h1, e1]; rfl, by rw [h2, e2]; rfl,
    X.mul_pos_le hm l1, X.mul_pos_le hm l2⟩

/-- The storage units obey their limits. -/
theorem storage_limits (hq : QPSound 0 c.qp) (h : s.transition c a = .ok (s', out))
    (hd : d ∈ s'.devices) (hg : d.isStorage = true) (hsl : d.isSlack = false) :
    ∃ p q, d.p = .fin p ∧ d.q = .fin q ∧ d.pMin ≤ .fin p ∧ .fin p ≤ d.pMax ∧
      d.qMin ≤ .fin q ∧ .fin q ≤ d.qMax := by
  obtain ⟨d0, _, hr⟩ := transition_device h hd hsl
  obtain ⟨e1, e2, e3, e4⟩ := hr.same.classes
  rw [e3] at hg
  cases hr with
  | load _ hl =>
    exfalso
    unfold Device.isStorage at hg
    unfold Device.isLoad at hl
    cases hk : d0.kind <;> simp_all
  | gen _ _ _ _ _ hl => exact absurd (nonSlackGen_notSlack hl).2.2 (by simp [hg])
  | slack _ _ hl => simp [hl] at hg
  | none _ _ hl => simp [hl] at hg
  | storage p q x y rows soc _ _ _ _ _ _ hrows hxy =>
    have F := hq _ _ _ hxy
    unfold Device.storageConstraints at hrows
    split at hrows
    · simp at hrows
    · simp only [bind_ok, pure_ok] at hrows
      obtain ⟨_, _, _, _, rfl⟩ := hrows
      unfold FeasibleTol at F
      simp only [List.mem_cons, List.not_mem_nil, or_false, forall_eq_or_imp, forall_eq, X.one_def,
        X.zero_def, X.neg_fin] at F
      obtain ⟨f1, f2, f4, f5, _⟩ := F
      obtain ⟨y, rfl⟩ := row_finite_q f1
      obtain ⟨x, rfl⟩ := row_finite_p f4
      simp only [X.fin_mul_fin, X.fin_add_fin, zero_mul, add_zero, zero_add, neg_mul, one_mul] at f1 f2 f4 f5
      have g1 := X.neg_le_add f1
      have g2 := X.sub_le_of f2
      have g4 := X.neg_le_add f4
      have g5 := X.sub_le_of f5
      rw [add_zero] at g1 g4
      rw [sub_zero] at g2 g5
      exact ⟨x, y, rfl, rfl, g1, g2, g4, g5⟩

/-- What `transition` is given: finite load demands, loads with a finite minimum and a non-negative
ratio Q/P, and potentials that are not NaN. -/
structure Spec.TameInputs (s : Sim K) (a : Sim.Args K) : Prop where
  load : ∀ d ∈ s.devices, d.isLoad = true → ∀ x, a.pLoad.get? d.id = some x → X.IsFin x
  pot : ∀ d ∈ s.devices, d.isNonSlackGen = true → ∀ x, a.pPot.get? d.id = some x → X.NotNan x
  ratio : ∀ d ∈ s.devices, d.isLoad = true → ∃ ρ m, d.qpRatio = .fin ρ ∧ 0 ≤ ρ ∧ d.pMin = .fin m

/-- Every non-slack device obeys its limits. -/
theorem device_limits (hn : CleanFile n base) (hs : SimOf n dt lam s) (hq : QPSound 0 c.qp)
    (ha : TameInputs s a) (h : s.transition c a = .ok (s', out)) (hd : d ∈ s'.devices)
    (hsl : d.isSlack = false) :
    ∃ p q, d.p = .fin p ∧ d.q = .fin q ∧ d.pMin ≤ .fin p ∧ .fin p ≤ d.pMax ∧
      d.qMin ≤ .fin q ∧ .fin q ≤ d.qMax := by
  by_cases hst : d.isStorage = true
  · exact storage_limits hq h hd hst hsl
  by_cases hg : d.isNonSlackGen = true
  · obtain ⟨p, q, _, e1, e2, _, g1, g2, _, g4, g5, _⟩ := C17_gen_limits hq h hd hg
    rw [add_zero] at g1 g4
    rw [sub_zero] at g2 g5
    exact ⟨p, q, e1, e2, g1, g2, g4, g5⟩
  have hl : d.isLoad = true := by
    by_contra hl
    exact absurd (kind_cases d (by simpa using hl) (by simpa using hg) (by simpa using hst)) (by simp [hsl])
  obtain ⟨d0, hd0, hsm⟩ := forall₂_mem_right (sameConfig_transition h).devices hd
  obtain ⟨e1, e2, e3, e4⟩ := hsm.classes
  obtain ⟨ρ, m, r1, r2, r3⟩ := ha.ratio d0 hd0 (e2 ▸ hl)
  have r1' : d.qpRatio = .fin ρ := by rw [hsm]; exact r1
  have r3' : d.pMin = .fin m := by rw [hsm]; exact r3
  obtain ⟨r, hr, ids, d1, hok, hm, hsm', _⟩ := simOf_load hn (simOf_transition hs h) hd hl
  have LI := mkLoad_ok hm
  have L := C03_load hok (basePos_of_simOf hn hs) hm
  obtain ⟨x, ratio, hx, _, _, hin, _⟩ := C18_load_clip hn hs h hd hl
  obtain ⟨i1, i2⟩ := hin (by obtain ⟨y, e⟩ := X.isFin_iff.1 (ha.load d0 hd0 (e2 ▸ hl) x (by
    rw [hsm] at hx; exact hx)); rw [e]; trivial)
  have hpm : d.pMax ≤ .fin 0 := by rw [hsm']; exact L.withdraws
  have hqd : d.q = d.p * d.qpRatio := by
    obtain ⟨d2, _, hr2⟩ := transition_device h hd hsl
    obtain ⟨k1, k2, k3, k4⟩ := hr2.same.classes
    rw [k2] at hl
    cases hr2 with
    | load => rfl
    | gen _ _ _ _ _ hl' hl'' => simp [hl] at hl''
    | storage _ _ _ _ _ _ _ _ hl'' => simp [hl] at hl''
    | slack hl'' => simp [hl] at hl''
    | none hl'' => simp [hl] at hl''
  have hqM : d.qMax = d.pMax * d.qpRatio := by rw [hsm']; exact LI.qMax
  have hqm : d.qMin = d.pMin * d.qpRatio := by rw [hsm']; exact LI.qMin
  rw [r3'] at i1
  have hpM' : ∃ M, d.pMax = .fin M := by
    have := X.le_trans' i1 i2
    cases hM : d.pMax with
    | fin M => exact ⟨M, rfl⟩
    | nan => rw [hM] at this; simp at this
    | ninf => rw [hM] at this; simp at this
    | pinf => rw [hM] at hpm; simp at hpm
  obtain ⟨M, hM⟩ := hpM'
  rw [hM] at i2
  have hp' : ∃ p, d.p = .fin p := by
    cases hp : d.p with
    | fin p => exact ⟨p, rfl⟩
    | nan => rw [hp] at i1; simp at i1
    | ninf => rw [hp] at i1; simp at i1
    | pinf => rw [hp] at i2; simp at i2
  obtain ⟨p, hp⟩ := hp'
  rw [hp] at i1 i2
  refine ⟨p, p * ρ, hp, ?_, ?_, ?_, ?_, ?_⟩
  · rw [hqd, hp, r1']; rfl
  · rw [r3']; exact i1
  · rw [hM]; exact i2
  · rw [hqm, r3', r1']; exact mul_le_mul_of_nonneg_right i1 r2
  · rw [hqM, hM, r1']; exact mul_le_mul_of_nonneg_right i2 r2

theorem simOf_bus_sorted (h : SimOf n dt lam s) : s.buses.Pairwise (fun a b => a.id < b.id) := by
  obtain ⟨s0, h0, h1⟩ := h
  obtain ⟨_, buses, branches, devices, bl, brl, dl, I, rfl⟩ := mkSim_ok.1 h0
  refine pairwise_forall₂ (R := SameBus) h1.buses (S := fun a b => a.id < b.id) ?_
    fun a b a' b' ha hb hab => ?_
  · exact List.pairwise_map.2 I.buses_sorted
  · rw [ha, hb]; exact hab

/-- The limits of a bus are the sums of the limits of its devices. -/
theorem simOf_bus_limits (h : SimOf n dt lam s) {b : Bus K} (hb : b ∈ s.buses) :
    b.pMin = sumX ((devicesAt s b.id).map Device.pMin) ∧
    b.pMax = sumX ((devicesAt s b.id).map Device.pMax) ∧
    b.qMin = sumX ((devicesAt s b.id).map Device.qMin) ∧
    b.qMax = sumX ((devicesAt s b.id).map Device.qMax) := by
  obtain ⟨s0, h0, h1⟩ := h
  obtain ⟨b0, hb0, hs⟩ := forall₂_mem_right h1.buses hb
  have key : ∀ f : Device K → X K, (∀ d d', SameMachine d d' → f d' = f d) →
      (devicesAt s0 b.id).map f = (devicesAt s b.id).map f := by
    intro f hf
    refine forall₂_filter_map h1.devices (fun x y hxy => ?_) (fun x y _ hxy _ => (hf x y hxy).symm)
    rw [hxy]
  have e : b.id = b0.id := by rw [hs]
  have C := C41_bus_limits h0 hb0
  rw [← e] at C
  obtain ⟨c1, c2, c3, c4⟩ := C
  rw [← key Device.pMin (fun d d' hd => by rw [hd]), ← key Device.pMax (fun d d' hd => by rw [hd]),
    ← key Device.qMin (fun d d' hd => by rw [hd]), ← key Device.qMax (fun d d' hd => by rw [hd])]
  have f1 : b.pMin = b0.pMin := by rw [hs]
  have f2 : b.pMax = b0.pMax := by rw [hs]
  have f3 : b.qMin = b0.qMin := by rw [hs]
  have f4 : b.qMax = b0.qMax := by rw [hs]
  exact ⟨f1.trans c1, f2.trans c2, f3.trans c3, f4.trans c4⟩

theorem X.add_le_fin {a b : X K} {x y : K} (h1 : a ≤ .fin x) (h2 : b ≤ .fin y) :
    a + b ≤ .fin (x + y) := by
  cases a with
  | nan => simp at h1
  | pinf => simp at h1
  | ninf =>
    cases b with
    | nan => simp at h2
    | pinf => simp at h2
    | ninf => trivial
    | fin b => trivial
  | fin a =>
    cases b with
    | nan => simp at h2
    | pinf => simp at h2
    | ninf => trivial
    | fin b => exact add_le_add h1 h2

theorem X.fin_le_add {a b : X K} {x y : K} (h1 : .fin x ≤ a) (h2 : .fin y ≤ b) :
    .fin (x + y) ≤ a + b := by
  cases a with
  | nan => simp at h1
  | ninf => simp at h1
  | pinf =>
    cases b with
    | nan => simp at h2
    | ninf => simp at h2
    | pinf => trivial
    | fin b => trivial
  | fin a =>
    cases b with
    | nan => simp at h2
    | ninf => simp at h2
    | pinf => trivial
    | fin b => exact add_le_add h1 h2

/-- Sums of bounds bound sums. -/
theorem sumX_bounds {l : List (Device K)} {f lo hi : Device K → X K}
    (h : ∀ d ∈ l, ∃ x, f d = .fin x ∧ lo d ≤ .fin x ∧ .fin x ≤ hi d) :
    sumX (l.map lo) ≤ sumX (l.map f) ∧ sumX (l.map f) ≤ sumX (l.map hi) := by
  have step : ∀ (l : List (Device K)) (x y z : X K) (v : K), (∀ d ∈ l, ∃ x, f d = .fin x ∧ lo d ≤ .fin x ∧
      .fin x ≤ hi d) → y = .fin v → x ≤ y → y ≤ z →
      (l.map lo).foldl (· + ·) x ≤ (l.map f).foldl (· + ·) y ∧
      (l.map f).foldl (· + ·) y ≤ (l.map hi).foldl (· + ·) z := by
    intro l
    induction l with
    | nil => intro x y z v _ _ h1 h2; exact ⟨h1, h2⟩
    | cons d l ih =>
      intro x y z v hd hy h1 h2
      obtain ⟨w, e1, e2, e3⟩ := hd d (by simp)
      subst hy
      simp only [List.map_cons, List.foldl_cons, e1, X.fin_add_fin]
      refine ih _ _ _ _ (fun d' hd' => hd d' (by simp [hd'])) rfl ?_ ?_
      · exact X.add_le_fin h1 e2
      · exact X.fin_le_add h2 e3
  exact step l 0 0 0 0 h rfl (by simp [X.zero_def]) (by simp [X.zero_def])

theorem get?_of_mem {α β : Type} {l : List α} {f : α → ℤ} {g : α → β}
    (hinj : ∀ x ∈ l, ∀ y ∈ l, f x = f y → x = y) {x : α} (hx : x ∈ l) :
    Dict.get? (l.map fun y => (Ident.node (f y), g y)) (.node (f x)) = some (g x) := by
  rw [get?_map l (fun y => Ident.node (f y)) g, find?_unique hinj hx]; rfl

theorem X.between_inf {x : X K} (h : X.NotNan x) : .ninf ≤ x ∧ x ≤ .pinf := by
  cases x <;> first | exact ⟨trivial, trivial⟩ | exact absurd h (by simp)

/-- **C40 (partial).** With a sound quadratic-program solver, finite demands and potentials, and loads
whose ratio Q/P is not negative, after every transition from a state with correct states of charge, the
following reported values are within the bounds returned by `get_state_space`, in p.u. and in MW / MVAr /
MWh: `dev_p` and `dev_q` of all devices except the slack, `des_soc`, `gen_p_max` (p.u. only), `bus_p` and
`bus_q` of all buses except the slack bus, `bus_v_magn` of all buses except the slack bus.
Missing: the slack device and bus, whose injections and voltage are not limited, `gen_p_max` in MW and
loads with a negative ratio; for all of them the claim is false (`C40_counterexample_*`). -/
theorem C40_bounds_partial {t : K} (hn : CleanFile n base) (hdoc : Documented n)
    (hs : SimOf n (.fin t) lam s) (ht : 0 < t)
    (hq : QPSound 0 c.qp) (hf : FiniteCapacity s) (h0 : SocOk s) (ha : TameInputs s a)
    (h : s.transition c a = .ok (s', out)) : ∃ st, s'.state = some st ∧
    (∀ d ∈ s'.devices, d.isSlack = false →
      InBounds (s'.stateSpace c.pi) st .devP .pu d.id ∧ InBounds (s'.stateSpace c.pi) st .devP .mw d.id ∧
      InBounds (s'.stateSpace c.pi) st .devQ .pu d.id ∧ InBounds (s'.stateSpace c.pi) st .devQ .mvar d.id) ∧
    (∀ d ∈ s'.devices, d.isStorage = true →
      InBounds (s'.stateSpace c.pi) st .desSoc .pu d.id ∧ InBounds (s'.stateSpace c.pi) st .desSoc .mwh d.id) ∧
    (∀ d ∈ s'.devices, d.isNonSlackGen = true → InBounds (s'.stateSpace c.pi) st .genPMax .pu d.id) ∧
    (∀ b ∈ s'.buses, b.isSlack = false →
      InBounds (s'.stateSpace c.pi) st .busP .pu b.id ∧ InBounds (s'.stateSpace c.pi) st .busP .mw b.id ∧
      InBounds (s'.stateSpace c.pi) st .busQ .pu b.id ∧ InBounds (s'.stateSpace c.pi) st .busQ .mvar b.id ∧
      (X.NotNan b.v.abs → InBounds (s'.stateSpace c.pi) st .busVMagn .pu b.id)) := by
  have hs' := simOf_transition hs h
  have hbp := basePos_of_simOf hn hs
  have hbase : s'.baseMVA = .fin base := (simOf_base hs').1.trans hn.base
  obtain ⟨st, hst, hg⟩ := call_state (c := c) (.inl ⟨a, out, h⟩)
  have hdi : ∀ x ∈ s'.devices, ∀ y ∈ s'.devices, x.id = y.id → x = y :=
    fun x hx y hy e => sorted_id_inj (simOf_sorted hs') hx hy e
  have hbi : ∀ x ∈ s'.buses, ∀ y ∈ s'.buses, x.id = y.id → x = y :=
    fun x hx y hy e => sorted_bus_inj (simOf_bus_sorted hs') hx hy e
  have hfi : ∀ P : Device K → Bool, ∀ x ∈ s'.devices.filter P, ∀ y ∈ s'.devices.filter P, x.id = y.id → x = y :=
    fun P x hx y hy e => hdi x (List.mem_filter.1 hx).1 y (List.mem_filter.1 hy).1 e
  have hsc : ∀ k u i, (k, u) ∈ scaledBounds → InBounds (s'.stateSpace c.pi) st k .pu i →
      InBounds (s'.stateSpace c.pi) st k u i := by
    intro k u i hk hin
    have hk' : (k, u) ∈ powerUnits := by
      simp only [scaledBounds, powerUnits, List.mem_cons, Prod.mk.injEq, List.not_mem_nil, or_false] at hk ⊢
      rcases hk with hk | hk | hk | hk | hk | hk | hk | hk <;> simp [hk]
    refine inBounds_scale hbp hin ?_ ?_
    · rw [← hbase]; exact C38_power_units hg hk' _
    · rw [← hbase]; exact C39_bounds_partial hbase hbp hk _
  have hdev := fun d hd hsl => device_limits (d := d) hn hs hq ha h hd hsl
  have hg' := hg
  simp only [Sim.gatherState, bind_ok, pure_ok] at hg'
  obtain ⟨soc, hsoc, hste⟩ := hg'
  have R1 : ∀ i, reading st .devP .pu i = Dict.get? (s'.devices.map fun d => (Ident.node d.id, d.p)) i := by
    rw [← hste]; intro; rfl
  have R2 : ∀ i, reading st .devQ .pu i = Dict.get? (s'.devices.map fun d => (Ident.node d.id, d.q)) i := by
    rw [← hste]; intro; rfl
  have R3 : ∀ i, reading st .desSoc .pu i = Dict.get? soc i := by
    rw [← hste]; intro; rfl
  have R4 : ∀ i, reading st .genPMax .pu i = Dict.get?
      ((s'.devices.filter Device.isNonSlackGen).map fun d => (Ident.node d.id, d.pPot)) i := by
    rw [← hste]; intro; rfl
  have R5 : ∀ i, reading st .busP .pu i = Dict.get? (s'.buses.map fun b => (Ident.node b.id, b.p)) i := by
    rw [← hste]; intro; rfl
  have R6 : ∀ i, reading st .busQ .pu i = Dict.get? (s'.buses.map fun b => (Ident.node b.id, b.q)) i := by
    rw [← hste]; intro; rfl
  have R7 : ∀ i, reading st .busVMagn .pu i =
      Dict.get? (s'.buses.map fun b => (Ident.node b.id, b.v.abs)) i := by
    rw [← hste]; intro; rfl
  refine ⟨st, hst, fun d hd hsl => ?_, fun d hd hdes => ?_, fun d hd hgen => ?_, fun b hb hsl => ?_⟩
  · obtain ⟨p, q, e1, e2, l1, l2, l3, l4⟩ := hdev d hd hsl
    have hp : InBounds (s'.stateSpace c.pi) st .devP .pu d.id :=
      ⟨d.p, d.pMin, d.pMax, (R1 _).trans (get?_of_mem hdi hd), by
        show Option.bind (Dict.get? (s'.devices.map _) _) _ = _
        rw [get?_of_mem (g := fun d : Device K => ([(.mw, (d.pMin * s'.baseMVA, d.pMax * s'.baseMVA)),
          (.pu, (d.pMin, d.pMax))] : Dict QUnit (X K × X K))) hdi hd]; rfl,
        by rw [e1]; exact l1, by rw [e1]; exact l2⟩
    have hq : InBounds (s'.stateSpace c.pi) st .devQ .pu d.id :=
      ⟨d.q, d.qMin, d.qMax, (R2 _).trans (get?_of_mem hdi hd), by
        show Option.bind (Dict.get? (s'.devices.map _) _) _ = _
        rw [get?_of_mem (g := fun d : Device K => ([(.mvar, (d.qMin * s'.baseMVA, d.qMax * s'.baseMVA)),
          (.pu, (d.qMin, d.qMax))] : Dict QUnit (X K × X K))) hdi hd]; rfl,
        by rw [e2]; exact l3, by rw [e2]; exact l4⟩
    exact ⟨hp, hsc _ _ _ (by simp [scaledBounds]) hp, hq, hsc _ _ _ (by simp [scaledBounds]) hq⟩
  · obtain ⟨x, hx, l1, l2⟩ := socOk_step hn hs ht (storageNotNan_of_sound hq _) hf h0 h d hd hdes
    have hmem : d ∈ s'.devices.filter Device.isStorage := List.mem_filter.2 ⟨hd, hdes⟩
    have hp : InBounds (s'.stateSpace c.pi) st .desSoc .pu d.id := by
      refine ⟨x, d.socMin, d.socMax, ?_, ?_, l1, l2⟩
      · rw [R3]
        have hsoc' : soc = (s'.devices.filter Device.isStorage).map fun d =>
            (Ident.node d.id, d.soc.getD .nan) := by
          rw [← List.forall₂_eq_eq_eq, List.forall₂_map_right_iff]
          refine (mapE_ok.1 hsoc).flip.imp fun e d hd => ?_
          split at hd
          · cases hd
          · rename_i y hy
            injection hd with hd
            rw [← hd, hy]; rfl
        rw [hsoc', get?_of_mem (hfi _) hmem, hx]; rfl
      · show Option.bind (Dict.get? ((s'.devices.filter Device.isStorage).map _) _) _ = _
        rw [get?_of_mem (g := fun d : Device K => ([(.mwh, (d.socMin * s'.baseMVA, d.socMax * s'.baseMVA)),
          (.pu, (d.socMin, d.socMax))] : Dict QUnit (X K × X K))) (hfi _) hmem]; rfl
    exact ⟨hp, hsc _ _ _ (by simp [scaledBounds]) hp⟩
  · have hmem : d ∈ s'.devices.filter Device.isNonSlackGen := List.mem_filter.2 ⟨hd, hgen⟩
    refine ⟨d.pPot, d.pMin, d.pMax, ?_, (C39_gen_p_max (simOf_sorted hs') hd hgen).2, ?_⟩
    · rw [R4, get?_of_mem (g := fun d : Device K => d.pPot) (hfi _) hmem]
    · have hns := nonSlackGen_notSlack hgen
      obtain ⟨r, hr, ids, d1, kind, hok, hm, hsm, hd1⟩ := simOf_gen hn hs' hd hgen
      have G := C05_generator hok hbp hm hd1
      have hle : d.pMin ≤ d.pMax := by
        rw [hsm]; exact X.le_trans' G.p1 G.p2
      obtain ⟨d0, hd0, hr⟩ := transition_device h hd hns.1
      obtain ⟨e1, e2, e3, e4⟩ := hr.same.classes
      rw [e4] at hgen
      rw [e1, e2, e3] at hns
      cases hr with
      | load _ hl => simp [hl] at hns
      | storage _ _ _ _ _ _ hl => simp [hl] at hns
      | slack _ _ _ hl => simp [hl] at hns
      | none _ hl => simp [hl] at hgen
      | gen pot p q x y hl _ hpot =>
        have hpn : X.NotNan (pot / s.baseMVA) := by
          rw [(simOf_base hs).1, hn.base]
          exact X.div_notNan hbp (ha.pot d0 hd0 hgen _ (Dict.getE_ok.1 hpot))
        have hc1 := X.clip_mem hpn hle
        exact X.clip_mem (X.le_notNan hc1.1).2 hle
  · obtain ⟨i, j, hos⟩ := oneSlack_of_file hn hdoc hs
    obtain ⟨s1, s2⟩ := C33_bus_sum_partial hos h hb (by simp [hsl])
    obtain ⟨b1, b2, b3, b4⟩ := simOf_bus_limits hs' hb
    have ho' := oneSlack_same (sameConfig_transition h) hos
    have hnos : ∀ d ∈ devicesAt s' b.id, d ∈ s'.devices ∧ d.isSlack = false := by
      intro d hd
      simp only [devicesAt, List.mem_filter, decide_eq_true_eq] at hd
      refine ⟨hd.1, ?_⟩
      by_contra hcon
      have := ho'.on d hd.1 (by simpa using hcon)
      have hb' := (ho'.bus b hb).2 (by rw [← hd.2]; exact this)
      rw [hsl] at hb'
      cases hb'
    have hP := sumX_bounds (l := devicesAt s' b.id) (f := Device.p) (lo := Device.pMin) (hi := Device.pMax)
      fun d hd => by
        obtain ⟨p, q, e1, e2, l1, l2, l3, l4⟩ := hdev d (hnos d hd).1 (hnos d hd).2
        exact ⟨p, e1, l1, l2⟩
    have hQ := sumX_bounds (l := devicesAt s' b.id) (f := Device.q) (lo := Device.qMin) (hi := Device.qMax)
      fun d hd => by
        obtain ⟨p, q, e1, e2, l1, l2, l3, l4⟩ := hdev d (hnos d hd).1 (hnos d hd).2
        exact ⟨q, e2, l3, l4⟩
    rw [← b1, ← b2, ← s1] at hP
    rw [← b3, ← b4, ← s2] at hQ
    have hp : InBounds (s'.stateSpace c.pi) st .busP .pu b.id :=
      ⟨b.p, b.pMin, b.pMax, (R5 _).trans (get?_of_mem hbi hb), by
        show Option.bind (Dict.get? (s'.buses.map _) _) _ = _
        rw [get?_of_mem (g := fun d : Bus K => ([(.mw, (d.pMin * s'.baseMVA, d.pMax * s'.baseMVA)),
          (.pu, (d.pMin, d.pMax))] : Dict QUnit (X K × X K))) hbi hb]; rfl, hP.1, hP.2⟩
    have hq : InBounds (s'.stateSpace c.pi) st .busQ .pu b.id :=
      ⟨b.q, b.qMin, b.qMax, (R6 _).trans (get?_of_mem hbi hb), by
        show Option.bind (Dict.get? (s'.buses.map _) _) _ = _
        rw [get?_of_mem (g := fun d : Bus K => ([(.mvar, (d.qMin * s'.baseMVA, d.qMax * s'.baseMVA)),
          (.pu, (d.qMin, d.qMax))] : Dict QUnit (X K × X K))) hbi hb]; rfl, hQ.1, hQ.2⟩
    refine ⟨hp, hsc _ _ _ (by simp [scaledBounds]) hp, hq, hsc _ _ _ (by simp [scaledBounds]) hq,
      fun hv => ⟨b.v.abs, .ninf, .pinf, (R7 _).trans (get?_of_mem (g := fun b : Bus K => b.v.abs) hbi hb), ?_, ?_, ?_⟩⟩
    · show Option.bind (Dict.get? (s'.buses.map _) _) _ = _
      rw [get?_of_mem (g := fun b : Bus K => (if b.isSlack then [(.pu, (b.vMax, b.vMax)),
        (.kv, (b.vMax * b.baseKV, b.vMax * b.baseKV))] else [(.pu, (.ninf, .pinf)), (.kv, (.ninf, .pinf))] :
          Dict QUnit (X K × X K))) hbi hb]
      simp only [hsl]
      rfl
    · exact (X.between_inf hv).1
    · exact (X.between_inf hv).2

end

/-! ### Counterexamples and examples -/

instance (bs : StateBounds ℚ) (st : SimState ℚ) (k : Key) (u : QUnit) (i : ℤ) :
    Decidable (InBounds bs st k u i) :=
  decidable_of_iff
    ((match reading st k u (.node i), bound bs k u (.node i) with
      | some v, some b => decide (b.1 ≤ v) && decide (v ≤ b.2)
      | _, _ => false) = true) (by
    unfold InBounds
    cases h1 : reading st k u (.node i) with
    | none => simp
    | some v =>
      cases h2 : bound bs k u (.node i) with
      | none => simp
      | some b =>
        simp only [Bool.and_eq_true, decide_eq_true_eq, Option.some.injEq]
        constructor
        · rintro ⟨a, b⟩; exact ⟨_, _, _, rfl, rfl, a, b⟩
        · rintro ⟨_, _, _, rfl, rfl, a, b⟩; exact ⟨a, b⟩)

/-- The state dictionary and the state space after one transition of a network. -/
def boundsDemo (n : Network ℚ) : Except PyErr (SimState ℚ × StateBounds ℚ) := do
  let s0 ← mkSim n (.fin (1/4)) (.fin 100)
  let (s1, _) ← s0.reset demoCtx demoInit
  let (s2, _) ← s1.transition demoCtx (demoArgs (-40))
  pure (s2.state.getD [], s2.stateSpace demoCtx.pi)

/-- The demo network with the limits of the generator `QMAX`, the ratio Q/P of the load and the maximum
voltage of the slack bus as parameters. -/
def limitNet (qmax ratio vmax : ℚ) : Network ℚ := Network.ofLists (.fin 100)
  [[num 0, num 0, num 132, num vmax, num 1], [num 1, num 1, num 33, num (11/10), num (9/10)],
   [num 2, num 1, num 33, num (11/10), num (9/10)]]
  [[num 0, num 1, num (1/100), num (1/10), num 0, num 32, num 1, num 0],
   [num 1, num 2, num (1/50), num (3/10), none, num 25, none, none]]
  [[num 0, num 0, num 0, none, num 200, num (-200), num 200, num (-200), none, none, none, none, none, none, none],
   [num 1, num 1, num (-1), num ratio, num 0, num (-10), none, none, none, none, none, none, none, none, none],
   [num 2, num 1, num 2, none, num 30, num 0, num qmax, num (-30), num 20, none, num 5, num (-15), none, none, none],
   [num 3, num 2, num 3, none, num 50, num (-50), num 50, num (-50), num 30, num (-30), num 25, num (-25), num 100, num 0,
    num (9/10)]]

/-- **C39, counterexample.** A generator with `PMAX = 30` MW and `QMAX = 10` MVAr: the upper bound of
`gen_p_max` is 0.3 p.u. and 10 MW (instead of 30 MW). -/
theorem C39_counterexample : ∃ x, boundsDemo (limitNet 10 (1/5) 1) = .ok x ∧
    (bound x.2 .genPMax .pu (.node 2) = some (.fin 0, .fin (3/10)) ∧
     bound x.2 .genPMax .mw (.node 2) = some (.fin 0, .fin 10)) := exOk (by decide +kernel)

/-- **C40, counterexample.** The same generator, with 20 MW available: `gen_p_max` = 20 MW is reported. -/
theorem C40_counterexample_gen_p_max : ∃ x, boundsDemo (limitNet 10 (1/5) 1) = .ok x ∧
    ¬ InBounds x.2 x.1 .genPMax .mw 2 := exOk (by decide +kernel)

/-- **C40, counterexample.** A load with a negative ratio Q/P: its reactive power is outside the bounds
(the lower bound is above the upper bound). -/
theorem C40_counterexample_ratio : ∃ x, boundsDemo (limitNet 30 (-1/5) 1) = .ok x ∧
    ¬ InBounds x.2 x.1 .devQ .pu 1 := exOk (by decide +kernel)

/-- **C40, counterexample.** A slack bus with `VMAX = 1.1`: its bounds are (1.1, 1.1) but the reported
voltage is 1 (see `C40_slack_voltage` for the actual power flow). -/
theorem C40_counterexample_slack_voltage : ∃ x, boundsDemo (limitNet 30 (1/5) (11/10)) = .ok x ∧
    ¬ InBounds x.2 x.1 .busVMagn .pu 0 := exOk (by decide +kernel)

/-- The hypotheses of `C40_bounds_partial` and of C38 are met by the demo network. -/
example : ∃ x, boundsDemo demoNet = .ok x ∧
    (InBounds x.2 x.1 .devP .mw 1 ∧ InBounds x.2 x.1 .devQ .pu 2 ∧ InBounds x.2 x.1 .desSoc .mwh 3 ∧
     InBounds x.2 x.1 .busP .mw 1 ∧ reading x.1 .devP .mw (.node 1) = some (.fin (-5)) ∧
     reading x.1 .devP .pu (.node 1) = some (.fin (-1/20))) := exOk (by decide +kernel)

def tameDemo : Except PyErr (Sim ℚ × Sim ℚ × Sim ℚ × Sim.TransOut ℚ) := do
  let s0 ← mkSim demoNet (.fin (1/4)) (.fin 100)
  let (s1, _) ← s0.reset demoCtx demoInit
  let (s2, o) ← s1.transition demoCtx (demoArgs (-40))
  pure (s0, s1, s2, o)

theorem tameDemo_ok : ∃ x, tameDemo = .ok x ∧ (SocOk x.2.1 ∧ FiniteCapacity x.2.1 ∧
    (∀ d ∈ x.2.1.devices, d.isLoad = true → d.qpRatio = .fin (1/5) ∧ d.pMin = .fin (-1/10))) :=
  exOk (by decide +kernel)

theorem demo_documented : Documented demoNet := by
  refine ⟨demoNet_integral, ?_⟩
  have : ∀ r ∈ demoNet.bus, r BusCol.busType = some (.fin 0) ∨ r BusCol.busType = some (.fin 1) := by
    decide +kernel
  exact this

/-- All hypotheses of `C40_bounds_partial` are met by the demo network. -/
example : ∃ s s' out, CleanFile demoNet 100 ∧ Documented demoNet ∧
    SimOf demoNet (.fin (1/4)) (.fin 100) s ∧ QPSound 0 demoCtx.qp ∧ FiniteCapacity s ∧ SocOk s ∧
    TameInputs s (demoArgs (-40)) ∧ s.transition demoCtx (demoArgs (-40)) = .ok (s', out) := by
  obtain ⟨⟨s0, s1, s2, o⟩, hx, e1, e2, e3⟩ := tameDemo_ok
  simp only [tameDemo, bind_ok, pure_ok, Prod.mk.injEq] at hx
  obtain ⟨_, h0, ⟨_, b⟩, h1, ⟨_, _⟩, h2, rfl, rfl, rfl, rfl⟩ := hx
  refine ⟨_, _, _, demo_clean, demo_documented, simOf_reset (simOf_mk h0) h1, demoQP_sound, e2, e1, ⟨?_, ?_, ?_⟩, h2⟩
  · intro d hd hl x hx
    simp only [demoArgs, Dict.get?, List.find?_cons] at hx
    split at hx <;> simp at hx
    rw [← hx]; trivial
  · intro d hd hl x hx
    simp only [demoArgs, Dict.get?, List.find?_cons] at hx
    split at hx <;> simp at hx
    rw [← hx]; trivial
  · intro d hd hl
    obtain ⟨a1, a2⟩ := e3 d hd hl
    exact ⟨_, _, a1, by norm_num, a2⟩

/-- **C40, slack voltage.** After a converged power flow the reported voltage of the slack bus is 1 p.u.,
so it is within the advertised bounds exactly if `VMAX = 1`. -/
theorem C40_slack_voltage {n : Network ℝ} {base : ℝ} {dt lam : X ℝ} {s s' : Sim ℝ} {m : ℕ}
    {ls : List LineC} {o : LFOracle} {qp : QP ℝ} {pi : ℝ} {a : Sim.Args ℝ} {out : Sim.TransOut ℝ}
    (hn : CleanFile n base) (hs : SimOf n dt lam s) (hm : Numbered s m) (hl : FiniteLines s ls)
    (h : s.transition ⟨qp, realPF o, pi⟩ a = .ok (s', out)) (hc : out.converged = true)
    {b : Bus ℝ} (hb : b ∈ s'.buses) (h0 : b.id = 0) (hsl : b.isSlack = true) :
    ∃ st, s'.state = some st ∧ reading st .busVMagn .pu (.node 0) = some (.fin 1) ∧
      (InBounds (s'.stateSpace pi) st .busVMagn .pu 0 ↔ b.vMax = .fin 1) := by
  obtain ⟨V, hV, _⟩ := C25_converged hn hs hm hl h hc
  have hbi : ∀ x ∈ s'.buses, ∀ y ∈ s'.buses, x.id = y.id → x = y :=
    fun x hx y hy e => sorted_bus_inj (simOf_bus_sorted (simOf_transition hs h)) hx hy e
  obtain ⟨st, hst, hg⟩ := call_state (c := ⟨qp, realPF o, pi⟩) (.inl ⟨a, out, h⟩)
  simp only [Sim.gatherState, bind_ok, pure_ok] at hg
  obtain ⟨soc, _, hste⟩ := hg
  have hv : b.v.abs = .fin 1 := by
    rw [hV.v b hb, h0, hV.ref]
    simp [Phasor.ofC]
  have R : reading st .busVMagn .pu (.node 0) = some (.fin 1) := by
    have : reading st .busVMagn .pu (.node 0) =
      Dict.get? (s'.buses.map fun b => (Ident.node b.id, b.v.abs)) (.node 0) := by rw [← hste]; rfl
    rw [this, ← h0, get?_of_mem (g := fun b : Bus ℝ => b.v.abs) hbi hb, hv]
  have B : bound (s'.stateSpace pi) .busVMagn .pu (.node 0) = some (b.vMax, b.vMax) := by
    show Option.bind (Dict.get? (s'.buses.map _) _) _ = _
    rw [← h0, get?_of_mem (g := fun b : Bus ℝ => (if b.isSlack then [(.pu, (b.vMax, b.vMax)),
      (.kv, (b.vMax * b.baseKV, b.vMax * b.baseKV))] else [(.pu, (.ninf, .pinf)), (.kv, (.ninf, .pinf))] :
        Dict QUnit (X ℝ × X ℝ))) hbi hb]
    simp only [hsl]
    rfl
  refine ⟨st, hst, R, ?_⟩
  unfold InBounds
  rw [R, B]
  constructor
  · rintro ⟨v, lo, hi, e1, e2, l1, l2⟩
    simp only [Option.some.injEq, Prod.mk.injEq] at e1 e2
    obtain ⟨rfl, rfl⟩ := e2
    subst e1
    exact X.le_antisymm' l1 l2
  · intro e
    rw [e]
    exact ⟨_, _, _, rfl, rfl, le_refl (1 : ℝ), le_refl (1 : ℝ)⟩

end Anm
