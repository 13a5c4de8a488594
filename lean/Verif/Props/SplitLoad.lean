import Verif.Props.Totals

/-! # C139: two loads at a bus act as one -/

set_option linter.unusedSectionVars false

namespace Anm

open Spec

namespace Spec
variable {K : Type} [Field K] [LinearOrder K]

/-- Where `s` has the load `j`, `u` has the two loads `j₁` and `j₂`: at the same bus and with the same ratio of reactive to active power.
All else is the same in both, including the stored energy. -/
structure SplitLoad (j j₁ j₂ : ℤ) (s u : Sim K) : Prop where
  grid : SameGrid s u
  devices : ∃ d e₁ e₂ l l', s.devices.Perm (d :: l) ∧ u.devices.Perm (e₁ :: e₂ :: l') ∧ (d.id = j ∧ e₁.id = j₁ ∧ e₂.id = j₂) ∧
    (d.isLoad = true ∧ e₁.isLoad = true ∧ e₂.isLoad = true) ∧ (e₁.busId = d.busId ∧ e₂.busId = d.busId) ∧
    (∃ r, d.qpRatio = .fin r ∧ e₁.qpRatio = .fin r ∧ e₂.qpRatio = .fin r) ∧
    List.Forall₂ (fun x y => SameMachine x y ∧ y.soc = x.soc) l l'

/-- A demand of `x` MW is within the limits of device `j`. -/
def DemandFits (s : Sim K) (base : K) (j : ℤ) (x : K) : Prop := ∀ d ∈ s.devices, d.id = j → d.pMin ≤ .fin (x / base) ∧ .fin (x / base) ≤ d.pMax

/-- Arguments of `s` and `u` that differ only in the demands of the loads; the load `j` of `s` demands what the loads `j₁` and `j₂` of `u` demand
together. -/
structure SplitArgs (j j₁ j₂ : ℤ) (s u : Sim K) (base : K) (a b : Sim.Args K) : Prop where
  rest : ∀ i, i ≠ j → i ≠ j₁ → i ≠ j₂ → AgreeAt i a b
  demands : ∃ x₁ x₂, a.pLoad.get? j = some (.fin (x₁ + x₂)) ∧ b.pLoad.get? j₁ = some (.fin x₁) ∧ b.pLoad.get? j₂ = some (.fin x₂) ∧
    DemandFits s base j (x₁ + x₂) ∧ DemandFits u base j₁ x₁ ∧ DemandFits u base j₂ x₂

/-- Two runs with such arguments and with the results of the steps, the latest first. -/
inductive SplitRuns (c : Ctx K) (j j₁ j₂ : ℤ) (base : K) (s u : Sim K) : Sim K → Sim K → List (Sim.TransOut K) → List (Sim.TransOut K) → Prop where
  | nil : SplitRuns c j j₁ j₂ base s u s u [] []
  | snoc {s₁ u₁ s' u' : Sim K} {a b : Sim.Args K} {o o' : Sim.TransOut K} {os os' : List (Sim.TransOut K)} :
      SplitRuns c j j₁ j₂ base s u s₁ u₁ os os' → SplitArgs j j₁ j₂ s₁ u₁ base a b → s₁.transition c a = .ok (s', o) →
      u₁.transition c b = .ok (u', o') → SplitRuns c j j₁ j₂ base s u s' u' (o :: os) (o' :: os')

end Spec

section
variable {K : Type} [Field K] [LinearOrder K] [IsStrictOrderedRing K] [FloorRing K]
variable {n m : Network K} {dt lam lam₂ : X K} {base : K} {c c₂ : Ctx K} {s s' u u' : Sim K} {a b : Sim.Args K} {out out₂ : Sim.TransOut K}

theorem forall₂_square {α β γ δ : Type} {P : α → β → Prop} {R : α → γ → Prop} {S : β → δ → Prop} {Q : γ → δ → Prop} {l : List α} {l' : List β}
    {w : List γ} {w' : List δ} (h : List.Forall₂ P l l') (hR : List.Forall₂ R l w) (hS : List.Forall₂ S l' w')
    (H : ∀ x y x' y', P x y → R x x' → S y y' → Q x' y') : List.Forall₂ Q w w' := by
  induction h generalizing w w' with
  | nil => cases hR; cases hS; exact .nil
  | cons h _ ih =>
    cases hR with
    | cons r rs =>
      cases hS with
      | cons t ts => exact .cons (H _ _ _ _ h r t) (ih rs ts)

/-- What a time step does to a device. -/
structure Stepped (c : Ctx K) (s s' : Sim K) (a : Sim.Args K) (d d' : Device K) : Prop where
  mem : d' ∈ s'.devices
  kind : d.isSlack = true → d.kind = .classical
  step : ∃ d1, StepRel c.qp s.baseMVA s.deltaT a d d1 ∧ (d.isSlack = false → d' = d1) ∧
    (d.isSlack = true → ∃ b, s'.buses.find? (fun b => b.id = d.busId) = some b ∧ d' = { d1 with p := b.p, q := b.q })

theorem stepped_of (hs : SimOf n dt lam s) (h : s.transition c a = .ok (s', out)) : List.Forall₂ (Stepped c s s' a) s.devices s'.devices := by
  obtain ⟨ds, o, I⟩ := transition_ok h
  have h1 := I.solve.step
  have h2 := I.solve.apply.devices
  simp only at h2
  have key : List.Forall₂ (fun d d' => ∃ d1, StepRel c.qp s.baseMVA s.deltaT a d d1 ∧ (d.isSlack = false → d' = d1) ∧
      (d.isSlack = true → ∃ b, s'.buses.find? (fun b => b.id = d.busId) = some b ∧ d' = { d1 with p := b.p, q := b.q })) s.devices s'.devices := by
    clear I h hs
    generalize s.devices = l at h1
    generalize s'.devices = l' at h2
    induction h1 generalizing l' with
    | nil => cases h2; exact .nil
    | cons h _ ih =>
      cases h2 with
      | cons g gs =>
        have st := stepDevice_ok h
        have e1 := st.same.classes.1
        have e2 := congrArg Device.busId st.same
        simp only at e2
        refine .cons ⟨_, st, fun hsl => g.1 (e1.trans hsl), fun hsl => ?_⟩ (ih _ gs)
        obtain ⟨b, hb, e⟩ := g.2 (e1.trans hsl)
        exact ⟨b, by rw [← e2]; exact hb, e⟩
  have m1 : List.Forall₂ (fun d d' => d ∈ s.devices) s.devices s'.devices := forall₂_mono_mem key fun d hd _ _ => hd
  have m2 : List.Forall₂ (fun d d' => d' ∈ s'.devices) s.devices s'.devices := (forall₂_mono_mem key.flip fun d hd _ _ => hd).flip
  exact (forall₂_both key (forall₂_both m1 m2)).imp fun d d' h => ⟨h.2.2, slack_kind hs h.2.1, h.1⟩

/-- The devices that are not involved, after the step: the same but perhaps for the power of the slack. -/
structure Alike (x y : Device K) : Prop where
  same : SameMachine x y
  soc : y.soc = x.soc
  p : x.isSlack = false → y.p = x.p ∧ y.q = x.q
  pot : x.isNonSlackGen = true → y.pPot = x.pPot

theorem alike_step (hb : u.baseMVA = s.baseMVA) (hd : u.deltaT = s.deltaT) (hq : c₂.qp = c.qp) {x y x' y' : Device K}
    (hm : SameMachine x y) (hso : y.soc = x.soc) (ha : AgreeAt x.id a b) (hx : Stepped c s s' a x x') (hy : Stepped c₂ u u' b y y') : Alike x' y' := by
  obtain ⟨x1, sx, fx, tx⟩ := hx.step
  obtain ⟨y1, sy, fy, ty⟩ := hy.step
  have eb : y.busId = x.busId := by rw [hm]
  cases hsl : x.isSlack with
  | false =>
    have hsl' : y.isSlack = false := by rw [← hsl, hm]
    rw [fx hsl, fy hsl']
    rw [hb, hd, hq] at sy
    obtain ⟨r1, r2, r3, r4⟩ := stepRel_same hm hso hsl ha sx sy
    have m1 := sx.same
    have m2 := sy.same
    refine ⟨?_, r3, fun _ => ⟨r1, r2⟩, fun h => r4 (by rw [← m1.classes.2.2.2]; exact h)⟩
    unfold SameMachine at *
    rw [m2, hm, m1]
  | true =>
    have hsl' : y.isSlack = true := by rw [← hsl, hm]
    have kx := hx.kind hsl
    have ky := hy.kind hsl'
    have e1 : x1 = { x with p := 0, q := 0 } := by
      have q1 : x.isLoad = false ∧ x.isNonSlackGen = false ∧ x.isStorage = false := by
        unfold Device.isLoad Device.isNonSlackGen Device.isGen Device.isStorage
        simp_all
      cases sx <;> simp_all
    have e2 : y1 = { y with p := 0, q := 0 } := by
      have q1 : y.isLoad = false ∧ y.isNonSlackGen = false ∧ y.isStorage = false := by
        unfold Device.isLoad Device.isNonSlackGen Device.isGen Device.isStorage
        simp_all
      cases sy <;> simp_all
    obtain ⟨b1, -, e3⟩ := tx hsl
    obtain ⟨b2, -, e4⟩ := ty hsl'
    subst e1 e2 e3 e4
    refine ⟨?_, hso, fun h => absurd h (by simp [hsl]), fun h => ?_⟩
    · unfold SameMachine at hm ⊢
      rw [hm]
    · have : x.isNonSlackGen = false := by unfold Device.isNonSlackGen; simp [hsl]
      exact absurd (this.symm.trans h) (by simp)

/-- A load within its limits. -/
theorem load_stepped (hbase : s.baseMVA = .fin base) (hb : base ≠ 0) {d d' : Device K} {x r : K} (hl : d.isLoad = true) (hr : d.qpRatio = .fin r)
    (hx : a.pLoad.get? d.id = some (.fin x)) (hlim : d.pMin ≤ .fin (x / base) ∧ .fin (x / base) ≤ d.pMax) (h : Stepped c s s' a d d') :
    SameMachine d d' ∧ d'.isSlack = false ∧ d'.p = .fin (x / base) ∧ d'.q = .fin (x / base * r) := by
  obtain ⟨d1, st, f, -⟩ := h.step
  have hns : d.isSlack = false := by
    by_contra hc
    have := h.kind (by simpa using hc)
    unfold Device.isLoad at hl
    simp [this] at hl
  rw [f hns]
  have m1 := st.same
  refine ⟨m1, by rw [← hns, m1], ?_⟩
  have hnl : d.isNonSlackGen = false ∧ d.isStorage = false := by
    unfold Device.isLoad at hl
    unfold Device.isNonSlackGen Device.isGen Device.isStorage
    cases hk : d.kind <;> simp_all
  cases st with
  | load y h1 h2 =>
    rw [Dict.getE_ok, hx] at h2
    cases h2
    simp only [Device.mapLoad, hbase, X.fin_div_fin hb, X.clip_eq_self hlim.1 hlim.2, hr, X.fin_mul_fin, and_self]
  | gen _ _ _ _ _ h1 h2 => simp_all
  | storage _ _ _ _ _ _ h1 h2 h3 => simp_all
  | slack h1 => simp_all
  | none h1 => simp_all

theorem total_perm {l : List (Device K)} (h : s.devices.Perm l) (f : Device K → X K) (i : ℤ) :
    totalAt s f i = sumX ((l.filter fun d => decide (d.busId = i) && !d.isSlack).map f) := sumX_perm ((h.filter _).map f)

theorem alike_filter {l l' : List (Device K)} (h : List.Forall₂ Alike l l') (f : Device K → X K) (hf : ∀ x y, Alike x y → x.isSlack = false → f y = f x)
    (i : ℤ) : (l'.filter fun d => decide (d.busId = i) && !d.isSlack).map f = (l.filter fun d => decide (d.busId = i) && !d.isSlack).map f := by
  induction h with
  | nil => rfl
  | @cons x y l l' h _ ih =>
    have e1 : y.busId = x.busId := by rw [h.same]
    have e2 : y.isSlack = x.isSlack := h.same.classes.1
    rw [List.filter_cons, List.filter_cons, e1, e2]
    by_cases hx : (decide (x.busId = i) && !x.isSlack) = true
    · rw [if_pos hx, if_pos hx, List.map_cons, List.map_cons, ih, hf x y h (by simp at hx; exact hx.2)]
    · rw [if_neg hx, if_neg hx, ih]

/-- Two devices with the power of one. -/
theorem split_total {d e₁ e₂ : Device K} {l l' : List (Device K)} (f : Device K → X K) {y₁ y₂ : K} (hd : f d = .fin (y₁ + y₂)) (h₁ : f e₁ = .fin y₁)
    (h₂ : f e₂ = .fin y₂) (s0 : d.isSlack = false ∧ e₁.isSlack = false ∧ e₂.isSlack = false) (hb : e₁.busId = d.busId ∧ e₂.busId = d.busId) {i : ℤ}
    (hl : (l'.filter fun d => decide (d.busId = i) && !d.isSlack).map f = (l.filter fun d => decide (d.busId = i) && !d.isSlack).map f) :
    sumX (((e₁ :: e₂ :: l').filter fun d => decide (d.busId = i) && !d.isSlack).map f) =
      sumX (((d :: l).filter fun d => decide (d.busId = i) && !d.isSlack).map f) := by
  rw [List.filter_cons, List.filter_cons, List.filter_cons, hb.1, hb.2, s0.1, s0.2.1, s0.2.2]
  by_cases h : d.busId = i
  · simp only [h, decide_true, Bool.not_false, Bool.and_self, if_true, List.map_cons, hd, h₁, h₂, hl, sumX, List.foldl_cons, X.zero_def, X.fin_add_fin, zero_add]
  · simp only [h, decide_false, Bool.false_and, Bool.false_eq_true, if_false, hl]

theorem eLoss_perm {l l' : List (Device K)} (h : l.Perm l') : l.foldl Sim.eLossStep 0 = l'.foldl Sim.eLossStep 0 := h.foldl_eq 0

theorem load_loss {d : Device K} (h : d.isLoad = true) (e : X K) : Sim.eLossStep e d = e + d.p := by
  have : d.isRenewable = false := by
    unfold Device.isLoad at h
    unfold Device.isRenewable
    cases hk : d.kind <;> simp_all
  simp [Sim.eLossStep, h, this]

theorem find_plain {l l' : List (Bus K)} (h : l'.map Bus.plain = l.map Bus.plain) (i : ℤ) :
    (l'.find? fun b => b.id = i).map Bus.plain = (l.find? fun b => b.id = i).map Bus.plain := by
  have e : ∀ l : List (Bus K), (l.find? fun b => b.id = i).map Bus.plain = (l.map Bus.plain).find? fun b => b.id = i := by
    intro l
    rw [List.find?_map]
    rfl
  rw [e, e, h]

/-- **C139, splitting a load, one time step.** Two loads at the same bus with the same ratio of reactive to active power, within their limits, act as
one load with the sum of their demands: all quantities of buses and branches, and all results of the step, including the reward, are the same. -/
theorem C139_split_step {j j₁ j₂ : ℤ} (hn : CleanFile n base) (hs : SimOf n dt lam s) (hu : SimOf m dt lam₂ u) (hj : SplitLoad j j₁ j₂ s u)
    (ha : SplitArgs j j₁ j₂ s u base a b) (h : s.transition c a = .ok (s', out)) (h₂ : u.transition c b = .ok (u', out₂)) :
    SplitLoad j j₁ j₂ s' u' ∧ out₂ = out ∧ ∃ st st', s'.state = some st ∧ u'.state = some st' ∧ SameGridReadings st st' := by
  have hb := (basePos_of_simOf hn hs).ne'
  have eb : s.baseMVA = .fin base := (simOf_base hs).1.trans hn.base
  have eb₂ : u.baseMVA = .fin base := hj.grid.base.trans eb
  obtain ⟨d, e₁, e₂, l, l', p1, p2, ⟨rfl, rfl, rfl⟩, ⟨l0, l1, l2⟩, ⟨b1, b2⟩, ⟨r, r0, r1, r2⟩, hl⟩ := hj.devices
  obtain ⟨x₁, x₂, a0, a1, a2, i0, i1, i2⟩ := ha.demands
  obtain ⟨w, fw, pw⟩ := List.perm_comp_forall₂ p1.symm (stepped_of hs h)
  obtain ⟨w', fw', pw'⟩ := List.perm_comp_forall₂ p2.symm (stepped_of hu h₂)
  cases fw with
  | @cons _ d' _ w sd fw =>
  cases fw' with
  | @cons _ e₁' _ w' s1 fw' =>
  cases fw' with
  | @cons _ e₂' _ w' s2 fw' =>
  obtain ⟨m0, n0, P0, Q0⟩ := load_stepped eb hb l0 r0 a0 (i0 d (p1.mem_iff.2 (by simp)) rfl) sd
  obtain ⟨m1, n1, P1, Q1⟩ := load_stepped eb₂ hb l1 r1 a1 (i1 e₁ (p2.mem_iff.2 (by simp)) rfl) s1
  obtain ⟨m2, n2, P2, Q2⟩ := load_stepped eb₂ hb l2 r2 a2 (i2 e₂ (p2.mem_iff.2 (by simp)) rfl) s2
  -- the other devices have other names
  have nd1 : ((d :: l).map Device.id).Nodup := (p1.map Device.id).nodup_iff.1 (List.Pairwise.imp (fun h => ne_of_lt h) (List.pairwise_map.2 (simOf_sorted hs)))
  have nd2 : ((e₁ :: e₂ :: l').map Device.id).Nodup := (p2.map Device.id).nodup_iff.1 (List.Pairwise.imp (fun h => ne_of_lt h) (List.pairwise_map.2 (simOf_sorted hu)))
  have hal : List.Forall₂ (fun x y => (SameMachine x y ∧ y.soc = x.soc) ∧ AgreeAt x.id a b) l l' := by
    have k1 := forall₂_mono_mem hl (S := fun x y => x ∈ l) fun x hx _ _ => hx
    have k2 := (forall₂_mono_mem hl.flip (S := fun y x => y ∈ l') fun x hx _ _ => hx).flip
    refine (forall₂_both hl (forall₂_both k1 k2)).imp fun x y hxy => ⟨hxy.1, ?_⟩
    obtain ⟨⟨hm, -⟩, hx, hy⟩ := hxy
    have e : y.id = x.id := by rw [hm]
    simp only [List.map_cons, List.nodup_cons, List.mem_cons, List.mem_map, not_or, not_exists, not_and] at nd1 nd2
    refine ha.rest _ (nd1.1 x hx) ?_ ?_
    · rw [← e]; exact nd2.1.2 y hy
    · rw [← e]; exact nd2.2.1 y hy
  have hw : List.Forall₂ Alike w w' := forall₂_square hal fw fw' fun x y x' y' hxy hx hy => alike_step hj.grid.base hj.grid.dt rfl hxy.1.1 hxy.1.2 hxy.2 hx hy
  have hns : d'.isSlack = false ∧ e₁'.isSlack = false ∧ e₂'.isSlack = false := ⟨n0, n1, n2⟩
  have hbus : e₁'.busId = d'.busId ∧ e₂'.busId = d'.busId := by
    rw [m0, m1, m2]
    exact ⟨b1, b2⟩
  have ht : SameTotals s' u' := by
    intro bb _
    rw [total_perm pw.symm, total_perm pw'.symm, total_perm pw.symm, total_perm pw'.symm]
    refine ⟨split_total Device.p (y₁ := x₁ / base) (y₂ := x₂ / base) (by rw [P0, add_div]) P1 P2 hns hbus ?_,
      split_total Device.q (y₁ := x₁ / base * r) (y₂ := x₂ / base * r) (by rw [Q0, add_div, add_mul]) Q1 Q2 hns hbus ?_⟩
    · exact alike_filter hw _ (fun x y h hx => (h.p hx).1) _
    · exact alike_filter hw _ (fun x y h hx => (h.p hx).2) _
  obtain ⟨E, d1, d2, hc⟩ := sameElec_of_totals hs hu hj.grid rfl h h₂ ht
  obtain ⟨-, -, hpen, hst⟩ := C139_totals hs hu hj.grid rfl rfl h h₂ ht
  -- the power of the slack
  have hslack : List.Forall₂ (fun x y => x.isSlack = true → y.p = x.p ∧ y.q = x.q) w w' := by
    refine forall₂_square hal fw fw' fun x y x' y' hxy hx hy hsl => ?_
    obtain ⟨x1, sx, fx, tx⟩ := hx.step
    obtain ⟨y1, sy, fy, ty⟩ := hy.step
    have es : y.isSlack = x.isSlack := hxy.1.1.classes.1
    have eb : y.busId = x.busId := by rw [hxy.1.1]
    cases hx0 : x.isSlack with
    | false =>
      rw [fx hx0, sx.same.classes.1, hx0] at hsl
      exact absurd hsl (by simp)
    | true =>
      obtain ⟨v1, f1, g1⟩ := tx hx0
      obtain ⟨v2, f2, g2⟩ := ty (es.trans hx0)
      have hf := find_plain E.buses x.busId
      rw [eb] at f2
      rw [f1, f2] at hf
      simp only [Option.map_some, Option.some.injEq] at hf
      have q1 := congrArg (fun v : Bus K => v.p) hf
      have q2 := congrArg (fun v : Bus K => v.q) hf
      rw [g1, g2]
      exact ⟨q1, q2⟩
  have hloss : u'.devices.foldl Sim.eLossStep 0 = s'.devices.foldl Sim.eLossStep 0 := by
    rw [eLoss_perm pw.symm, eLoss_perm pw'.symm]
    simp only [List.foldl_cons]
    have q0 : d'.isLoad = true := by rw [m0.classes.2.1]; exact l0
    have q1 : e₁'.isLoad = true := by rw [m1.classes.2.1]; exact l1
    have q2 : e₂'.isLoad = true := by rw [m2.classes.2.1]; exact l2
    rw [load_loss q0, load_loss q1, load_loss q2, P0, P1, P2, X.zero_def, X.fin_add_fin, X.fin_add_fin, X.fin_add_fin, zero_add, zero_add, add_div]
    generalize (X.fin (x₁ / base + x₂ / base) : X K) = z
    have hh := forall₂_both hw hslack
    have nk : ∀ x ∈ w, x.isRenewable = true → x.isNonSlackGen = true := by
      intro x hx hr
      have hx' : x ∈ s'.devices := pw.mem_iff.1 (by simp [hx])
      have hk := slack_kind (simOf_transition hs h) hx'
      unfold Device.isRenewable at hr
      unfold Device.isNonSlackGen Device.isGen
      cases hsl : x.isSlack with
      | true => simp [hk hsl] at hr
      | false => cases hk : x.kind <;> simp_all
    clear pw pw' fw fw' hw hslack ht
    induction hh generalizing z with
    | nil => rfl
    | @cons x y w w' hxy _ ih =>
      rw [List.foldl_cons, List.foldl_cons]
      have e : Sim.eLossStep z y = Sim.eLossStep z x := by
        obtain ⟨hal, hsl⟩ := hxy
        obtain ⟨k1, k2, k3, k4⟩ := hal.same.classes
        have k5 : y.isGen = x.isGen := by unfold Device.isGen; rw [hal.same]
        have k6 : y.isRenewable = x.isRenewable := by unfold Device.isRenewable; rw [hal.same]
        have hp : y.p = x.p := by
          cases hs0 : x.isSlack with
          | true => exact (hsl hs0).1
          | false => exact (hal.p hs0).1
        unfold Sim.eLossStep
        rw [k2, k5, k6, hp]
        cases hr : x.isRenewable with
        | false => rfl
        | true => rw [hal.pot (nk x (by simp) hr)]
      rw [e]
      exact ih _ fun x hx => nk x (by simp [hx])
  refine ⟨⟨sameGrid_of E d1 d2, d', e₁', e₂', w, w', pw.symm, pw'.symm, ?_, ?_, hbus, ⟨r, ?_, ?_, ?_⟩, hw.imp fun x y h => ⟨h.same, h.soc⟩⟩, ?_, hst⟩
  · rw [m0, m1, m2]; exact ⟨rfl, rfl, rfl⟩
  · rw [m0.classes.2.1, m1.classes.2.1, m2.classes.2.1]; exact ⟨l0, l1, l2⟩
  · rw [m0]; exact r0
  · rw [m1]; exact r1
  · rw [m2]; exact r2
  · obtain ⟨ds, o, I⟩ := transition_ok h
    obtain ⟨ds₂, o₂, I₂⟩ := transition_ok h₂
    have R := I.reward
    have R₂ := I₂.reward
    simp only [Sim.computeReward, bind_ok, pure_ok, Prod.mk.injEq] at R R₂
    obtain ⟨bp, -, R1, R2, R3⟩ := R
    obtain ⟨bp₂, -, S1, S2, S3⟩ := R₂
    rw [S3, S2] at S1
    rw [R3, R2] at R1
    have hE : out₂.eLoss = out.eLoss := by rw [← S2, ← R2, hloss, d1]
    have hR : out₂.reward = out.reward := by rw [← S1, ← R1, hE, hpen]
    cases out
    cases out₂
    simp only at hE hR hpen hc
    subst hE hR hpen hc
    rfl

/-- **C139, splitting a load, any number of time steps.** Whether a bus has one load or two that share its demand makes no difference to buses,
branches, losses, penalties and rewards, for ever. -/
theorem C139_split {j j₁ j₂ : ℤ} {os os' : List (Sim.TransOut K)} (hn : CleanFile n base) (hs : SimOf n dt lam s) (hu : SimOf m dt lam₂ u)
    (hj : SplitLoad j j₁ j₂ s u) (h : SplitRuns c j j₁ j₂ base s u s' u' os os') :
    SplitLoad j j₁ j₂ s' u' ∧ os' = os ∧
      (os = [] ∨ ∃ st st', s'.state = some st ∧ u'.state = some st' ∧ SameGridReadings st st') := by
  have key : SimOf n dt lam s' ∧ SimOf m dt lam₂ u' ∧ SplitLoad j j₁ j₂ s' u' ∧ os' = os ∧
      (os = [] ∨ ∃ st st', s'.state = some st ∧ u'.state = some st' ∧ SameGridReadings st st') := by
    induction h with
    | nil => exact ⟨hs, hu, hj, rfl, .inl rfl⟩
    | snoc _ ha h1 h2 ih =>
      obtain ⟨k1, k2, k3, k4, -⟩ := ih
      obtain ⟨g1, g2, g3⟩ := C139_split_step hn k1 k2 k3 ha h1 h2
      exact ⟨simOf_transition k1 h1, simOf_transition k2 h2, g1, by rw [k4, g2], .inr g3⟩
  exact key.2.2

end

end Anm
