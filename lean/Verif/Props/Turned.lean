import Verif.Props.RealDemo

/-! # C99: the order and the orientation of the branch rows -/

set_option linter.unusedSimpArgs false

namespace Anm

open Spec Complex ComplexConjugate

noncomputable section

namespace Spec

/-- The second description of a line is the first one, or the first one seen from the other end; a line with
a transformer has no other description. -/
inductive SameLine : Line ℝ → Line ℝ → Prop where
  | same (l : Line ℝ) : SameLine l l
  | turned (l : Line ℝ) : l.tapMagn = .fin 1 → l.shiftDeg = .fin 0 →
      SameLine l { l with fBus := l.tBus, tBus := l.fBus }

/-- The same lines in another order, some of them turned. -/
def Rearrangement (l l' : List (Line ℝ)) : Prop := ∃ mid, l.Perm mid ∧ List.Forall₂ SameLine mid l'

/-- Two simulators that differ in the order and the orientation of their branches only (and in the last
state gathered). -/
structure Rearranged (s t : Sim ℝ) : Prop where
  base : t.baseMVA = s.baseMVA
  dt : t.deltaT = s.deltaT
  lamb : t.lamb = s.lamb
  buses : t.buses = s.buses
  devices : t.devices = s.devices
  branches : Rearrangement (s.branches.map (·.line)) (t.branches.map (·.line))

/-- What is measured at the beginning of one is measured at the end of the other. -/
structure Mirrored (f g : Flow ℝ) : Prop where
  iFrom : g.iFrom = f.iTo
  iTo : g.iTo = f.iFrom
  pFrom : g.pFrom = f.pTo
  pTo : g.pTo = f.pFrom
  qFrom : g.qFrom = f.qTo
  qTo : g.qTo = f.qFrom

/-- The same measurements: those of a line that is not turned are equal, those of a turned one mirrored. -/
def SameMeasured (b c : Branch ℝ) : Prop :=
  c = b ∨ (c.line = { b.line with fBus := b.line.tBus, tBus := b.line.fBus } ∧ Mirrored b.flow c.flow)

/-- A branch row with the two bus cells exchanged. -/
def turnRow (r : BranchRow ℝ) : BranchRow ℝ
  | .fBus => r .tBus | .tBus => r .fBus | c => r c

/-- Two descriptions of a line in a network file. -/
inductive RowAlike : BranchRow ℝ → BranchRow ℝ → Prop where
  | same (r : BranchRow ℝ) : RowAlike r r
  | turned (r : BranchRow ℝ) : (r .tap = none ∨ r .tap = some (.fin 1)) →
      (r .shift = none ∨ r .shift = some (.fin 0)) → RowAlike r (turnRow r)

/-- Two network files that differ in the order and the orientation of their branch rows only. -/
structure RowsRearranged (n n' : Network ℝ) : Prop where
  base : n'.baseMVA = n.baseMVA
  bus : n'.bus = n.bus
  device : n'.device = n.device
  branch : ∃ mid, n.branch.Perm mid ∧ List.Forall₂ RowAlike mid n'.branch

/-- The transitions `as` lead from `s` to `s'`, with the results `outs`. -/
inductive Runs (c : Ctx ℝ) : Sim ℝ → List (Sim.Args ℝ) → List (Sim.TransOut ℝ) → Sim ℝ → Prop where
  | done (s : Sim ℝ) : Runs c s [] [] s
  | step {s s1 s' : Sim ℝ} {a : Sim.Args ℝ} {as : List (Sim.Args ℝ)} {o : Sim.TransOut ℝ}
      {outs : List (Sim.TransOut ℝ)} : s.transition c a = .ok (s1, o) → Runs c s1 as outs s' →
      Runs c s (a :: as) (o :: outs) s'

end Spec

/-! ### Lines -/

/-- The finite parameters of a line. -/
def lineC (l : Line ℝ) : LineC := (l.finite?).getD ⟨0, 0, 0, 0, 0, 0, 0⟩

theorem finiteLines_iff {s : Sim ℝ} {ls : List LineC} : FiniteLines s ls ↔
    ls = (s.branches.map (·.line)).map lineC ∧ ∀ b ∈ s.branches, b.line.finite? ≠ none := by
  unfold FiniteLines
  generalize s.branches = bs
  induction bs generalizing ls with
  | nil => simp
  | cons b bs ih =>
    constructor
    · intro h
      cases h with
      | cons h1 h2 =>
        obtain ⟨e, h⟩ := ih.1 h2
        refine ⟨by simp only [List.map_cons, lineC, h1, Option.getD_some]; rw [e], ?_⟩
        intro c hc
        rcases List.mem_cons.1 hc with rfl | hc
        · rw [h1]; nofun
        · exact h c hc
    · rintro ⟨rfl, h⟩
      refine .cons ?_ (ih.2 ⟨rfl, fun c hc => h c (by simp [hc])⟩)
      cases hb : b.line.finite? with
      | none => exact absurd hb (h b (by simp))
      | some l => simp [lineC, hb]

theorem finite_alike {l l' : Line ℝ} (h : SameLine l l') (hf : l.finite? ≠ none) : l'.finite? ≠ none := by
  cases h with
  | same => exact hf
  | turned h1 h2 =>
    revert hf
    simp only [Line.finite?]
    split <;> simp_all

/-- What `SameLine` means for the parameters. -/
theorem lineC_alike {l l' : Line ℝ} (h : SameLine l l') (hf : l.finite? ≠ none) : l' = l ∨
    (l' = { l with fBus := l.tBus, tBus := l.fBus } ∧ (lineC l).tapMagn = 1 ∧ (lineC l).shiftDeg = 0 ∧
      lineC l' = { lineC l with fBus := (lineC l).tBus, tBus := (lineC l).fBus }) := by
  cases h with
  | same => exact Or.inl rfl
  | turned h1 h2 =>
    refine Or.inr ⟨rfl, ?_⟩
    obtain ⟨f, t, r, x, b, rate, tap, sh⟩ := l
    simp only at h1 h2
    subst h1 h2
    cases r <;> cases x <;> cases b <;> simp_all [lineC, Line.finite?]

section
variable (l : LineC)

/-- A line described from the other end. -/
def LineC.turn : LineC := { l with fBus := l.tBus, tBus := l.fBus }

variable {l}

theorem tap_plain (h1 : l.tapMagn = 1) (h2 : l.shiftDeg = 0) : l.tap = 1 := by
  simp [LineC.tap, LineC.shift, h1, h2]

theorem iFrom_turn (h1 : l.tapMagn = 1) (h2 : l.shiftDeg = 0) (v w : ℂ) : l.turn.iFrom v w = l.iTo w v := by
  have e : l.tap = 1 := tap_plain h1 h2
  have e' : l.turn.tap = 1 := tap_plain h1 h2
  simp only [LineC.iFrom, LineC.iTo, e, e']
  simp [LineC.turn, LineC.series, LineC.shunt]

theorem iTo_turn (h1 : l.tapMagn = 1) (h2 : l.shiftDeg = 0) (v w : ℂ) : l.turn.iTo v w = l.iFrom w v := by
  have e : l.tap = 1 := tap_plain h1 h2
  have e' : l.turn.tap = 1 := tap_plain h1 h2
  simp only [LineC.iFrom, LineC.iTo, e, e']
  simp [LineC.turn, LineC.series, LineC.shunt]

theorem mirrored_turn (h1 : l.tapMagn = 1) (h2 : l.shiftDeg = 0) (v w : ℂ) :
    Mirrored (l.flow v w) (l.turn.flow w v) := by
  constructor <;> simp only [LineC.flow, LineC.sFrom, LineC.sTo, iFrom_turn h1 h2, iTo_turn h1 h2]

theorem contrib_turn (h1 : l.tapMagn = 1) (h2 : l.shiftDeg = 0) (i j : ℤ) :
    contrib l.turn i j = contrib l i j := by
  have e : l.tap = 1 := tap_plain h1 h2
  have e' : l.turn.tap = 1 := tap_plain h1 h2
  simp only [contrib, e, e']
  simp only [LineC.turn, LineC.series, LineC.shunt, map_one, div_one, norm_one, ofReal_one, one_pow]
  abel

end

/-! ### Lists of lines -/

section
variable {l l' : List (Line ℝ)} {m : ℕ}

theorem rearrangement_rel {α : Type} (f : Line ℝ → α) (h : Rearrangement l l') : ∃ mid, l.Perm mid ∧
    List.Forall₂ (fun a b => SameLine a b) mid l' ∧ (l.map f).Perm (mid.map f) := by
  obtain ⟨mid, hp, hf⟩ := h
  exact ⟨mid, hp, hf, hp.map f⟩

theorem forall₂_mono_mem {α β : Type} {R S : α → β → Prop} {l1 : List α} {l2 : List β} (h : List.Forall₂ R l1 l2)
    (hi : ∀ a ∈ l1, ∀ b, R a b → S a b) : List.Forall₂ S l1 l2 := by
  induction h with
  | nil => exact .nil
  | cons h _ ih => exact .cons (hi _ (by simp) _ h) (ih fun a ha => hi a (by simp [ha]))

theorem rearr_finite (h : Rearrangement l l') (hf : ∀ a ∈ l, a.finite? ≠ none) : ∀ a ∈ l', a.finite? ≠ none := by
  obtain ⟨mid, hp, hm⟩ := h
  intro a ha
  obtain ⟨b, hb, hab⟩ := forall₂_mem_right hm ha
  exact finite_alike hab (hf b (hp.mem_iff.2 hb))

/-- A line and the line it is alike to have the same ends. -/
theorem alike_ends {a b : Line ℝ} (h : SameLine a b) (hf : a.finite? ≠ none) :
    ((lineC b).fBus = (lineC a).fBus ∧ (lineC b).tBus = (lineC a).tBus) ∨
    ((lineC b).fBus = (lineC a).tBus ∧ (lineC b).tBus = (lineC a).fBus) := by
  rcases lineC_alike h hf with rfl | ⟨_, _, _, e⟩
  · exact Or.inl ⟨rfl, rfl⟩
  · rw [e]; exact Or.inr ⟨rfl, rfl⟩

theorem rearr_simple (h : Rearrangement l l') (hf : ∀ a ∈ l, a.finite? ≠ none)
    (hs : SimpleLines (l.map lineC)) : SimpleLines (l'.map lineC) := by
  obtain ⟨mid, hp, hm⟩ := h
  have hf' : ∀ a ∈ mid, a.finite? ≠ none := fun a ha => hf a (hp.mem_iff.2 ha)
  have hmid : SimpleLines (mid.map lineC) := by
    refine ⟨fun c hc => hs.1 c ((hp.map lineC).mem_iff.2 hc), ((hp.map lineC).pairwise_iff ?_).1 hs.2⟩
    rintro x y ⟨h1, h2⟩
    exact ⟨fun e => h1 ⟨e.1.symm, e.2.symm⟩, fun e => h2 ⟨e.2.symm, e.1.symm⟩⟩
  clear hp hs hf
  induction hm with
  | nil => exact hmid
  | @cons a b l1 l2 hab hrest ih =>
    obtain ⟨h1, h2⟩ := hmid
    rw [List.map_cons, List.pairwise_cons] at h2
    obtain ⟨i1, i2⟩ := ih (fun x hx => hf' x (by simp [hx])) ⟨fun c hc => h1 c (by simp at hc ⊢; exact Or.inr hc), h2.2⟩
    have ha : (lineC a).fBus ≠ (lineC a).tBus := h1 _ (by simp)
    constructor
    · intro c hc
      rw [List.map_cons, List.mem_cons] at hc
      rcases hc with rfl | hc
      · rcases alike_ends hab (hf' a (by simp)) with ⟨e1, e2⟩ | ⟨e1, e2⟩ <;> rw [e1, e2]
        · exact ha
        · exact ha.symm
      · exact i1 c hc
    · rw [List.map_cons, List.pairwise_cons]
      refine ⟨?_, i2⟩
      intro c hc
      obtain ⟨c2, hc2, rfl⟩ := List.mem_map.1 hc
      obtain ⟨c1, hc1, hcc⟩ := forall₂_mem_right hrest hc2
      have hx := h2.1 (lineC c1) (List.mem_map_of_mem hc1)
      rcases alike_ends hab (hf' a (by simp)) with ⟨e1, e2⟩ | ⟨e1, e2⟩ <;>
      rcases alike_ends hcc (hf' c1 (by simp [hc1])) with ⟨e3, e4⟩ | ⟨e3, e4⟩ <;> rw [e1, e2, e3, e4]
      · exact hx
      · exact ⟨hx.2, hx.1⟩
      · exact ⟨fun e => hx.2 ⟨e.2, e.1⟩, fun e => hx.1 ⟨e.2, e.1⟩⟩
      · exact ⟨fun e => hx.1 ⟨e.2, e.1⟩, fun e => hx.2 ⟨e.2, e.1⟩⟩

/-- The admittance matrix does not depend on the order and the orientation of the lines. -/
theorem rearr_ymat (h : Rearrangement l l') (hf : ∀ a ∈ l, a.finite? ≠ none)
    (hs : SimpleLines (l.map lineC)) : ymat m (l'.map lineC) = ymat m (l.map lineC) := by
  have hs' := rearr_simple h hf hs
  obtain ⟨mid, hp, hm⟩ := h
  funext i j
  unfold ymat
  rw [ybus_eq hs', ybus_eq hs, ((hp.map lineC).map _).sum_eq]
  have hf' : ∀ a ∈ mid, a.finite? ≠ none := fun a ha => hf a (hp.mem_iff.2 ha)
  clear hp hs hs' hf
  induction hm with
  | nil => rfl
  | @cons a b l1 l2 hab hrest ih =>
    simp only [List.map_cons, List.sum_cons]
    rw [ih fun x hx => hf' x (by simp [hx])]
    congr 1
    rcases lineC_alike hab (hf' a (by simp)) with rfl | ⟨_, h1, h2, e⟩
    · rfl
    · rw [e]; exact contrib_turn h1 h2 _ _

end

/-! ### A transition -/

theorem X_foldl_perm {α : Type} (f : α → X ℝ) {l l' : List α} (h : l.Perm l') (a : X ℝ) :
    l.foldl (fun a b => a + f b) a = l'.foldl (fun a b => a + f b) a := by
  refine h.foldl_eq' (fun x _ y _ z => ?_) a
  generalize f x = u
  generalize f y = w
  cases z <;> cases u <;> cases w <;> first
    | rfl
    | (show X.fin _ = X.fin _
       congr 1
       ring)

section
variable {m : ℕ} {ls : List LineC} {s t s' : Sim ℝ} {o : LFOracle} {qp : QP ℝ} {pi : ℝ} {a : Sim.Args ℝ}
  {out : Sim.TransOut ℝ} {n : Network ℝ} {base : ℝ} {dt lam : X ℝ}

/-- What is measured on a line, given the voltages. -/
def measuredOn (v : Fin (m + 1) → ℂ) (l : Line ℝ) : Branch ℝ :=
  ⟨l, (lineC l).flow (atId v (lineC l).fBus) (atId v (lineC l).tBus)⟩

theorem mapIdx_flow (v : Fin (m + 1) → ℂ) (st : Bool) (bs : List (Branch ℝ)) :
    (bs.mapIdx fun k b => ({ b with flow := (outOf ((bs.map (·.line)).map lineC) v st).flow k } : Branch ℝ)) =
      (bs.map (·.line)).map (measuredOn v) := by
  refine List.ext_getElem? fun k => ?_
  rw [List.getElem?_mapIdx, List.getElem?_map, List.getElem?_map]
  cases h : bs[k]? with
  | none => rfl
  | some b => simp [outOf, h, measuredOn]

theorem pf_inputs (hm : Numbered s m) (hl : FiniteLines s ls) (ds : List (Device ℝ)) :
    ((Sim.pfIn { s with devices := ds, buses := s.buses.map (Sim.busInjections ds) }).buses.map (·.1) =
      (List.range (m + 1)).map Int.ofNat) ∧
    (∀ b ∈ (Sim.pfIn { s with devices := ds, buses := s.buses.map (Sim.busInjections ds) }).buses,
      b.2.1 = true ↔ b.1 = 0) ∧
    mapO Line.finite? (Sim.pfIn { s with devices := ds, buses := s.buses.map (Sim.busInjections ds) }).lines =
      some ls := by
  refine ⟨?_, ?_, ?_⟩
  · rw [← hm.ids]
    simp [Sim.pfIn, Sim.busInjections, Function.comp_def]
  · intro b hb
    obtain ⟨b1, hb1, rfl⟩ := List.mem_map.1 hb
    obtain ⟨b0, hb0, rfl⟩ := List.mem_map.1 hb1
    exact hm.slack b0 hb0
  · rw [mapO_forall₂]
    exact List.forall₂_map_left_iff.2 hl

theorem alike_measured (v : Fin (m + 1) → ℂ) {l l' : Line ℝ} (h : SameLine l l') (hf : l.finite? ≠ none) :
    SameMeasured (measuredOn v l) (measuredOn v l') := by
  rcases lineC_alike h hf with rfl | ⟨e, h1, h2, e'⟩
  · exact Or.inl rfl
  · refine Or.inr ⟨e, ?_⟩
    simp only [measuredOn, e']
    exact mirrored_turn h1 h2 _ _

/-- The loading of a line on which power flows is the larger one of those of both ends. -/
theorem abs_loading {l : LineC} {v w : ℂ} (h : (l.sFrom v w).re ≠ 0) :
    X.abs (l.flow v w).sApparentMax = .fin (max ‖l.sFrom v w‖ ‖l.sTo v w‖) := by
  obtain ⟨x, e, h, _⟩ := C34_apparent_power_partial l v w h
  rw [e, ← h]
  rfl

theorem alike_penalty (v : Fin (m + 1) → ℂ) {l l' : Line ℝ} (h : SameLine l l') (hf : l.finite? ≠ none)
    (h1 : (measuredOn v l).flow.pFrom ≠ .fin 0) (h2 : (measuredOn v l).flow.pTo ≠ .fin 0) :
    Sim.branchPenalty (measuredOn v l') = Sim.branchPenalty (measuredOn v l) := by
  rcases lineC_alike h hf with rfl | ⟨rfl, g1, g2, e'⟩
  · rfl
  · have M := mirrored_turn g1 g2 (atId v (lineC l).fBus) (atId v (lineC l).tBus)
    simp only [measuredOn] at h1 h2
    have k1 : ((lineC l).sFrom (atId v (lineC l).fBus) (atId v (lineC l).tBus)).re ≠ 0 :=
      fun e => h1 (by simp [LineC.flow, e])
    have k2 : ((lineC l).turn.sFrom (atId v (lineC l).tBus) (atId v (lineC l).fBus)).re ≠ 0 := by
      intro e
      apply h2
      rw [← M.pFrom]
      simp [LineC.flow, e]
    simp only [Sim.branchPenalty, measuredOn, e']
    rw [show ({ lineC l with fBus := (lineC l).tBus, tBus := (lineC l).fBus } : LineC) = (lineC l).turn from rfl]
    rw [abs_loading k1, abs_loading k2]
    simp only [LineC.sFrom, LineC.sTo, iFrom_turn g1 g2, iTo_turn g1 g2]
    rw [max_comm]

theorem foldl_forall₂ {α β : Type} {f : α → X ℝ} {g : β → X ℝ} {l1 : List α} {l2 : List β}
    (h : List.Forall₂ (fun a b => g b = f a) l1 l2) (z : X ℝ) :
    l2.foldl (fun a b => a + g b) z = l1.foldl (fun a b => a + f b) z := by
  induction h generalizing z with
  | nil => rfl
  | cons h _ ih => rw [List.foldl_cons, List.foldl_cons, h, ih]

/-- **C99.** If the load flow of a transition converges, it does so whatever the order of the branch rows and
whichever end of a line without transformer is called its beginning: all voltages, all injections, all
devices and the energy loss are the same, and so are the measurements on all lines, up to the exchange of the
ends of those that were turned.  The penalty and the reward are the same too, if active power enters or
leaves every line at both ends.  Missing: lines with an idle end, for which the penalty depends on the
orientation (`C99_counterexample`). -/
theorem C99_rearranged_partial (hn : CleanFile n base) (hs : SimOf n dt lam s) (hm : Numbered s m)
    (hl : FiniteLines s ls) (hr : Rearranged s t) (h : s.transition ⟨qp, realPF o, pi⟩ a = .ok (s', out))
    (hc : out.converged = true) : ∃ t' out', t.transition ⟨qp, realPF o, pi⟩ a = .ok (t', out') ∧
      out'.converged = true ∧ Rearranged s' t' ∧ out'.eLoss = out.eLoss ∧
      (∃ mid, s'.branches.Perm mid ∧ List.Forall₂ SameMeasured mid t'.branches) ∧
      ((∀ b ∈ s'.branches, b.flow.pFrom ≠ .fin 0 ∧ b.flow.pTo ≠ .fin 0) →
        out'.penalty = out.penalty ∧ out'.reward = out.reward) := by
  obtain ⟨g1, g2, _⟩ := simOf_lines hn hs hm hl
  obtain ⟨rfl, hfin⟩ := finiteLines_iff.1 hl
  have hfin' : ∀ x ∈ s.branches.map (·.line), x.finite? ≠ none := by
    intro x hx
    obtain ⟨b, hb, rfl⟩ := List.mem_map.1 hx
    exact hfin b hb
  have hmt : Numbered t m := ⟨by rw [hr.buses]; exact hm.ids, hm.pos, by rw [hr.buses]; exact hm.slack⟩
  have hlt : FiniteLines t ((t.branches.map (·.line)).map lineC) := by
    refine finiteLines_iff.2 ⟨rfl, fun b hb => ?_⟩
    exact rearr_finite hr.branches hfin' _ (List.mem_map_of_mem hb)
  have hy : ymat m ((t.branches.map (·.line)).map lineC) = ymat m ((s.branches.map (·.line)).map lineC) :=
    rearr_ymat hr.branches hfin' g1
  simp only [Sim.transition, Sim.solveStep, Sim.applyPF, bind_ok, pure_ok, Prod.mk.injEq] at h
  obtain ⟨s1, ⟨ds, hds, po, hpo, s2, ⟨ds', hds', rfl⟩, rfl⟩, st, hst, ⟨r, e, pen⟩, hrew, rfl, rfl⟩ := h
  simp only at hpo hc
  obtain ⟨i1, i2, i3⟩ := pf_inputs hm hl ds
  obtain ⟨j1, j2, j3⟩ := pf_inputs hmt hlt ds
  obtain ⟨pq, hpf, hpq⟩ := realPF_numbered o i1 hm.pos i2 i3
  obtain ⟨pq', hpf', hpq'⟩ := realPF_numbered o j1 hm.pos j2 j3
  have hpq_eq : pq' = pq := by
    funext k
    have hlen := length_of_ids i1
    obtain ⟨b, hb⟩ : ∃ b, (Sim.pfIn { s with devices := ds, buses := s.buses.map (Sim.busInjections ds) }).buses[k.1 + 1]? = some b :=
      ⟨_, List.getElem?_eq_getElem (by rw [hlen]; omega)⟩
    rw [hpq k b hb]
    refine hpq' k b ?_
    rw [← hb]
    simp only [Sim.pfIn, hr.buses]
  rw [hpf] at hpo
  injection hpo with hpo
  obtain ⟨g, hg⟩ : ∃ g, (NR.run o (ymat m ((s.branches.map (·.line)).map lineC)) (fun k => (pq k).1)
      (fun k => (pq k).2) xtol).guess = some g := by
    cases hgg : (NR.run o (ymat m ((s.branches.map (·.line)).map lineC)) (fun k => (pq k).1)
      (fun k => (pq k).2) xtol).guess with
    | some g => exact ⟨g, rfl⟩
    | none =>
      have hst' : NR.stable xtol (NR.run o (ymat m ((s.branches.map (·.line)).map lineC)) (fun k => (pq k).1)
          (fun k => (pq k).2) xtol) = true := by
        rw [← hpo, solveFinite, hgg] at hc
        simpa using hc
      obtain ⟨g, hg', _⟩ := NR.stable_spec (by unfold xtol; norm_num) hm.pos hst'
      rw [hgg] at hg'
      simp at hg'
  have hpo1 := hpo
  rw [solveFinite, hg] at hpo1
  simp only at hpo1
  set stab := NR.stable xtol (NR.run o (ymat m ((s.branches.map (·.line)).map lineC)) (fun k => (pq k).1)
      (fun k => (pq k).2) xtol) with hstab
  have hpf2 : realPF o (Sim.pfIn { t with devices := ds, buses := t.buses.map (Sim.busInjections ds) }) =
      .ok (outOf ((t.branches.map (·.line)).map lineC) (NR.volt g) stab) := by
    rw [hpf', hpq_eq, solveFinite, hy, hg]
  set v := NR.volt g with hv
  have q1 : (outOf ((t.branches.map (·.line)).map lineC) v stab).v = po.v := by rw [← hpo1]; rfl
  have q2 : (outOf ((t.branches.map (·.line)).map lineC) v stab).i = po.i := by
    rw [← hpo1]; simp only [outOf, hy]
  have q3 : (outOf ((t.branches.map (·.line)).map lineC) v stab).slackP = po.slackP := by
    rw [← hpo1]; simp only [outOf, hy]
  have q4 : (outOf ((t.branches.map (·.line)).map lineC) v stab).slackQ = po.slackQ := by
    rw [← hpo1]; simp only [outOf, hy]
  have q5 : (outOf ((t.branches.map (·.line)).map lineC) v stab).stable = po.stable := by rw [← hpo1]; rfl
  have hbs : (s.branches.mapIdx fun k b => ({ b with flow := po.flow k } : Branch ℝ)) =
      (s.branches.map (·.line)).map (measuredOn v) := by
    rw [← hpo1]; exact mapIdx_flow v stab s.branches
  have hbt := mapIdx_flow v stab t.branches
  obtain ⟨mid, hperm, hmid⟩ := hr.branches
  have hfmid : ∀ x ∈ mid, x.finite? ≠ none := fun x hx => hfin' x (hperm.mem_iff.2 hx)
  simp only [Sim.gatherState, bind_ok, pure_ok] at hst
  obtain ⟨soc, hsoc, _⟩ := hst
  simp only [Sim.computeReward, bind_ok, pure_ok, Prod.mk.injEq] at hrew
  obtain ⟨bp, hbp, rfl, rfl, rfl⟩ := hrew
  obtain ⟨st', hst'⟩ : ∃ st', Sim.gatherState (K := ℝ) pi
      { t with
        buses := (t.buses.map (Sim.busInjections ds)).mapIdx fun k b =>
          { b with
            v := po.v k, i := po.i k
            p := if b.isSlack then Sim.nanToInf po.slackP else b.p
            q := if b.isSlack then Sim.nanToInf po.slackQ else b.q }
        devices := ds', branches := (t.branches.map (·.line)).map (measuredOn v)
        pfeConverged := some po.stable } = .ok st' := by
    simp only [Sim.gatherState, bind_ok, pure_ok]
    exact ⟨_, _, hsoc, rfl⟩
  have key : t.transition ⟨qp, realPF o, pi⟩ a = .ok
      ({ t with
        buses := (t.buses.map (Sim.busInjections ds)).mapIdx fun k b =>
          { b with
            v := po.v k, i := po.i k
            p := if b.isSlack then Sim.nanToInf po.slackP else b.p
            q := if b.isSlack then Sim.nanToInf po.slackQ else b.q }
        devices := ds', branches := (t.branches.map (·.line)).map (measuredOn v)
        pfeConverged := some po.stable, state := some st' },
        { reward := -(ds'.foldl Sim.eLossStep 0 * t.deltaT +
            ((t.branches.map (·.line)).map (measuredOn v)).foldl (fun a b => a + Sim.branchPenalty b)
              (bp.foldl (· + ·) 0) * (t.deltaT * t.lamb))
          eLoss := ds'.foldl Sim.eLossStep 0 * t.deltaT
          penalty := ((t.branches.map (·.line)).map (measuredOn v)).foldl (fun a b => a + Sim.branchPenalty b)
              (bp.foldl (· + ·) 0) * (t.deltaT * t.lamb)
          converged := po.stable }) := by
    simp only [Sim.transition, Sim.solveStep, Sim.applyPF, bind_ok, pure_ok, Prod.mk.injEq]
    refine ⟨_, ⟨ds, by rw [hr.base, hr.dt, hr.devices]; exact hds, _, hpf2, _, ⟨ds', ?_, rfl⟩, rfl⟩, st', ?_, ?_⟩
    · simp only [q1, q2, q3, q4, hr.buses]
      exact hds'
    · simp only [q1, q2, q3, q4, q5, hbt]
      exact hst'
    · refine ⟨(-(ds'.foldl Sim.eLossStep 0 * t.deltaT +
            ((t.branches.map (·.line)).map (measuredOn v)).foldl (fun a b => a + Sim.branchPenalty b)
              (bp.foldl (· + ·) 0) * (t.deltaT * t.lamb)), ds'.foldl Sim.eLossStep 0 * t.deltaT,
          ((t.branches.map (·.line)).map (measuredOn v)).foldl (fun a b => a + Sim.branchPenalty b)
              (bp.foldl (· + ·) 0) * (t.deltaT * t.lamb)), ?_, ?_, ?_⟩
      · simp only [q1, q2, q3, q4, q5, hbt]
        simp only [Sim.computeReward, bind_ok, pure_ok]
        refine ⟨bp, ?_, rfl⟩
        rw [hr.buses]
        exact hbp
      · simp only [q1, q2, q3, q4, q5, hbt]
      · simp only [q5, Option.getD_some]
  refine ⟨_, _, key, hc, ⟨hr.base, hr.dt, hr.lamb, ?_, rfl, ?_⟩, ?_, ?_, ?_⟩
  · simp only [hr.buses]
  · simp only [hbs]
    refine ⟨mid, ?_, ?_⟩
    · simpa [measuredOn, Function.comp_def] using hperm
    · simpa [measuredOn, Function.comp_def] using hmid
  · simp only [hr.dt]
  · simp only [hbs]
    refine ⟨mid.map (measuredOn v), hperm.map _, ?_⟩
    rw [List.forall₂_map_left_iff, List.forall₂_map_right_iff]
    exact forall₂_mono_mem hmid fun x hx y hxy => alike_measured v hxy (hfmid x hx)
  · simp only [hbs]
    intro hp
    have : ((t.branches.map (·.line)).map (measuredOn v)).foldl (fun a b => a + Sim.branchPenalty b)
        (bp.foldl (· + ·) 0) = ((s.branches.map (·.line)).map (measuredOn v)).foldl
          (fun a b => a + Sim.branchPenalty b) (bp.foldl (· + ·) 0) := by
      rw [X_foldl_perm _ (hperm.map (measuredOn v))]
      refine foldl_forall₂ ?_ _
      rw [List.forall₂_map_left_iff, List.forall₂_map_right_iff]
      refine forall₂_mono_mem hmid fun x hx y hxy => ?_
      have := hp (measuredOn v x) (List.mem_map_of_mem (hperm.mem_iff.2 hx))
      exact alike_penalty v hxy (hfmid x hx) this.1 this.2
    rw [this, hr.dt, hr.lamb]
    exact ⟨rfl, rfl⟩

theorem rearranged_symm (h : Rearranged s t) : Rearranged t s := by
  refine ⟨h.base.symm, h.dt.symm, h.lamb.symm, h.buses.symm, h.devices.symm, ?_⟩
  obtain ⟨mid, hp, hf⟩ := h.branches
  obtain ⟨x, hx1, hx2⟩ := List.perm_comp_forall₂ hp hf
  refine ⟨x, hx2.symm, hx1.flip.imp fun u w hw => ?_⟩
  cases hw with
  | same => exact .same _
  | turned h1 h2 => exact .turned { w with fBus := w.tBus, tBus := w.fBus } h1 h2

/-- **C99**: whether the load flow converges does not depend on the order and the orientation of the branch
rows. -/
theorem C99_converged {t' : Sim ℝ} {out' : Sim.TransOut ℝ} {n' : Network ℝ} {base' : ℝ} {lt : List LineC}
    (hn : CleanFile n base) (hs : SimOf n dt lam s) (hn' : CleanFile n' base') (ht : SimOf n' dt lam t)
    (hm : Numbered s m) (hl : FiniteLines s ls) (hlt : FiniteLines t lt) (hr : Rearranged s t)
    (h : s.transition ⟨qp, realPF o, pi⟩ a = .ok (s', out))
    (h' : t.transition ⟨qp, realPF o, pi⟩ a = .ok (t', out')) : out'.converged = out.converged := by
  have hmt : Numbered t m := ⟨by rw [hr.buses]; exact hm.ids, hm.pos, by rw [hr.buses]; exact hm.slack⟩
  have h1 : out.converged = true → out'.converged = true := by
    intro hc
    obtain ⟨t1, o1, e, hc1, _⟩ := C99_rearranged_partial hn hs hm hl hr h hc
    rw [h'] at e
    injection e with e
    injection e with _ e
    rw [e]; exact hc1
  have h2 : out'.converged = true → out.converged = true := by
    intro hc
    obtain ⟨t1, o1, e, hc1, _⟩ := C99_rearranged_partial hn' ht hmt hlt (rearranged_symm hr) h' hc
    rw [h] at e
    injection e with e
    injection e with _ e
    rw [e]; exact hc1
  cases h3 : out.converged <;> cases h4 : out'.converged <;> simp_all

/-- **C99** for `reset`. -/
theorem C99_reset {init : List (X ℝ)} (hn : CleanFile n base) (hs : SimOf n dt lam s) (hm : Numbered s m)
    (hl : FiniteLines s ls) (hr : Rearranged s t) (h : s.reset ⟨qp, realPF o, pi⟩ init = .ok (s', true)) :
    ∃ t', t.reset ⟨qp, realPF o, pi⟩ init = .ok (t', true) ∧ Rearranged s' t' := by
  obtain ⟨a, ds, ds', s1, out, R, hc⟩ := reset_ok h
  have hcfg := sameConfig_resetSoc R
  have hs0 : SimOf n dt lam { s with state := none, devices := ds } := by
    obtain ⟨s0, e0, e1⟩ := hs
    exact ⟨s0, e0, sameConfig_trans e1 hcfg⟩
  have hr0 : Rearranged { s with state := none, devices := ds } { t with state := none, devices := ds } :=
    ⟨hr.base, hr.dt, hr.lamb, hr.buses, rfl, hr.branches⟩
  obtain ⟨t1, out', k1, k2, k3, _⟩ := C99_rearranged_partial hn hs0 (numbered_same hcfg hm) (finiteLines_same hcfg hl)
    hr0 R.trans hc.symm
  obtain ⟨st, hst, rfl⟩ := R.result
  simp only [Sim.gatherState, bind_ok, pure_ok] at hst
  obtain ⟨soc, hsoc, _⟩ := hst
  obtain ⟨st', hst'⟩ : ∃ st', Sim.gatherState (K := ℝ) pi { t1 with devices := ds' } = .ok st' := by
    simp only [Sim.gatherState, bind_ok, pure_ok]
    exact ⟨_, _, hsoc, rfl⟩
  have z1 : t.nDevice = s.nDevice := by simp only [Sim.nDevice, hr.devices]
  have z2 : t.nDes = s.nDes := by simp only [Sim.nDes, hr.devices]
  have z3 : t.nNonSlackGen = s.nNonSlackGen := by simp only [Sim.nNonSlackGen, hr.devices]
  refine ⟨{ t1 with devices := ds', state := some st' }, ?_, ⟨k3.base, k3.dt, k3.lamb, k3.buses, rfl, k3.branches⟩⟩
  simp only [Sim.reset, bind_ok, pure_ok, Prod.mk.injEq]
  refine ⟨a, ?_, ds, ?_, (t1, out'), k1, ds', ?_, st', hst', rfl, k2⟩
  · have := R.args
    rw [← z1, ← z2, ← z3, ← hr.devices] at this
    exact this
  · rw [hr.devices]
    exact mapE_ok.2 R.soc
  · have := R.assign
    rw [← z1, ← z2, ← k3.base, ← k3.devices] at this
    exact this

/-- **C99** over several transitions: as long as the load flow converges, two simulators that differ in the
order and the orientation of their branches only report the same convergence and the same losses for the same
actions, and they keep differing in nothing else. -/
theorem C99_runs_partial {as : List (Sim.Args ℝ)} {outs : List (Sim.TransOut ℝ)} (hn : CleanFile n base)
    (hs : SimOf n dt lam s) (hm : Numbered s m) (hl : FiniteLines s ls) (hr : Rearranged s t)
    (h : Runs ⟨qp, realPF o, pi⟩ s as outs s') (hc : ∀ x ∈ outs, x.converged = true) :
    ∃ t' outs', Runs ⟨qp, realPF o, pi⟩ t as outs' t' ∧ Rearranged s' t' ∧
      List.Forall₂ (fun x y => y.converged = x.converged ∧ y.eLoss = x.eLoss) outs outs' := by
  induction h generalizing t with
  | done s => exact ⟨t, [], .done t, hr, .nil⟩
  | @step s s1 s' a as x outs h1 h2 ih =>
    obtain ⟨t1, y, k1, k2, k3, k4, _⟩ := C99_rearranged_partial hn hs hm hl hr h1 (hc x (by simp))
    have hsame := sameConfig_transition h1
    obtain ⟨t', ys, k5, k6, k7⟩ := ih (simOf_transition hs h1) (numbered_same hsame hm) (finiteLines_same hsame hl)
      k3 fun z hz => hc z (by simp [hz])
    exact ⟨t', y :: ys, .step k1 k5, k6, .cons ⟨k2.trans (hc x (by simp)).symm, k4⟩ k7⟩

/-! ### Network files -/

theorem pairwise_alike {α β : Type} {R : α → β → Prop} {P : α → α → Prop} {Q : β → β → Prop}
    {l1 : List α} {l2 : List β} (h : List.Forall₂ R l1 l2) (hp : l1.Pairwise P)
    (hi : ∀ a b a' b', R a b → R a' b' → P a a' → Q b b') : l2.Pairwise Q := by
  induction h with
  | nil => exact .nil
  | @cons a b l1 l2 hab hrest ih =>
    rw [List.pairwise_cons] at hp ⊢
    refine ⟨fun c hc => ?_, ih hp.2⟩
    obtain ⟨c1, hc1, hcc⟩ := forall₂_mem_right hrest hc
    exact hi _ _ _ _ hab hcc (hp.1 c1 hc1)

theorem rowAlike_ends {r r' : BranchRow ℝ} (h : RowAlike r r') :
    (r' .fBus = r .fBus ∧ r' .tBus = r .tBus) ∨ (r' .fBus = r .tBus ∧ r' .tBus = r .fBus) := by
  cases h with
  | same => exact Or.inl ⟨rfl, rfl⟩
  | turned => exact Or.inr ⟨rfl, rfl⟩

theorem rowAlike_mkLine {r r' : BranchRow ℝ} (h : RowAlike r r') {b : X ℝ} {ids : List ℤ} {l : Line ℝ}
    (hl : mkLine r b ids = .ok l) : ∃ l', mkLine r' b ids = .ok l' ∧ SameLine l l' := by
  cases h with
  | same => exact ⟨l, hl, .same l⟩
  | turned h1 h2 =>
    have L := mkLine_ok hl
    refine ⟨_, ?_, .turned l ?_ ?_⟩
    · simp only [mkLine, bind_ok, guardE_ok, pure_ok] at hl ⊢
      obtain ⟨f, hf, t, ht, r, hr, x, hx, _, hrx, bb, hb, rate, hrate, tap, htap, sh, hsh, rfl⟩ := hl
      exact ⟨t, ht, f, hf, r, hr, x, hx, (), hrx, bb, hb, rate, hrate, tap, htap, sh, hsh, rfl⟩
    · rcases L.tap with ⟨_, e⟩ | ⟨e, _⟩
      · exact e
      · rcases h1 with h1 | h1 <;> rw [h1] at e
        · cases e
        · exact (Option.some.inj e).symm
    · rcases L.shift with ⟨_, e⟩ | ⟨e, _⟩
      · exact e
      · rcases h2 with h2 | h2 <;> rw [h2] at e
        · cases e
        · exact (Option.some.inj e).symm

/-- **C99**, for network files: a file whose branch rows are listed in another order, or in which the two ends
of lines without transformers are exchanged, is accepted too, and the simulators made from the two files differ
in the order and the orientation of their branches only. -/
theorem C99_file {n' : Network ℝ} (h : mkSim n dt lam = .ok s) (hb : n.baseMVA ≠ .nan)
    (hr : RowsRearranged n n') : ∃ t, mkSim n' dt lam = .ok t ∧ Rearranged s t := by
  have hn := noNan_of_mkSim h hb
  have W := (C01_checkNetwork_iff hn).1 (mkSim_ok.1 h).1.1
  obtain ⟨mid, hp, hf⟩ := hr.branch
  have hn' : NoNanTopology n' := by
    refine ⟨by rw [hr.base]; exact hb, by rw [hr.bus]; exact hn.bus, by rw [hr.device]; exact hn.dev, ?_⟩
    intro r' hr'
    obtain ⟨r, hrm, hrr⟩ := forall₂_mem_right hf hr'
    have := hn.branch r (hp.mem_iff.2 hrm)
    rcases rowAlike_ends hrr with ⟨e1, e2⟩ | ⟨e1, e2⟩ <;> rw [e1, e2]
    · exact this
    · exact ⟨this.2, this.1⟩
  have W' : WellFormed n' := by
    refine ⟨?_, ?_, ?_, ?_, ?_, ?_, ⟨?_, ?_⟩, ?_⟩
    · rw [BasePos, hr.base]; exact W.basePos
    · rw [OneSlackBus, hr.bus]; exact W.oneSlackBus
    · rw [OneSlackDev, hr.device]; exact W.oneSlackDev
    · rw [SlackMatch, hr.bus, hr.device]; exact W.slackMatch
    · rw [BusIdsDistinct, hr.bus]; exact W.busIds
    · rw [DevIdsDistinct, hr.device]; exact W.devIds
    · intro r' hr'
      obtain ⟨r, hrm, hrr⟩ := forall₂_mem_right hf hr'
      have := W.simple.1 r (hp.mem_iff.2 hrm)
      rcases rowAlike_ends hrr with ⟨e1, e2⟩ | ⟨e1, e2⟩ <;> rw [e1, e2]
      · exact this
      · exact this.symm
    · have h2 : mid.Pairwise fun a b => ¬ SameEnds a b := by
        refine (hp.pairwise_iff ?_).1 W.simple.2
        rintro x y hxy (⟨e1, e2⟩ | ⟨e1, e2⟩)
        · exact hxy (Or.inl ⟨e1.symm, e2.symm⟩)
        · exact hxy (Or.inr ⟨e2.symm, e1.symm⟩)
      refine pairwise_alike hf h2 fun a b a' b' hab hab' hn => ?_
      rcases rowAlike_ends hab with ⟨e1, e2⟩ | ⟨e1, e2⟩ <;>
      rcases rowAlike_ends hab' with ⟨e3, e4⟩ | ⟨e3, e4⟩ <;>
      simp only [SameEnds, e1, e2, e3, e4] at hn ⊢ <;> tauto
    · intro r' hr'
      obtain ⟨r, hrm, hrr⟩ := forall₂_mem_right hf hr'
      have := W.endpoints r (hp.mem_iff.2 hrm)
      rw [hr.bus]
      rcases rowAlike_ends hrr with ⟨e1, e2⟩ | ⟨e1, e2⟩ <;> rw [e1, e2]
      · exact this
      · exact ⟨this.2, this.1⟩
  obtain ⟨⟨_, hy⟩, buses, branches, devices, bl, brl, dl, I, rfl⟩ := mkSim_ok.1 h
  obtain ⟨K1, K2⟩ := branchKeys_nodup h hb I
  obtain ⟨brm, hbrm, pbr⟩ := mapE_perm I.hbrl hp
  have hfl : ∃ brl', mapE (fun r => mkLine r n.baseMVA (buses.map Bus.id)) n'.branch = .ok brl' ∧
      List.Forall₂ SameLine brm brl' := by
    have hb1 := mapE_ok.1 hbrm
    clear hbrm pbr hp W W' hn' h hr
    generalize n'.branch = rows at hf
    induction hf generalizing brm with
    | nil => cases hb1; exact ⟨[], rfl, .nil⟩
    | cons hab _ ih =>
      cases hb1 with
      | cons h1 h2 =>
        obtain ⟨l', hl', hal⟩ := rowAlike_mkLine hab h1
        obtain ⟨rest, hrest, hfr⟩ := ih _ h2
        exact ⟨l' :: rest, mapE_ok.2 (.cons hl' (mapE_ok.1 hrest)), .cons hal hfr⟩
  obtain ⟨brl', hbrl', hal⟩ := hfl
  have alEnds : ∀ {a b : Line ℝ}, SameLine a b → (b.fBus = a.fBus ∧ b.tBus = a.tBus) ∨ (b.fBus = a.tBus ∧ b.tBus = a.fBus) := by
    intro a b hab
    cases hab with
    | same => exact Or.inl ⟨rfl, rfl⟩
    | turned => exact Or.inr ⟨rfl, rfl⟩
  have nd : (brl.map (fun l => (l.fBus, l.tBus))).Nodup :=
    List.pairwise_map.2 (K2.imp fun hx e => hx.1 (by simpa using e))
  have K2m : brm.Pairwise (fun l l' => ¬ (l.fBus = l'.fBus ∧ l.tBus = l'.tBus) ∧
      ¬ (l.fBus = l'.tBus ∧ l.tBus = l'.fBus)) := by
    refine (pbr.pairwise_iff ?_).1 K2
    rintro x y ⟨h1, h2⟩
    exact ⟨fun e => h1 ⟨e.1.symm, e.2.symm⟩, fun e => h2 ⟨e.2.symm, e.1.symm⟩⟩
  have nd' : (brl'.map (fun l => (l.fBus, l.tBus))).Nodup := by
    refine List.pairwise_map.2 (pairwise_alike hal K2m fun a b a' b' hab hab' hx e => ?_)
    simp only [Prod.mk.injEq] at e
    rcases alEnds hab with ⟨e1, e2⟩ | ⟨e1, e2⟩ <;>
    rcases alEnds hab' with ⟨e3, e4⟩ | ⟨e3, e4⟩ <;>
    rw [e1, e2, e3, e4] at e
    · exact hx.1 e
    · exact hx.2 e
    · exact hx.2 ⟨e.2, e.1⟩
    · exact hx.1 ⟨e.2, e.1⟩
  have eb := I.eq_branches nd
  refine ⟨{ baseMVA := n'.baseMVA, deltaT := dt, lamb := lam, buses := buses.map (busBounds devices)
            branches := brl'.map (fun l => { line := l }), devices := devices }, ?_, ?_⟩
  · refine mkSim_ok.2 ⟨⟨(C01_checkNetwork_iff hn').2 W', ?_⟩, buses, _, devices, bl, brl', dl,
      ⟨by rw [hr.bus]; exact I.hbl, by rw [hr.base]; exact hbrl', by rw [hr.base, hr.device]; exact I.hdl, I.hbuses,
        ?_, I.hdevices⟩, rfl⟩
    · simp only [ybusCheck, bind_ok, guardE_ok] at hy ⊢
      obtain ⟨u, hu, hall⟩ := hy
      refine ⟨u, hu, ?_⟩
      intro e he
      obtain ⟨br, hbr, rfl⟩ := List.mem_map.1 he
      obtain ⟨l', hl', rfl⟩ := List.mem_map.1 hbr
      obtain ⟨l, hlm, hll⟩ := forall₂_mem_right hal hl'
      have hl0 : l ∈ brl := pbr.mem_iff.2 hlm
      have := hall (l.fBus, l.tBus) (List.mem_map.2 ⟨{ line := l }, by rw [eb]; exact List.mem_map_of_mem hl0, rfl⟩)
      rcases alEnds hll with ⟨e1, e2⟩ | ⟨e1, e2⟩ <;> simp only [e1, e2]
      · exact this
      · exact ⟨this.2, this.1⟩
    · rw [dictOf_distinct _ _ nd', List.map_map, List.map_map]
      rfl
  · refine ⟨hr.base, rfl, rfl, rfl, rfl, ?_⟩
    simp only [eb]
    exact ⟨brm, by simpa [Function.comp_def] using pbr, by simpa [Function.comp_def] using hal⟩

end

/-! ### A two-bus network in both orientations -/

/-- A line with resistance 1, line charging 2 and rate 1, without transformer. -/
def plainRow (f t : ℝ) : BranchRow ℝ
  | .fBus => rnum f | .tBus => rnum t | .r => rnum 1 | .x => rnum 0 | .b => rnum 2 | .rate => rnum 1
  | .tap => none | .shift => none

/-- Slack bus 0, load bus 1 and this line. -/
def plainNet (f t : ℝ) : Network ℝ :=
  ⟨.fin 1, [rbus 0 0 132 1 (rnum 1), rbus 1 1 33 3 (rnum 0)], [plainRow f t], [rslack 0 0, rload 1 1 0 (-2)]⟩

/-- The line, from bus 0 to bus 1. -/
def upLine : LineC := ⟨0, 1, 1, 0, 2, 1, 0⟩
/-- The line, from bus 1 to bus 0. -/
def downLine : LineC := ⟨1, 0, 1, 0, 2, 1, 0⟩

/-- What else is needed to compute penalties. -/
structure PlainFacts (s : Sim ℝ) : Prop where
  rates : s.branches.map (fun b => b.line.rate) = [.fin 1]
  bounds : s.buses.map (fun b => (b.vMin, b.vMax)) = [(some (.fin 1), .fin 1), (some (.fin 0), .fin 3)]
  weights : s.deltaT = .fin 1 ∧ s.lamb = .fin 1

theorem plainFacts_iff {s : Sim ℝ} : PlainFacts s ↔ s.branches.map (fun b => b.line.rate) = [.fin 1] ∧
    s.buses.map (fun b => (b.vMin, b.vMax)) = [(some (.fin 1), .fin 1), (some (.fin 0), .fin 3)] ∧
    s.deltaT = .fin 1 ∧ s.lamb = .fin 1 := ⟨fun h => ⟨h.1, h.2, h.3⟩, fun h => ⟨h.1, h.2.1, h.2.2⟩⟩

theorem up_mk : ∃ s, mkSim (plainNet 0 1) (.fin 1) (.fin 1) = .ok s ∧
    TwoFacts s true upLine [slackAt 0, loadAt 1 1] ∧ PlainFacts s := by
  simp only [twoFacts_iff, plainFacts_iff]
  eval_sim [plainNet, plainRow, slackAt, loadAt, Line.finite?, upLine]

theorem down_mk : ∃ s, mkSim (plainNet 1 0) (.fin 1) (.fin 1) = .ok s ∧
    TwoFacts s true downLine [slackAt 0, loadAt 1 1] ∧ PlainFacts s := by
  simp only [twoFacts_iff, plainFacts_iff]
  eval_sim [plainNet, plainRow, slackAt, loadAt, Line.finite?, downLine]

theorem plain_clean (f t : ℝ) : CleanFile (plainNet f t) 1 := by
  refine ⟨rfl, ?_, ?_, ?_⟩ <;> simp only [plainNet, List.mem_cons, List.not_mem_nil, or_false]
  · rintro r (rfl | rfl) c <;> cases c <;> simp [rbus, CellOk]
  · rintro r rfl c
    cases c <;> simp [plainRow, CellOk]
  · rintro r (rfl | rfl) c <;> cases c <;> simp [rslack, rload, CellOk]

theorem plain_documented (f t : ℝ) : Documented (plainNet f t) := by
  refine ⟨⟨?_, ?_⟩, ?_⟩ <;> simp only [plainNet, List.mem_cons, List.not_mem_nil, or_false]
  · rintro r (rfl | rfl)
    exacts [⟨0, by simp [rbus]⟩, ⟨1, by simp [rbus]⟩]
  · rintro r (rfl | rfl)
    exacts [⟨0, by simp [rslack]⟩, ⟨1, by simp [rload]⟩]
  · rintro r (rfl | rfl) <;> simp [rbus]

theorem plain_rearranged : RowsRearranged (plainNet 0 1) (plainNet 1 0) := by
  refine ⟨rfl, rfl, rfl, [plainRow 0 1], List.Perm.refl _, .cons ?_ .nil⟩
  have : plainRow 1 0 = turnRow (plainRow 0 1) := by
    funext c
    cases c <;> rfl
  rw [this]
  exact .turned _ (Or.inl rfl) (Or.inl rfl)

/-- A linear solver whose first answer leads from the flat start to the voltage `u`. -/
def aimAt (u : ℂ) : LFOracle :=
  ⟨fun _ _ _ => some fun k => match k with | .inl _ => -u.arg | .inr _ => 1 - ‖u‖, fun _ => true,
    fun _ => ⟨fun _ => .undef, fun _ => .undef, .nan, .nan, fun _ => {}, false⟩, fun _ => .error .valueError⟩

theorem aim_run {u : ℂ} {p : ℝ} {Y : Matrix (Fin 2) (Fin 2) ℂ} (h0 : Y 1 0 = -1) (h1 : Y 1 1 = 1 + I)
    (hp : u * conj (-1 + (1 + I) * u) = p) :
    NR.run (aimAt u) Y (m := 1) (fun _ => .fin p) (fun _ => .fin 0) xtol =
      { nIter := 1, guess := some ⟨fun _ => u.arg, fun _ => ‖u‖⟩, F := fun _ => .fin 0 } := by
  have hv : NR.volt (m := 1) ⟨fun _ => u.arg, fun _ => ‖u‖⟩ = fun k => if k = 0 then 1 else u := by
    funext k
    refine Fin.cases rfl (fun j => ?_) k
    have : (‖u‖ : ℂ) * exp (I * (u.arg : ℂ)) = u := by
      rw [mul_comm I]; exact Complex.norm_mul_exp_arg_mul_I u
    simp [NR.volt, this]
  have hv0 : NR.volt (NR.flat : Guess 1) = fun _ => 1 := by
    funext k
    refine Fin.cases rfl (fun j => ?_) k
    simp [NR.volt, NR.flat]
  have hF0 : (NR.init Y (m := 1) (fun _ => .fin p) (fun _ => .fin 0)).F =
      fun k => .fin (match k with | .inl _ => -p | .inr _ => -1) := by
    funext k
    have hpow : NR.power Y (NR.flat : Guess 1) 0 = -I := by
      simp [NR.power, hv0, NR.curr, Fin.sum_univ_two, h0, h1]
    rcases k with k | k <;> (have hk : k = 0 := Subsingleton.elim _ _) <;> subst hk <;>
      simp [NR.init, NR.f, hpow]
  have hF1 : NR.f Y (m := 1) (fun _ => .fin p) (fun _ => .fin 0) ⟨fun _ => u.arg, fun _ => ‖u‖⟩ =
      fun _ => .fin 0 := by
    have hpow : NR.power Y (m := 1) ⟨fun _ => u.arg, fun _ => ‖u‖⟩ 0 = p := by
      rw [← hp]
      simp [NR.power, hv, NR.curr, Fin.sum_univ_two, h0, h1]
    funext k
    rcases k with k | k <;> (have hk : k = 0 := Subsingleton.elim _ _) <;> subst hk <;>
      simp [NR.f, hpow]
  have hnext : ∀ F, NR.next (aimAt u) Y (some (NR.flat : Guess 1)) F =
      some ⟨fun _ => u.arg, fun _ => ‖u‖⟩ := by
    intro F
    simp [NR.next, aimAt, NR.flat]
  have hbody : NR.body (aimAt u) Y (fun _ => .fin p) (fun _ => .fin 0)
      (NR.init Y (m := 1) (fun _ => .fin p) (fun _ => .fin 0)) =
      { nIter := 1, guess := some ⟨fun _ => u.arg, fun _ => ‖u‖⟩, F := fun _ => .fin 0 } := by
    unfold NR.body
    simp only [show (NR.init Y (m := 1) (fun _ => .fin p) (fun _ => .fin 0)).guess = some NR.flat from rfl,
      hnext, NR.evalF, hF1]
    rfl
  have hc0 : NR.cond xtol (NR.init Y (m := 1) (fun _ => .fin p) (fun _ => .fin 0)) := by
    refine ⟨?_, by simp [NR.init]⟩
    rw [hF0]
    simp [NR.norm, X.abs, X.zero_def, X.max_fin, xtol]
    right
    norm_num
  have hc1 : ¬ NR.cond xtol ({ nIter := 1, guess := some ⟨fun _ => u.arg, fun _ => ‖u‖⟩, F := fun _ => .fin 0 } : NR.St 1) := by
    rintro ⟨hc, _⟩
    simp [NR.norm, X.abs, X.zero_def, X.max_fin, xtol] at hc
    norm_num at hc
  unfold NR.run NR.loop
  rw [if_pos hc0, hbody]
  unfold NR.loop
  rw [if_neg hc1]

theorem aim_solve {u : ℂ} {p : ℝ} {l : LineC} (h0 : ymat 1 [l] 1 0 = -1) (h1 : ymat 1 [l] 1 1 = 1 + I)
    (hp : u * conj (-1 + (1 + I) * u) = p) (inp : PFIn ℝ) :
    let po := solveFinite (aimAt u) inp 1 (fun _ => (.fin p, .fin 0)) [l]
    po.stable = true ∧ po.v 1 = .ofC u := by
  unfold solveFinite
  simp only [aim_run h0 h1 hp, stable_zero]
  refine ⟨rfl, ?_⟩
  have : (‖u‖ : ℂ) * exp (I * (u.arg : ℂ)) = u := by
    rw [mul_comm I]; exact Complex.norm_mul_exp_arg_mul_I u
  simp [outOf, NR.volt, this]

theorem up_y : ymat 1 [upLine] 1 0 = -1 ∧ ymat 1 [upLine] 1 1 = 1 + I := by
  constructor <;>
  simp [ymat, ybus, ybusStep, setAt, upLine, LineC.series, LineC.shunt, LineC.tap, LineC.shift]

theorem down_y : ymat 1 [downLine] 1 0 = -1 ∧ ymat 1 [downLine] 1 1 = 1 + I := by
  constructor <;>
  simp [ymat, ybus, ybusStep, setAt, downLine, LineC.series, LineC.shunt, LineC.tap, LineC.shift]

/-- The load flow of these networks ends at the voltage `u`. -/
theorem plain_run {f t : ℝ} {l : LineC} {s : Sim ℝ} {u : ℂ} {p : ℝ} (pi : ℝ)
    (hmk : mkSim (plainNet f t) (.fin 1) (.fin 1) = .ok s) (F : TwoFacts s true l [slackAt 0, loadAt 1 1])
    (h0 : ymat 1 [l] 1 0 = -1) (h1 : ymat 1 [l] 1 1 = 1 + I)
    (hp : u * conj (-1 + (1 + I) * u) = p) (p1 : -2 ≤ p) (p2 : p ≤ 0) : ∃ s' out V,
    s.transition ⟨exactQP, realPF (aimAt u), pi⟩ (demand p 0) = .ok (s', out) ∧ out.converged = true ∧
    Solved s' [l] V ∧ V 0 = 1 ∧ V 1 = u := by
  obtain ⟨s', out, h⟩ := two_run (devs := [(1, 1)]) (a := demand p 0) (aimAt u) pi (plain_clean f t) hmk F
    (by simp [demand, Dict.get?])
  have hs : SimOf (plainNet f t) (.fin 1) (.fin 1) s := ⟨s, hmk, sameConfig_refl s⟩
  obtain ⟨b0, b1, inp, hb, i0, i1, f0, f1, hc, hv0, hv1⟩ := two_solved F h
  have F' := two_same (sameConfig_transition h) F
  obtain ⟨i, j, hos⟩ := oneSlack_of_file (plain_clean f t) (plain_documented f t) hs
  obtain ⟨hp', hq'⟩ := C33_bus_sum_partial hos h (b := b1) (by simp [hb]) (by simp [f1])
  obtain ⟨d, e, hds, hd1, he1⟩ := devs_two F'
  have hL := two_load (x := p) F h (d := e) (by simp [hds]) he1 (by simp [demand, Dict.get?]) p1 p2
  simp only [slackAt, loadAt, Prod.mk.injEq] at hd1 he1
  simp only [devicesAt, hds, i1, List.filter, hd1.2.1, he1.2.1, sumX, List.map, List.foldl] at hp' hq'
  simp [zero_add_X, hL.1, hL.2] at hp' hq'
  simp only [hp', hq', if_true] at hc hv1
  obtain ⟨g1, g2⟩ := aim_solve h0 h1 hp inp
  have hconv := hc.trans g1
  obtain ⟨V, hV, _⟩ := C25_converged (plain_clean f t) hs (two_numbered F) (two_lines F) h hconv
  refine ⟨s', out, V, h, hconv, hV, hV.ref, ?_⟩
  have e1 := hV.v b1 (by simp [hb])
  rw [i1, hv1.trans g2] at e1
  simp only [Phasor.ofC, Phasor.mk.injEq, X.fin.injEq] at e1
  exact (Complex.ext e1.1 e1.2.1).symm

/-- The penalty of these networks is the overload of the line. -/
theorem plain_penalty {l : LineC} {s s' : Sim ℝ} {V : ℤ → ℂ} {c : Ctx ℝ} {a : Sim.Args ℝ} {out : Sim.TransOut ℝ}
    (F : TwoFacts s true l [slackAt 0, loadAt 1 1]) (P : PlainFacts s) (h : s.transition c a = .ok (s', out))
    (hV : Solved s' [l] V) (h1 : ‖V 1‖ ≤ 3) :
    out.penalty = X.maximum 0 (X.abs (l.flow (V l.fBus) (V l.tBus)).sApparentMax - .fin 1) := by
  obtain ⟨ds, po, I⟩ := transition_ok h
  have hcfg := sameConfig_transition h
  have F' := two_same hcfg F
  obtain ⟨b0, b1, hb, i0, i1, f0, f1, _⟩ := two_buses F'
  have hbd : s'.buses.map (fun b => (b.vMin, b.vMax)) = [(some (.fin 1), .fin 1), (some (.fin 0), .fin 3)] := by
    rw [← P.bounds, ← List.forall₂_eq_eq_eq, List.forall₂_map_left_iff, List.forall₂_map_right_iff]
    refine hcfg.buses.flip.imp fun b b' hb => ?_
    rw [hb]
  have hrt : s'.branches.map (fun b => b.line.rate) = [.fin 1] := by
    rw [← P.rates, ← List.forall₂_eq_eq_eq, List.forall₂_map_left_iff, List.forall₂_map_right_iff]
    refine hcfg.branches.flip.imp fun b b' hb => ?_
    rw [hb]
  rw [hb] at hbd
  simp only [List.map_cons, List.map_nil, List.cons.injEq, Prod.mk.injEq, and_true] at hbd
  obtain ⟨⟨m0, x0⟩, m1, x1⟩ := hbd
  obtain ⟨br, hbr, hrate⟩ := List.map_eq_singleton_iff.1 hrt
  have hfl := hV.flow
  rw [hbr] at hfl
  obtain ⟨⟨_, hfl⟩, _⟩ := List.forall₂_cons.1 hfl
  have v0 : b0.v.abs = .fin 1 := by rw [hV.v b0 (by simp [hb]), i0, hV.ref]; simp [Phasor.ofC]
  have v1 : b1.v.abs = .fin ‖V 1‖ := by rw [hV.v b1 (by simp [hb]), i1]; rfl
  have hrew := I.reward
  simp only [Sim.computeReward, bind_ok, pure_ok, Prod.mk.injEq] at hrew
  obtain ⟨bp, hbp, _, _, hpen⟩ := hrew
  have p0 : Sim.busPenalty b0 = .ok (.fin 0) := by
    simp [Sim.busPenalty, m0, x0, v0, X.zero_def, X.max_fin]
  have p1 : Sim.busPenalty b1 = .ok (.fin 0) := by
    have : ‖V 1‖ - 3 ≤ 0 := by linarith
    simp [Sim.busPenalty, m1, x1, v1, X.zero_def, X.max_fin, this]
  have : bp = [.fin 0, .fin 0] := by
    rw [hb] at hbp
    simp [mapE, p0, p1, Bind.bind, Except.bind, pure, Except.pure] at hbp
    exact hbp.symm
  rw [← hpen, this, hbr, hcfg.dt, hcfg.lamb, P.weights.1, P.weights.2]
  simp only [List.foldl, Sim.branchPenalty, hfl, hrate]
  generalize X.maximum 0 (X.abs (l.flow (V l.fBus) (V l.tBus)).sApparentMax - .fin 1) = z
  have hz : ∀ z : X ℝ, z * (.fin 1 * .fin 1) = z := by
    intro z
    rw [show (X.fin 1 * X.fin 1 : X ℝ) = .fin 1 by simp]
    show X.mul z (.fin 1) = z
    cases z <;> simp [X.mul, X.sgn, X.infOf]
  rw [hz]
  cases z <;> simp [X.zero_def] <;> rfl

/-- The voltage of bus 1 if nothing is withdrawn there. -/
theorem idle_voltage : ((1 - I) / 2) * conj (-1 + (1 + I) * ((1 - I) / 2)) = ((0 : ℝ) : ℂ) := by
  have : (1 + I) * ((1 - I) / 2) = 1 := by
    have := Complex.I_mul_I
    linear_combination (-1 / 2 : ℂ) * this
  rw [this]
  simp

/-- **C99 is false**: turning a line without transformer at whose one end no power is exchanged changes the
penalty of the same action: an overloaded line is penalised in one orientation and not in the other. -/
theorem C99_counterexample : ∃ n n' s t, CleanFile n 1 ∧ Documented n ∧ mkSim n (.fin 1) (.fin 1) = .ok s ∧
    RowsRearranged n n' ∧ mkSim n' (.fin 1) (.fin 1) = .ok t ∧ ∀ pi : ℝ, ∃ o a s' out t' out',
      s.transition ⟨exactQP, realPF o, pi⟩ a = .ok (s', out) ∧ out.converged = true ∧
      t.transition ⟨exactQP, realPF o, pi⟩ a = .ok (t', out') ∧ out'.converged = true ∧
      (∃ x, 0 < x ∧ out.penalty = .fin x) ∧ out'.penalty = .fin 0 := by
  obtain ⟨s, hs, F, P⟩ := up_mk
  obtain ⟨t, ht, G, Q⟩ := down_mk
  refine ⟨plainNet 0 1, plainNet 1 0, s, t, plain_clean 0 1, plain_documented 0 1, hs, plain_rearranged, ht, fun pi => ?_⟩
  obtain ⟨s', out, V, k1, k2, k3, k4, k5⟩ := plain_run pi hs F up_y.1 up_y.2 idle_voltage (by norm_num) le_rfl
  obtain ⟨t', out', W, j1, j2, j3, j4, j5⟩ := plain_run pi ht G down_y.1 down_y.2 idle_voltage (by norm_num) le_rfl
  have hnorm : ‖(1 - I) / 2‖ ≤ 3 := by
    rw [norm_div]
    have := norm_sub_le (1 : ℂ) I
    simp at this ⊢
    linarith
  have e1 := plain_penalty F P k1 k3 (by rw [k5]; exact hnorm)
  have e2 := plain_penalty G Q j1 j3 (by rw [j5]; exact hnorm)
  refine ⟨_, _, s', out, t', out', k1, k2, j1, j2, ?_, ?_⟩
  · have hsf : upLine.sFrom 1 ((1 - I) / 2) = (1 - 3 * I) / 2 := by
      simp [LineC.sFrom, LineC.iFrom, upLine, LineC.series, LineC.shunt, LineC.tap, LineC.shift]
      try rw [map_ofNat]
      ring
    have hre : (upLine.sFrom 1 ((1 - I) / 2)).re ≠ 0 := by rw [hsf]; simp
    rw [e1]
    simp only [show V upLine.fBus = 1 from k4, show V upLine.tBus = (1 - I) / 2 from k5]
    rw [abs_loading hre]
    have hbig : 3 / 2 ≤ ‖upLine.sFrom 1 ((1 - I) / 2)‖ := by
      have := Complex.abs_im_le_norm (upLine.sFrom 1 ((1 - I) / 2))
      rw [hsf] at this ⊢
      refine le_trans ?_ this
      simp
      norm_num
    have hbig' := le_trans hbig (le_max_left _ ‖upLine.sTo 1 ((1 - I) / 2)‖)
    refine ⟨max 0 (max ‖upLine.sFrom 1 ((1 - I) / 2)‖ ‖upLine.sTo 1 ((1 - I) / 2)‖ - 1), lt_max_of_lt_right (by linarith), ?_⟩
    simp only [X.zero_def, X.fin_sub_fin, X.max_fin]
  · rw [e2]
    simp only [show W downLine.fBus = (1 - I) / 2 from j5, show W downLine.tBus = 1 from j4]
    have hi : downLine.iFrom ((1 - I) / 2) 1 = 0 := by
      simp [LineC.iFrom, downLine, LineC.series, LineC.shunt, LineC.tap, LineC.shift]
      have := Complex.I_mul_I
      linear_combination (-1 / 2 : ℂ) * this
    rw [C34_zero _ _ _ (by rw [LineC.sFrom, hi]; simp)]
    simp [X.abs, X.zero_def, X.max_fin]

/-- The hypotheses of C99 are met by these networks, at a demand of 0.2 MW, with power at both ends of the
line. -/
example (pi : ℝ) : ∃ n n' s t o a s' out m ls, CleanFile n 1 ∧ SimOf n (.fin 1) (.fin 1) s ∧ Numbered s m ∧
    FiniteLines s ls ∧ RowsRearranged n n' ∧ n'.branch ≠ n.branch ∧ mkSim n' (.fin 1) (.fin 1) = .ok t ∧
    Rearranged s t ∧ t.branches ≠ s.branches ∧
    s.transition ⟨exactQP, realPF o, pi⟩ a = .ok (s', out) ∧ out.converged = true ∧
    (∀ b ∈ s'.branches, b.flow.pFrom ≠ .fin 0 ∧ b.flow.pTo ≠ .fin 0) := by
  obtain ⟨s, hs, F, P⟩ := up_mk
  obtain ⟨t, ht, hr⟩ := C99_file hs (by simp [plainNet]) plain_rearranged
  obtain ⟨t0, ht0, G, Q⟩ := down_mk
  rw [ht] at ht0
  injection ht0 with ht0
  subst ht0
  have hu : ((2 - I) / 5) * conj (-1 + (1 + I) * ((2 - I) / 5)) = (((-1 / 5) : ℝ) : ℂ) := by
    have := Complex.I_mul_I
    simp
    rw [map_ofNat, map_ofNat]
    ring_nf
    simp
    ring
  obtain ⟨s', out, V, k1, k2, k3, k4, k5⟩ := plain_run pi hs F up_y.1 up_y.2 hu (by norm_num) (by norm_num)
  refine ⟨plainNet 0 1, plainNet 1 0, s, t, _, _, s', out, 1, [upLine], plain_clean 0 1, ⟨s, hs, sameConfig_refl s⟩,
    two_numbered F, two_lines F, plain_rearranged, ?_, ht, hr, ?_, k1, k2, ?_⟩
  · intro e
    have := congrArg (List.map fun r => r BranchCol.fBus) e
    simp [plainNet, plainRow] at this
  · intro e
    have := G.branches
    rw [e, F.branches] at this
    simp [upLine, downLine] at this
  · intro b hb
    obtain ⟨l, hl, _, e⟩ := forall₂_mem_left k3.flow hb
    simp only [List.mem_singleton] at hl
    subst hl
    rw [e]
    simp only [show V upLine.fBus = 1 from k4, show V upLine.tBus = (2 - I) / 5 from k5]
    have h1 : upLine.sFrom 1 ((2 - I) / 5) = (3 - 6 * I) / 5 := by
      simp [LineC.sFrom, LineC.iFrom, upLine, LineC.series, LineC.shunt, LineC.tap, LineC.shift]
      rw [map_ofNat, map_ofNat]
      ring
    have h2 : upLine.sTo 1 ((2 - I) / 5) = -1 / 5 := by
      have := hu
      simp [LineC.sTo, LineC.iTo, upLine, LineC.series, LineC.shunt, LineC.tap, LineC.shift] at this ⊢
      rw [← this]
      ring
    simp [LineC.flow, h1, h2]

end

end Anm
