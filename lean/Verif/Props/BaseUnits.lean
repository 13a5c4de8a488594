import Verif.Lemmas.Units
import Verif.Lemmas.LoadCase
import Verif.Props.Projection
import Verif.Props.State

/-! # C133: the base power is only a unit

Rewriting a network file for another base power — impedances divided by `k`, line charging multiplied by `k`, everything in MW, MVAr,
MVA and MWh as it is — describes the same network.  The simulator built from the new file should do the same, in physical units. -/

set_option linter.unusedSectionVars false

namespace Anm

open Spec

namespace Spec
variable {K : Type} [Field K] [LinearOrder K]

/-- A branch row for a base power `k` times smaller: the impedances and the line charging are in per-unit. -/
def branchInBase (k : K) (row : BranchRow K) : BranchRow K
  | .r => (row .r).map (X.sc k⁻¹)
  | .x => (row .x).map (X.sc k⁻¹)
  | .b => (row .b).map (X.sc k)
  | c => row c

/-- A network file for a base power `k` times smaller. -/
def inBase (k : K) (n : Network K) : Network K :=
  { n with baseMVA := n.baseMVA.sc k⁻¹, branch := n.branch.map (branchInBase k) }

/-- The loads of the file have no PMAX, or PMAX = 0. -/
def LoadsPlain (n : Network K) : Prop :=
  ∀ r ∈ n.device, cellEq (r .devType) (some (.fin (-1))) → r .pmax = none ∨ r .pmax = some (.fin 0)

end Spec

section
variable {K : Type} [Field K]

/-! ### The same objects with a base power `k` times smaller -/

/-- A complex number in the new unit; its angle does not change. -/
def Phasor.sc (k : K) (z : Phasor K) : Phasor K := ⟨z.re.sc k, z.im.sc k, z.abs.sc k, z.ang⟩

/-- Powers, energies and ordinates in the new unit; slopes, ratios and efficiencies do not change. -/
def Device.sc (k : K) (d : Device K) : Device K :=
  { d with pMin := d.pMin.sc k, pMax := d.pMax.sc k, qMin := d.qMin.sc k, qMax := d.qMax.sc k, pPlus := d.pPlus.sc k, pMinus := d.pMinus.sc k, qPlus := d.qPlus.sc k, qMinus := d.qMinus.sc k, rho1 := d.rho1.sc k, rho2 := d.rho2.sc k, rho3 := d.rho3.sc k, rho4 := d.rho4.sc k, socMin := d.socMin.sc k, socMax := d.socMax.sc k, p := d.p.sc k, q := d.q.sc k, pPot := d.pPot.sc k, soc := d.soc.map (X.sc k) }

/-- Powers and currents in the new unit; voltages do not change. -/
def Bus.sc (k : K) (b : Bus K) : Bus K :=
  { b with pMin := b.pMin.sc k, pMax := b.pMax.sc k, qMin := b.qMin.sc k, qMax := b.qMax.sc k, p := b.p.sc k, q := b.q.sc k, i := b.i.sc k }

/-- Impedances are inversely proportional to the base impedance. -/
def Line.sc (k : K) (l : Line K) : Line K := { l with r := l.r.sc k⁻¹, x := l.x.sc k⁻¹, b := l.b.sc k, rate := l.rate.sc k }

def Flow.sc (k : K) (f : Flow K) : Flow K :=
  { iFrom := f.iFrom.sc k, iTo := f.iTo.sc k, pFrom := f.pFrom.sc k, qFrom := f.qFrom.sc k, pTo := f.pTo.sc k, qTo := f.qTo.sc k, sApparentMax := f.sApparentMax.sc k }

def Branch.sc (k : K) (b : Branch K) : Branch K := ⟨b.line.sc k, b.flow.sc k⟩

/-- The entries of the state that depend on the base power: those in per-unit, except the voltages. -/
def perUnit (key : Key) (u : QUnit) : Bool := decide (u = .pu ∧ key ≠ .busVMagn)

/-- The state dictionary in the new unit. -/
def stateSc (k : K) (st : SimState K) : SimState K :=
  st.map fun e => (e.1, e.2.map fun d => (d.1, if perUnit e.1 d.1 then d.2.map fun x => (x.1, x.2.sc k) else d.2))

/-- A simulator in the new unit. -/
def Sim.sc (k : K) (s : Sim K) : Sim K :=
  { s with baseMVA := s.baseMVA.sc k⁻¹, buses := s.buses.map (Bus.sc k), branches := s.branches.map (Branch.sc k), devices := s.devices.map (Device.sc k), state := s.state.map (stateSc k) }

def PFIn.sc (k : K) (i : PFIn K) : PFIn K :=
  { buses := i.buses.map fun b => (b.1, b.2.1, b.2.2.1.sc k, b.2.2.2.sc k), lines := i.lines.map (Line.sc k) }

def PFOut.sc (k : K) (o : PFOut K) : PFOut K :=
  { o with i := fun j => (o.i j).sc k, slackP := o.slackP.sc k, slackQ := o.slackQ.sc k, flow := fun j => (o.flow j).sc k }

/-- A row of the projection: only the right-hand side is a power. -/
def HalfPlane.sc (k : K) (r : HalfPlane K) : HalfPlane K := { r with h := r.h.sc k }

end

namespace Spec
variable {K : Type} [Field K] [LinearOrder K]

/-- The solver of the projections gives the same point in both units. -/
def QPUnits (k : K) (qp qp' : QP K) : Prop :=
  ∀ rows x, qp' (rows.map (HalfPlane.sc k)) (x.1.sc k, x.2.sc k) = (qp rows x).map fun y => (y.1.sc k, y.2.sc k)

/-- The voltage of a bus is within its limits. -/
def VoltageFine (b : Bus K) : Prop := ∃ lo v, b.vMin = some lo ∧ b.v.abs = .fin v ∧ lo ≤ .fin v ∧ .fin v ≤ b.vMax

/-- The load flow gives the same result in both units. -/
def PFUnits (k : K) (pf pf' : PF K) : Prop := ∀ i, pf' (i.sc k) = (pf i).map (PFOut.sc k)

end Spec

variable {K : Type} [Field K] [LinearOrder K] [IsStrictOrderedRing K] {k : K}

/-! ### Transitions -/

theorem mapE_units {α β α' β' : Type} {f : α → Except PyErr β} {f' : α' → Except PyErr β'} {g : α → α'} {h : β → β'} :
    ∀ l : List α, (∀ x ∈ l, f' (g x) = (f x).map h) → mapE f' (l.map g) = (mapE f l).map (List.map h)
  | [], _ => rfl
  | x :: l, H => by
    rw [List.map_cons, mapE, mapE, mapE_units l (fun y hy => H y (.tail _ hy)), H x (.head _)]
    cases f x
    · rfl
    · cases mapE f l <;> rfl

theorem bind_units {ε α α' β β' : Type} {x : Except ε α} {x' : Except ε α'} {f : α → Except ε β} {f' : α' → Except ε β'} (g : α → α') {h : β → β'}
    (hx : x' = x.map g) (hf : ∀ a, f' (g a) = (f a).map h) : (x' >>= f') = (x >>= f).map h := by
  subst hx
  cases x
  · rfl
  · exact hf _

theorem mapLoad_sc (hk : 0 < k) (d : Device K) (x : X K) : (d.sc k).mapLoad (x.sc k) = (d.mapLoad x).sc k := by
  simp only [Device.mapLoad, Device.sc, X.sc_clip hk, X.sc_mul hk]

theorem setPPot_sc (hk : 0 < k) (d : Device K) (x : X K) : (d.sc k).setPPot (x.sc k) = (d.setPPot x).sc k := by
  simp only [Device.setPPot, Device.sc, X.sc_clip hk]

theorem project_sc {qp qp' : QP K} (hq : QPUnits k qp qp') (rows : List (HalfPlane K)) (d : Device K) (p q : X K) :
    Device.project qp' (rows.map (HalfPlane.sc k)) (d.sc k) (p.sc k) (q.sc k) = (Device.project qp rows d p q).map (Device.sc k) := by
  unfold Device.project
  rw [hq rows (p, q)]
  cases qp rows (p, q) <;> rfl

theorem genConstraints_sc (d : Device K) : (d.sc k).genConstraints = d.genConstraints.map (HalfPlane.sc k) := by
  simp only [Device.genConstraints, Device.sc, List.map, HalfPlane.sc, X.sc_neg]

theorem mapStorage_sc (hk : 0 < k) {qp qp' : QP K} (hq : QPUnits k qp qp') (d : Device K) (p q dt : X K) :
    (d.sc k).mapStorage qp' (p.sc k) (q.sc k) dt = (d.mapStorage qp p q dt).map (Device.sc k) := by
  unfold Device.mapStorage
  refine bind_units (List.map (HalfPlane.sc k)) ?_ (fun rows => project_sc hq rows d p q)
  unfold Device.storageConstraints
  show (match d.soc.map (X.sc k) with | none => _ | some soc => _) = _
  cases hs : d.soc with
  | none => rfl
  | some soc =>
    refine bind_units (X.sc k) ?_ fun a => bind_units (X.sc k) ?_ fun b => ?_
    · unfold X.pyDiv
      show (guardE (dt * d.eff ≠ .fin 0) .zeroDivision >>= fun _ => pure (-(soc.sc k - d.socMax.sc k) / (dt * d.eff))) = _
      rw [← X.sc_sub, ← X.sc_neg, X.sc_div hk]
      cases guardE (dt * d.eff ≠ .fin 0) .zeroDivision <;> rfl
    · unfold X.pyDiv
      show (guardE (dt ≠ .fin 0) .zeroDivision >>= fun _ => pure (d.eff * (soc.sc k - d.socMin.sc k) / dt)) = _
      rw [← X.sc_sub, X.mul_sc hk, X.sc_div hk]
      cases guardE (dt ≠ .fin 0) .zeroDivision <;> rfl
    · simp only [pure, Except.pure, Except.map, List.map, HalfPlane.sc, X.sc_neg, Device.sc]

theorem updateSoc_sc (hk : 0 < k) (d : Device K) (dt : X K) : (d.sc k).updateSoc dt = (d.updateSoc dt).map (Device.sc k) := by
  unfold Device.updateSoc
  show (match d.soc.map (X.sc k) with | none => _ | some soc => _) = _
  cases hs : d.soc with
  | none => rfl
  | some soc =>
    show Except.ok { d.sc k with soc := some (X.clip (if d.p.sc k ≤ 0 then soc.sc k - dt * d.eff * d.p.sc k else soc.sc k - dt * d.p.sc k / d.eff) (d.socMin.sc k) (d.socMax.sc k)) } = _
    have e : (if d.p.sc k ≤ 0 then soc.sc k - dt * d.eff * d.p.sc k else soc.sc k - dt * d.p.sc k / d.eff) =
        (if d.p ≤ 0 then soc - dt * d.eff * d.p else soc - dt * d.p / d.eff).sc k := by
      simp only [X.sc_le_zero hk, X.mul_sc hk, X.sc_div hk, ← X.sc_sub]
      split <;> rfl
    rw [e, X.sc_clip hk]
    rfl

theorem stepDevice_sc (hk : 0 < k) {qp qp' : QP K} (hq : QPUnits k qp qp') (m dt : X K) (a : Sim.Args K) (d : Device K) :
    Sim.stepDevice qp' (m.sc k⁻¹) dt a (d.sc k) = (Sim.stepDevice qp m dt a d).map (Device.sc k) := by
  unfold Sim.stepDevice
  rw [show (d.sc k).isLoad = d.isLoad from rfl, show (d.sc k).isNonSlackGen = d.isNonSlackGen from rfl, show (d.sc k).isStorage = d.isStorage from rfl,
    show (d.sc k).isSlack = d.isSlack from rfl, show (d.sc k).id = d.id from rfl]
  have idm : ∀ {α : Type} (x : Except PyErr α), x = x.map id := fun x => by cases x <;> rfl
  split
  · refine bind_units id (idm _) fun x => ?_
    simp only [id, X.div_base hk, mapLoad_sc hk]; rfl
  split
  · refine bind_units id (idm _) fun x => bind_units id (idm _) fun p => bind_units id (idm _) fun q => ?_
    show Device.mapGen qp' ((d.sc k).setPPot (X.clip (x / m.sc k⁻¹) (d.pMin.sc k) (d.pMax.sc k))) (p / m.sc k⁻¹) (q / m.sc k⁻¹) = _
    rw [X.div_base hk, X.div_base hk, X.div_base hk, X.sc_clip hk, setPPot_sc hk, Device.mapGen, genConstraints_sc, project_sc hq]
    rfl
  split
  · refine bind_units id (idm _) fun p => bind_units id (idm _) fun q => bind_units (Device.sc k) ?_ fun d' => updateSoc_sc hk d' dt
    simp only [id, X.div_base hk, mapStorage_sc hk hq]
  split
  · show Except.ok { d.sc k with p := 0, q := 0 } = Except.ok (Device.sc k { d with p := 0, q := 0 })
    simp [Device.sc]
  · rfl

theorem filter_sc (k : K) (l : List (Device K)) (i : ℤ) :
    (l.map (Device.sc k)).filter (fun d => d.busId = i) = (l.filter (fun d => d.busId = i)).map (Device.sc k) := by
  rw [List.filter_map]; rfl

theorem busInjections_sc (l : List (Device K)) (b : Bus K) :
    Sim.busInjections (l.map (Device.sc k)) (b.sc k) = (Sim.busInjections l b).sc k := by
  have hp := X.sc_fold (k := k) Device.p (l.filter fun d => d.busId = b.id) 0
  have hq := X.sc_fold (k := k) Device.q (l.filter fun d => d.busId = b.id) 0
  rw [X.sc_zero] at hp hq
  unfold Sim.busInjections
  rw [show (b.sc k).id = b.id from rfl, filter_sc]
  dsimp only
  rw [List.foldl_map, List.foldl_map]
  simp only [Bus.sc, ← hp, ← hq]
  rfl

theorem nanToInf_sc (x : X K) : Sim.nanToInf (x.sc k) = (Sim.nanToInf x).sc k := by cases x <;> rfl

theorem mapIdx_units {α α' β : Type} (g : α → α') (f : ℕ → α' → β) (l : List α) : (l.map g).mapIdx f = l.mapIdx fun j x => f j (g x) :=
  List.ext_getElem? fun j => by simp [List.getElem?_mapIdx, Function.comp_def]

theorem map_mapIdx_units {α β γ : Type} (g : β → γ) (f : ℕ → α → β) (l : List α) : (l.mapIdx f).map g = l.mapIdx fun j x => g (f j x) :=
  List.ext_getElem? fun j => by simp [List.getElem?_mapIdx, Function.comp_def]

theorem applyPF_sc (s : Sim K) (o : PFOut K) : (s.sc k).applyPF (o.sc k) = (s.applyPF o).map (Sim.sc k) := by
  unfold Sim.applyPF
  dsimp only
  have hb : ((s.sc k).buses.mapIdx fun j b => { b with v := (o.sc k).v j, i := (o.sc k).i j, p := if b.isSlack then Sim.nanToInf (o.sc k).slackP else b.p, q := if b.isSlack then Sim.nanToInf (o.sc k).slackQ else b.q }) =
      (s.buses.mapIdx fun j b => { b with v := o.v j, i := o.i j, p := if b.isSlack then Sim.nanToInf o.slackP else b.p, q := if b.isSlack then Sim.nanToInf o.slackQ else b.q }).map (Bus.sc k) := by
    show (s.buses.map (Bus.sc k)).mapIdx _ = _
    rw [mapIdx_units, map_mapIdx_units]
    congr 1
    funext j b
    unfold Bus.sc
    dsimp only
    congr 1
    · show (if b.isSlack then Sim.nanToInf (o.slackP.sc k) else b.p.sc k) = X.sc k (if b.isSlack then _ else _)
      rw [nanToInf_sc]; split <;> rfl
    · show (if b.isSlack then Sim.nanToInf (o.slackQ.sc k) else b.q.sc k) = X.sc k (if b.isSlack then _ else _)
      rw [nanToInf_sc]; split <;> rfl
  rw [hb]
  refine bind_units (List.map (Device.sc k)) ?_ fun ds => ?_
  · refine mapE_units _ fun d _ => ?_
    rw [show (d.sc k).isSlack = d.isSlack from rfl, show (d.sc k).busId = d.busId from rfl]
    split
    · rw [List.find?_map]
      rw [show ((fun b : Bus K => decide (b.id = d.busId)) ∘ Bus.sc k) = fun b => decide (b.id = d.busId) from rfl]
      generalize List.find? _ _ = r
      cases r <;> rfl
    · rfl
  · show Except.ok _ = Except.ok (Sim.sc k _)
    congr 1
    unfold Sim.sc
    dsimp only
    congr 1
    rw [mapIdx_units, map_mapIdx_units]; rfl

theorem signRe_sc (hk : 0 < k) (z : Phasor K) : Sim.signRe (z.sc k) = Sim.signRe z := by
  unfold Sim.signRe Phasor.sc
  simp only [X.sc_eq_zero hk, X.sc_div_sc hk]

theorem gatherState_sc (hk : 0 < k) (pi : K) (s : Sim K) : (s.sc k).gatherState pi = (s.gatherState pi).map (stateSc k) := by
  unfold Sim.gatherState
  dsimp only
  have hf : ∀ f : Device K → Bool, (∀ d, f (d.sc k) = f d) → (s.sc k).devices.filter f = (s.devices.filter f).map (Device.sc k) := by
    intro f h
    show (s.devices.map (Device.sc k)).filter f = _
    rw [List.filter_map]
    congr 1
    exact List.filter_congr fun d _ => h d
  rw [hf Device.isStorage (fun _ => rfl), hf Device.isNonSlackGen (fun _ => rfl)]
  refine bind_units (List.map fun e => (e.1, e.2.sc k)) ?_ fun soc => ?_
  · refine mapE_units _ fun d _ => ?_
    show (match d.soc.map (X.sc k) with | none => _ | some x => _) = _
    cases d.soc <;> rfl
  · show Except.ok _ = Except.ok (stateSc k _)
    congr 1
    simp [stateSc, perUnit, Sim.sc, Bus.sc, Device.sc, Branch.sc, Line.sc, Flow.sc, X.mul_base hk, Function.comp_def, Phasor.sc, X.mul_sc hk]
    intro b _
    exact congrArg (X.sc k) (congrArg (· * b.flow.iFrom.abs) (signRe_sc hk b.flow.iFrom))

theorem eLossStep_sc (hk : 0 < k) (l : List (Device K)) (e : X K) :
    (l.map (Device.sc k)).foldl Sim.eLossStep (e.sc k) = (l.foldl Sim.eLossStep e).sc k := by
  induction l generalizing e with
  | nil => rfl
  | cons d l ih =>
    rw [List.map_cons, List.foldl_cons, List.foldl_cons, ← ih]
    congr 1
    unfold Sim.eLossStep
    rw [show (d.sc k).isGen = d.isGen from rfl, show (d.sc k).isLoad = d.isLoad from rfl, show (d.sc k).isRenewable = d.isRenewable from rfl,
      show (d.sc k).p = d.p.sc k from rfl, show (d.sc k).pPot = d.pPot.sc k from rfl]
    simp only [← X.sc_sub, X.sc_max_zero hk]
    split <;> split <;> simp only [X.sc_add]

theorem branchPenalty_sc (hk : 0 < k) (b : Branch K) : Sim.branchPenalty (b.sc k) = (Sim.branchPenalty b).sc k := by
  unfold Sim.branchPenalty
  rw [show (b.sc k).flow.sApparentMax = b.flow.sApparentMax.sc k from rfl, show (b.sc k).line.rate = b.line.rate.sc k from rfl,
    X.sc_abs hk, ← X.sc_sub, X.sc_max_zero hk]

theorem solveStep_sc (hk : 0 < k) {c c' : Ctx K} (hq : QPUnits k c.qp c'.qp) (hf : PFUnits k c.pf c'.pf) (s : Sim K) (a : Sim.Args K) :
    (s.sc k).solveStep c' a = (s.solveStep c a).map (Sim.sc k) := by
  unfold Sim.solveStep
  refine bind_units (List.map (Device.sc k)) (mapE_units _ fun d _ => stepDevice_sc hk hq _ _ a d) fun ds => ?_
  have e : ({ s.sc k with devices := ds.map (Device.sc k), buses := (s.sc k).buses.map (Sim.busInjections (ds.map (Device.sc k))) } : Sim K) =
      Sim.sc k { s with devices := ds, buses := s.buses.map (Sim.busInjections ds) } := by
    unfold Sim.sc
    dsimp only
    congr 1
    rw [List.map_map, List.map_map]
    exact List.map_congr_left fun b _ => busInjections_sc ds b
  show (c'.pf (Sim.pfIn { s.sc k with devices := ds.map (Device.sc k), buses := (s.sc k).buses.map (Sim.busInjections (ds.map (Device.sc k))) }) >>= fun o =>
    Sim.applyPF { s.sc k with devices := ds.map (Device.sc k), buses := (s.sc k).buses.map (Sim.busInjections (ds.map (Device.sc k))) } o >>= fun s =>
      pure { s with pfeConverged := some o.stable }) = _
  rw [e]
  refine bind_units (PFOut.sc k) ?_ fun o => bind_units (Sim.sc k) (applyPF_sc _ o) fun s' => rfl
  rw [← hf]
  congr 1
  simp only [Sim.pfIn, PFIn.sc, Sim.sc, List.map_map]
  rfl

theorem busPenalty_fine {b : Bus K} (h : VoltageFine b) : Sim.busPenalty b = .ok 0 := by
  obtain ⟨lo, v, h1, h2, h3, h4⟩ := h
  unfold Sim.busPenalty
  rw [h1, h2]
  have a1 : X.maximum 0 (.fin v - b.vMax) = 0 := by
    cases hb : b.vMax with
    | nan => rw [hb] at h4; simp at h4
    | ninf => rw [hb] at h4; simp at h4
    | pinf => rfl
    | fin w => rw [hb] at h4; simp at h4; simp [X.zero_def, X.maximum, h4]
  have a2 : X.maximum 0 (lo - .fin v) = 0 := by
    cases lo with
    | nan => simp at h3
    | ninf => rfl
    | pinf => simp at h3
    | fin w => simp at h3; simp [X.zero_def, X.maximum, h3]
  simp only [a1, a2]
  simp [X.zero_def]

/-- **C133.** One time step: the simulator for the other base power does the same in its unit, with the same convergence flag; the energy loss
is the same energy. -/
theorem C133_transition_partial (hk : 0 < k) {c c' : Ctx K} (hq : QPUnits k c.qp c'.qp) (hf : PFUnits k c.pf c'.pf) (hpi : c'.pi = c.pi)
    {s s' : Sim K} {a : Sim.Args K} {out : Sim.TransOut K} (h : s.transition c a = .ok (s', out)) :
    ∃ out', (s.sc k).transition c' a = .ok (s'.sc k, out') ∧ out'.converged = out.converged ∧ out'.eLoss = out.eLoss.sc k ∧
      ((∀ b ∈ s'.buses, VoltageFine b) → out'.penalty = out.penalty.sc k ∧ out'.reward = out.reward.sc k) := by
  unfold Sim.transition at h ⊢
  simp only [bind_ok] at h
  obtain ⟨s1, h1, st, hst, ⟨r, e, pen⟩, h3, h4⟩ := h
  cases h4
  rw [solveStep_sc hk hq hf, h1]
  simp only [bind, Except.bind, Except.map]
  rw [hpi, gatherState_sc hk, hst]
  simp only [Except.map]
  unfold Sim.computeReward at h3 ⊢
  simp only [bind_ok] at h3
  obtain ⟨bp, hbp, h3⟩ := h3
  cases h3
  have e1 : mapE Sim.busPenalty (s1.sc k).buses = .ok bp := by
    have := mapE_units (f := Sim.busPenalty) (f' := Sim.busPenalty) (g := Bus.sc k) (h := id) s1.buses (fun b _ => by
      unfold Sim.busPenalty
      rw [show (b.sc k).vMin = b.vMin from rfl]
      cases b.vMin <;> rfl)
    rw [hbp] at this
    rw [show (s1.sc k).buses = s1.buses.map (Bus.sc k) from rfl, this]
    simp [Except.map]
  simp only [e1, bind, Except.bind, pure, Except.pure]
  have el : (List.foldl Sim.eLossStep 0 (s1.devices.map (Device.sc k))) * s1.deltaT = X.sc k (List.foldl Sim.eLossStep 0 s1.devices * s1.deltaT) := by
    have := eLossStep_sc hk s1.devices 0
    rw [X.sc_zero] at this
    rw [this, X.sc_mul hk]
  refine ⟨_, rfl, rfl, el, fun hv => ?_⟩
  have hz : bp.foldl (· + ·) (0 : X K) = 0 := by
    have hall : ∀ x ∈ bp, x = (0 : X K) := by
      intro x hx
      obtain ⟨b, hb, e⟩ := mapE_mem hbp hx
      have := busPenalty_fine (hv b hb)
      rw [this] at e
      exact (Except.ok.inj e).symm
    clear hbp e1
    induction bp with
    | nil => rfl
    | cons x l ih =>
      rw [List.foldl_cons, hall x (.head _), show (0 + 0 : X K) = 0 by simp [X.zero_def]]
      exact ih fun y hy => hall y (.tail _ hy)
  have ep : List.foldl (fun a b => a + Sim.branchPenalty b) (bp.foldl (· + ·) 0) (s1.branches.map (Branch.sc k)) * (s1.deltaT * s1.lamb) =
      X.sc k (List.foldl (fun a b => a + Sim.branchPenalty b) (bp.foldl (· + ·) 0) s1.branches * (s1.deltaT * s1.lamb)) := by
    have := X.sc_fold (k := k) Sim.branchPenalty s1.branches 0
    rw [X.sc_zero] at this
    rw [hz, List.foldl_map, ← X.sc_mul hk, ← this]
    simp only [branchPenalty_sc hk]
  refine ⟨ep, ?_⟩
  show -(_ * s1.deltaT + _) = X.sc k (-_)
  rw [X.sc_neg, X.sc_add, ← el, ← ep]
  rfl

/-! ### Reset -/

theorem resetArgs_sc (k : K) (pDev qDev pMax : List (X K)) : ∀ (l : List (Device K)) (i g : ℕ) (a : Sim.Args K),
    Sim.resetArgs pDev qDev pMax (l.map (Device.sc k)) i g a = Sim.resetArgs pDev qDev pMax l i g a
  | [], _, _, _ => rfl
  | d :: l, i, g, a => by
    rw [List.map_cons, Sim.resetArgs, Sim.resetArgs]
    rw [show (d.sc k).isLoad = d.isLoad from rfl, show (d.sc k).isNonSlackGen = d.isNonSlackGen from rfl, show (d.sc k).isStorage = d.isStorage from rfl,
      show (d.sc k).isSlack = d.isSlack from rfl, show (d.sc k).id = d.id from rfl, show (d.sc k).isGen = d.isGen from rfl]
    simp only [resetArgs_sc k pDev qDev pMax l]

theorem assignSoc_sc (hk : 0 < k) (m : X K) (soc : List (X K)) : ∀ (l : List (Device K)) (i : ℕ),
    Sim.assignSoc (m.sc k⁻¹) soc (l.map (Device.sc k)) i = (Sim.assignSoc m soc l i).map (List.map (Device.sc k))
  | [], _ => rfl
  | d :: l, i => by
    have idm : ∀ {α : Type} (x : Except PyErr α), x = x.map id := fun x => by cases x <;> rfl
    rw [List.map_cons, Sim.assignSoc, Sim.assignSoc, show (d.sc k).isStorage = d.isStorage from rfl]
    split
    · refine bind_units id (idm _) fun x => bind_units (List.map (Device.sc k)) (assignSoc_sc hk m soc l (i + 1)) fun ds => ?_
      show Except.ok _ = Except.ok _
      rw [id, X.div_base hk]
      rfl
    · exact bind_units (List.map (Device.sc k)) (assignSoc_sc hk m soc l i) fun ds => rfl

theorem resetSoc_sc (pSet : Dict ℤ (X K)) (d : Device K) : Sim.resetSoc pSet (d.sc k) = (Sim.resetSoc pSet d).map (Device.sc k) := by
  have idm : ∀ {α : Type} (x : Except PyErr α), x = x.map id := fun x => by cases x <;> rfl
  unfold Sim.resetSoc
  rw [show (d.sc k).isStorage = d.isStorage from rfl, show (d.sc k).id = d.id from rfl]
  split
  · refine bind_units id (idm _) fun p => ?_
    show Except.ok _ = Except.ok _
    unfold Device.sc
    simp only [id]
    congr 1
    simp only [Option.map_some]
    split <;> rfl
  · rfl

theorem counts_sc (s : Sim K) : (s.sc k).nDevice = s.nDevice ∧ (s.sc k).nDes = s.nDes ∧ (s.sc k).nNonSlackGen = s.nNonSlackGen := by
  refine ⟨List.length_map _, ?_, ?_⟩
  · show ((s.devices.map (Device.sc k)).filter Device.isStorage).length = _
    rw [List.filter_map, List.length_map]; rfl
  · show ((s.devices.map (Device.sc k)).filter Device.isNonSlackGen).length = _
    rw [List.filter_map, List.length_map]; rfl

/-- **C133.** `reset` with the same vector (MW, MVAr and MWh) leads to the same state. -/
theorem C133_reset_partial (hk : 0 < k) {c c' : Ctx K} (hq : QPUnits k c.qp c'.qp) (hf : PFUnits k c.pf c'.pf) (hpi : c'.pi = c.pi)
    {s s' : Sim K} {v : List (X K)} {conv : Bool} (h : s.reset c v = .ok (s', conv)) : (s.sc k).reset c' v = .ok (s'.sc k, conv) := by
  obtain ⟨n1, n2, n3⟩ := counts_sc (k := k) s
  have m1 : Sim.nDevice { s.sc k with state := none } = Sim.nDevice { s with state := none } := n1
  have m2 : Sim.nDes { s.sc k with state := none } = Sim.nDes { s with state := none } := n2
  have m3 : Sim.nNonSlackGen { s.sc k with state := none } = Sim.nNonSlackGen { s with state := none } := n3
  unfold Sim.reset at h ⊢
  dsimp only at h ⊢
  rw [m1, m2, m3]
  simp only [bind_ok] at h
  obtain ⟨a, ha, ds, hds, ⟨s1, o⟩, ht, ds', hds', st, hst, he⟩ := h
  cases he
  have e1 : Sim.resetArgs _ _ _ (s.sc k).devices 0 0 _ = _ := (resetArgs_sc k _ _ _ s.devices 0 0 _).trans ha
  rw [e1]
  have e2 : mapE (Sim.resetSoc a.pSet) (s.sc k).devices = .ok (ds.map (Device.sc k)) := by
    show mapE _ (s.devices.map (Device.sc k)) = _
    rw [mapE_units (f := Sim.resetSoc a.pSet) (h := Device.sc k) _ fun d _ => resetSoc_sc a.pSet d, hds]; rfl
  simp only [bind, Except.bind, e2]
  obtain ⟨o', h1, h2, -⟩ := C133_transition_partial hk hq hf hpi ht
  have h1' : Sim.transition c' { s.sc k with state := none, devices := ds.map (Device.sc k) } a = .ok (s1.sc k, o') := h1
  simp only [h1']
  have e3 : Sim.assignSoc (s1.sc k).baseMVA (Sim.slice v (2 * Sim.nDevice { s with state := none }) (2 * Sim.nDevice { s with state := none } + Sim.nDes { s with state := none })) (s1.sc k).devices 0 =
      .ok (ds'.map (Device.sc k)) := by
    show Sim.assignSoc (s1.baseMVA.sc k⁻¹) _ (s1.devices.map (Device.sc k)) 0 = _
    rw [assignSoc_sc hk, hds']; rfl
  simp only [e3]
  have e4 : Sim.gatherState c'.pi { s1.sc k with devices := ds'.map (Device.sc k) } = .ok (stateSc k st) := by
    have := gatherState_sc hk c.pi { s1 with devices := ds' }
    rw [hst] at this
    rw [hpi]
    exact this
  simp only [e4, h2]
  rfl

/-! ### Runs -/

namespace Spec

/-- Successive time steps; the simulators reached. -/
def trajectory {K : Type} [Field K] [LinearOrder K] (c : Ctx K) : Sim K → List (Sim.Args K) → Except PyErr (List (Sim K))
  | _, [] => .ok []
  | s, a :: as => do
    let (s', _) ← s.transition c a
    let l ← trajectory c s' as
    pure (s' :: l)

end Spec

/-- **C133.** Runs of any length. -/
theorem C133_run_partial (hk : 0 < k) {c c' : Ctx K} (hq : QPUnits k c.qp c'.qp) (hf : PFUnits k c.pf c'.pf) (hpi : c'.pi = c.pi)
    (as : List (Sim.Args K)) {s : Sim K} {l : List (Sim K)} (h : trajectory c s as = .ok l) :
    trajectory c' (s.sc k) as = .ok (l.map (Sim.sc k)) := by
  induction as generalizing s l with
  | nil => cases h; rfl
  | cons a as ih =>
    unfold trajectory at h ⊢
    simp only [bind_ok] at h
    obtain ⟨⟨s', o⟩, h1, l', h2, h3⟩ := h
    cases h3
    obtain ⟨o', e, -⟩ := C133_transition_partial hk hq hf hpi h1
    simp only [bind, Except.bind, e, ih h2]
    rfl

theorem get?_map_val {α β γ : Type} [DecidableEq α] (d : Dict α β) (f : α → β → γ) (i : α) :
    Dict.get? (d.map fun e => (e.1, f e.1 e.2)) i = (d.get? i).map (f i) := by
  induction d with
  | nil => rfl
  | cons e d ih =>
    unfold Dict.get? at ih ⊢
    rw [List.map_cons, List.find?_cons, List.find?_cons]
    by_cases h : e.1 = i
    · subst h; simp
    · simp only [h, decide_false]; exact ih

/-- **C133.** What is read in MW, MVAr, MVA, MWh, kV, kA, degrees or radians is the same, whatever the base power; what is read in per-unit
is the same voltage, and the same power, energy or current in the other unit. -/
theorem C133_readings (st : SimState K) (key : Key) (u : QUnit) (i : Ident) :
    reading (stateSc k st) key u i = if u = .pu ∧ key ≠ .busVMagn then (reading st key u i).map (X.sc k) else reading st key u i := by
  unfold reading stateSc
  rw [get?_map_val st (fun key d => d.map fun d => (d.1, if perUnit key d.1 then d.2.map fun x => (x.1, x.2.sc k) else d.2))]
  cases Dict.get? st key with
  | none => simp
  | some d =>
    simp only [Option.map_some, Option.bind_some]
    rw [get?_map_val d (fun u d => if perUnit key u then d.map fun x => (x.1, x.2.sc k) else d)]
    cases Dict.get? d u with
    | none => simp
    | some d =>
      simp only [Option.map_some, Option.bind_some, perUnit]
      by_cases h : u = .pu ∧ key ≠ .busVMagn
      · simp only [h, ne_eq, not_false_eq_true, and_self, decide_true, if_true]
        exact get?_map_val d (fun _ x => x.sc k) i
      · simp only [h, decide_false, if_false]; rfl

/-- **C133.** The action space is the same. -/
theorem C133_action_space (hk : 0 < k) (s : Sim K) : (s.sc k).actionSpace = s.actionSpace := by
  have hf : ∀ f : Device K → Bool, (∀ d, f (d.sc k) = f d) → (s.sc k).devices.filter f = (s.devices.filter f).map (Device.sc k) := by
    intro f h
    show (s.devices.map (Device.sc k)).filter f = _
    rw [List.filter_map]
    congr 1
    exact List.filter_congr fun d _ => h d
  unfold Sim.actionSpace
  rw [hf _ (fun _ => rfl), hf _ (fun _ => rfl)]
  simp [Sim.sc, Device.sc, X.mul_base hk, Function.comp_def]

/-! ### Construction -/

section
variable [FloorRing K]

theorem guardE_congr {p q : Prop} [Decidable p] [Decidable q] (e : PyErr) (h : p ↔ q) : guardE p e = guardE q e := by
  unfold guardE; split <;> split <;> simp_all

theorem guard_units {p q : Prop} [Decidable p] [Decidable q] (e : PyErr) (h : p ↔ q) : guardE p e = (guardE q e).map id := by
  rw [guardE_congr e h]; cases guardE q e <;> rfl

theorem readCell_units {α α' : Type} (cell cell' : Cell K) (hc : cell' = cell) (dflt : Except PyErr α) (dflt' : Except PyErr α') (bad : X K → Prop) [DecidablePred bad] (e : PyErr)
    (conv : X K → α) (conv' : X K → α') (g : α → α') (hd : dflt' = dflt.map g) (h : ∀ x, conv' x = g (conv x)) :
    readCell cell' dflt' bad e conv' = (readCell cell dflt bad e conv).map g := by
  subst hc
  unfold readCell
  split
  · exact hd
  · rename_i x
    cases hg : guardE (¬ bad x) e with
    | error => rfl
    | ok => simp only [bind, Except.bind, pure, Except.pure, Except.map, h]

theorem toPu_units (hk : 0 < k) (c : Cell K) (m d : X K) : toPu c (m.sc k⁻¹) (d.sc k) = (toPu c m d).sc k := by
  cases c
  · rfl
  · exact X.div_base hk _ _

theorem mkLoad_sc (hk : 0 < k) (row : DevRow K) (ids : List ℤ) (m : X K) (hr : row .pmax = none ∨ row .pmax = some (.fin 0)) :
    mkLoad row ids (m.sc k⁻¹) = (mkLoad row ids m).map (Device.sc k) := by
  have idm : ∀ {α : Type} (x : Except PyErr α), x = x.map id := fun x => by cases x <;> rfl
  unfold mkLoad
  refine bind_units id (idm _) fun ⟨i, b, sl⟩ => bind_units id (idm _) fun _ => bind_units id (idm _) fun qp => bind_units (X.sc k) ?_ fun pMax => ?_
  · rcases hr with hr | hr <;> rw [hr]
    · show Except.ok 0 = Except.ok (X.sc k 0)
      rw [X.sc_zero]
    · unfold readCell
      dsimp only
      cases guardE (¬ (X.fin 0 < (X.fin 0 : X K))) PyErr.loadSpecError with
      | error => rfl
      | ok => show Except.ok (X.fin 0) = Except.ok (X.fin (0 * k)); rw [zero_mul]
  · dsimp only [id]
    have e := toPu_units hk (row .pmin) m .ninf
    rw [X.sc_ninf] at e
    rw [e]
    refine bind_units id (guard_units _ (not_congr (X.sc_lt hk))) fun _ => ?_
    show Except.ok _ = Except.ok (Device.sc k _)
    simp [Device.sc, X.sc_mul hk]

theorem mkGen_sc (hk : 0 < k) (kind : DevKind) (row : DevRow K) (ids : List ℤ) (m : X K) :
    mkGen kind row ids (m.sc k⁻¹) = (mkGen kind row ids m).map (Device.sc k) := by
  have idm : ∀ {α : Type} (x : Except PyErr α), x = x.map id := fun x => by cases x <;> rfl
  unfold mkGen
  refine bind_units id (idm _) fun ⟨i, b, sl⟩ => ?_
  refine bind_units (X.sc k) (readCell_units _ _ rfl _ _ _ _ _ _ _ rfl fun x => X.div_base hk _ _) fun pMax => ?_
  refine bind_units (X.sc k) (readCell_units _ _ rfl _ _ _ _ _ _ _ ?_ fun x => X.div_base hk _ _) fun pMin => ?_
  · show Except.ok _ = Except.ok (X.sc k _)
    split <;> simp
  have e1 := toPu_units hk (row .qmax) m .pinf
  have e2 := toPu_units hk (row .qmin) m .ninf
  have e3 := toPu_units hk (row .pPlus) m pMax
  have e4 := toPu_units hk (row .qPlus) m (toPu (row .qmax) m .pinf)
  have e5 := toPu_units hk (row .qMinus) m (toPu (row .qmin) m .ninf)
  rw [X.sc_pinf] at e1
  rw [X.sc_ninf] at e2
  dsimp only
  rw [e1, e2, e3, e4, e5]
  refine bind_units id (guard_units _ (not_congr (X.sc_lt hk))) fun _ => ?_
  refine bind_units id (guard_units _ (not_congr (X.sc_lt hk))) fun _ => ?_
  refine bind_units id (guard_units _ (not_congr (X.sc_lt hk))) fun _ => ?_
  refine bind_units id (guard_units _ (not_congr (X.sc_lt hk))) fun _ => ?_
  refine bind_units id (guard_units _ (not_congr (X.sc_lt hk))) fun _ => ?_
  refine bind_units id (guard_units _ (not_congr (X.sc_lt hk))) fun _ => ?_
  refine bind_units id (guard_units _ (not_congr (X.sc_lt hk))) fun _ => ?_
  show Except.ok _ = Except.ok (Device.sc k _)
  simp only [X.sc_feq hk, ← X.sc_sub, X.sc_div_sc hk, X.mul_sc hk, X.sc_clip hk]
  rfl

theorem mkStorage_sc (hk : 0 < k) (row : DevRow K) (ids : List ℤ) (m : X K) :
    mkStorage row ids (m.sc k⁻¹) = (mkStorage row ids m).map (Device.sc k) := by
  have idm : ∀ {α : Type} (x : Except PyErr α), x = x.map id := fun x => by cases x <;> rfl
  unfold mkStorage
  refine bind_units id (idm _) fun ⟨i, b, sl⟩ => ?_
  refine bind_units (X.sc k) (readCell_units _ _ rfl _ _ _ _ _ _ _ rfl fun x => X.div_base hk _ _) fun pMax => ?_
  refine bind_units (X.sc k) (readCell_units _ _ rfl _ _ _ _ _ _ _ rfl fun x => X.div_base hk _ _) fun pMin => ?_
  have e1 := toPu_units hk (row .qmax) m .pinf
  have e2 := toPu_units hk (row .qmin) m .ninf
  have e3 := toPu_units hk (row .pPlus) m pMax
  have e4 := toPu_units hk (row .qPlus) m (toPu (row .qmax) m .pinf)
  have e5 := toPu_units hk (row .qMinus) m (toPu (row .qmin) m .ninf)
  have e6 := toPu_units hk (row .pMinus) m pMin
  rw [X.sc_pinf] at e1
  rw [X.sc_ninf] at e2
  dsimp only
  rw [e1, e2, e3, e4, e5, e6]
  refine bind_units id (guard_units _ (not_congr (X.sc_lt hk))) fun _ => ?_
  refine bind_units id (guard_units _ (not_congr (X.sc_lt hk))) fun _ => ?_
  refine bind_units id (guard_units _ (not_congr (X.sc_lt hk))) fun _ => ?_
  refine bind_units id (guard_units _ (not_congr (X.sc_lt hk))) fun _ => ?_
  refine bind_units id (guard_units _ (not_congr (X.sc_lt hk))) fun _ => ?_
  refine bind_units id (guard_units _ (not_congr (X.sc_lt hk))) fun _ => ?_
  refine bind_units id (guard_units _ (not_congr (X.sc_lt hk))) fun _ => ?_
  refine bind_units id (guard_units _ (not_congr (X.sc_lt hk))) fun _ => ?_
  refine bind_units id (guard_units _ (not_congr (X.sc_lt hk))) fun _ => ?_
  refine bind_units id (guard_units _ (not_congr (X.sc_lt hk))) fun _ => ?_
  refine bind_units (X.sc k) (readCell_units _ _ rfl _ _ _ _ _ _ _ ?_ fun x => X.div_base hk _ _) fun socMin => ?_
  · show Except.ok _ = Except.ok (X.sc k _)
    simp
  refine bind_units (X.sc k) (readCell_units _ _ rfl _ _ _ _ _ _ _ rfl fun x => X.div_base hk _ _) fun socMax => ?_
  refine bind_units id (guard_units _ (not_congr (X.sc_lt hk))) fun _ => ?_
  refine bind_units id (idm _) fun eff => ?_
  show Except.ok _ = Except.ok (Device.sc k _)
  simp only [X.sc_feq hk, ← X.sc_sub, X.sc_div_sc hk, X.mul_sc hk]
  rfl

theorem mkDevice_sc (hk : 0 < k) (row : DevRow K) (ids : List ℤ) (m : X K)
    (hr : cellEq (row .devType) (some (.fin (-1))) → row .pmax = none ∨ row .pmax = some (.fin 0)) {d : Device K} (h : mkDevice row ids m = .ok d) :
    mkDevice row ids (m.sc k⁻¹) = .ok (d.sc k) := by
  unfold mkDevice at h ⊢
  simp only [bind_ok] at h
  obtain ⟨ty, hty, h⟩ := h
  simp only [hty, bind, Except.bind]
  split at h
  · rename_i ht
    rw [if_pos ht]
    have hh := h
    unfold mkLoad at hh
    simp only [bind_ok, guardE_ok] at hh
    obtain ⟨_, _, _, h2, _⟩ := hh
    rw [mkLoad_sc hk row ids m (hr h2), h]; rfl
  split at h
  · rename_i h1 h2
    rw [if_neg h1, if_pos h2, mkGen_sc hk, h]; rfl
  split at h
  · rename_i h1 h2 h3
    rw [if_neg h1, if_neg h2, if_pos h3, mkGen_sc hk, h]; rfl
  split at h
  · rename_i h1 h2 h3 h4
    rw [if_neg h1, if_neg h2, if_neg h3, if_pos h4, mkStorage_sc hk, h]; rfl
  · cases h

theorem readCell_sc {j : K} (hj : 0 < j) (cell : Cell K) (d : X K) (hd : d.sc j = d) (e : PyErr) :
    readCell (cell.map (X.sc j)) (pure d) (fun x => x < 0) e id = (readCell cell (pure d) (fun x => x < 0) e id).map (X.sc j) := by
  unfold readCell
  cases cell with
  | none => show Except.ok d = Except.ok (X.sc j d); rw [hd]
  | some x =>
    refine bind_units id (guard_units _ (not_congr (X.sc_lt_zero hj))) fun _ => rfl

theorem mkLine_sc (hk : 0 < k) (row : BranchRow K) (ids : List ℤ) (m : X K) :
    mkLine (branchInBase k row) (m.sc k⁻¹) ids = (mkLine row m ids).map (Line.sc k) := by
  have idm : ∀ {α : Type} (x : Except PyErr α), x = x.map id := fun x => by cases x <;> rfl
  unfold mkLine
  refine bind_units id (idm _) fun f => bind_units id (idm _) fun t => ?_
  refine bind_units (X.sc k⁻¹) (readCell_sc (inv_pos.2 hk) _ _ X.sc_zero _) fun r => ?_
  refine bind_units (X.sc k⁻¹) (readCell_sc (inv_pos.2 hk) _ _ X.sc_zero _) fun x => ?_
  refine bind_units id (guard_units _ (by rw [X.sc_feq_zero (inv_pos.2 hk), X.sc_feq_zero (inv_pos.2 hk)])) fun _ => ?_
  refine bind_units (X.sc k) (readCell_sc hk _ _ X.sc_zero _) fun b => ?_
  refine bind_units (X.sc k) (readCell_units _ _ rfl _ _ _ _ _ _ _ rfl fun x => X.div_base hk _ _) fun rate => ?_
  exact bind_units id (idm _) fun tap => bind_units id (idm _) fun shift => rfl

theorem dictSet_units {α β γ : Type} [DecidableEq α] (g : β → γ) (d : Dict α β) (i : α) (v : β) :
    Dict.set (d.map fun e => (e.1, g e.2)) i (g v) = (Dict.set d i v).map fun e => (e.1, g e.2) := by
  induction d with
  | nil => rfl
  | cons e d ih =>
    obtain ⟨a, b⟩ := e
    simp only [List.map_cons, Dict.set]
    split
    · rfl
    · rw [ih]; rfl

theorem dictOf_units {α β γ : Type} [DecidableEq α] (g : β → γ) (key : β → α) (key' : γ → α) (hkey : ∀ x, key' (g x) = key x) (l : List β) :
    dictOf key' (l.map g) = (dictOf key l).map fun e => (e.1, g e.2) := by
  unfold dictOf
  have : ∀ d : Dict α β, (l.map g).foldl (fun d x => Dict.set d (key' x) x) (d.map fun e => (e.1, g e.2)) = (l.foldl (fun d x => Dict.set d (key x) x) d).map fun e => (e.1, g e.2) := by
    induction l with
    | nil => intro d; rfl
    | cons x l ih =>
      intro d
      rw [List.map_cons, List.foldl_cons, List.foldl_cons, hkey, dictSet_units, ih]
  exact this []

theorem busBounds_sc (l : List (Device K)) (b : Bus K) : busBounds (l.map (Device.sc k)) (b.sc k) = (busBounds l b).sc k := by
  have h1 := X.sc_fold (k := k) Device.pMin (l.filter fun d => d.busId = b.id) 0
  have h2 := X.sc_fold (k := k) Device.pMax (l.filter fun d => d.busId = b.id) 0
  have h3 := X.sc_fold (k := k) Device.qMin (l.filter fun d => d.busId = b.id) 0
  have h4 := X.sc_fold (k := k) Device.qMax (l.filter fun d => d.busId = b.id) 0
  rw [X.sc_zero] at h1 h2 h3 h4
  unfold busBounds
  rw [show (b.sc k).id = b.id from rfl, filter_sc]
  dsimp only
  rw [List.foldl_map, List.foldl_map, List.foldl_map, List.foldl_map]
  simp only [Bus.sc, ← h1, ← h2, ← h3, ← h4]
  rfl

theorem mkBus_fresh {row : BusRow K} {b : Bus K} (h : mkBus row = .ok b) : b.sc k = b := by
  unfold mkBus at h
  simp only [bind_ok] at h
  obtain ⟨_, _, _, _, _, _, _, _, _, _, _, _, _, _, h⟩ := h
  cases h
  rfl

/-- **C133.** The file for the other base power is accepted too, and describes the same simulator. -/
theorem C133_construct_partial (hk : 0 < k) {n : Network K} (hl : LoadsPlain n) {dt lam : X K} {s : Sim K} (h : mkSim n dt lam = .ok s) :
    mkSim (inBase k n) dt lam = .ok (s.sc k) := by
  unfold mkSim at h ⊢
  simp only [bind_ok] at h
  obtain ⟨_, hc, ⟨bs, brs, ds⟩, hlc, _, hy, h⟩ := h
  cases h
  have c1 : checkNetwork (inBase k n) = .ok () := by
    rw [← hc]
    unfold checkNetwork
    have e1 : setBranches (inBase k n).branch = setBranches n.branch := by
      show setBranches (n.branch.map (branchInBase k)) = _
      unfold setBranches
      rw [List.foldl_map]
      rfl
    have e2 : (inBase k n).branch.length = n.branch.length := List.length_map _
    rw [e1, e2, show (inBase k n).baseMVA = n.baseMVA.sc k⁻¹ from rfl, guardE_congr (q := ¬ n.baseMVA ≤ 0) _ (not_congr (X.sc_le_zero (inv_pos.2 hk)))]
    rfl
  unfold loadCase at hlc
  simp only [bind_ok] at hlc
  obtain ⟨bl, hbl, brl, hbrl, dl, hdl, hlc⟩ := hlc
  cases hlc
  set bs := (sortDict (dictOf Bus.id bl)).map (·.2) with hbs
  have c2 : loadCase (inBase k n) = .ok (bs, ((dictOf (fun l : Line K => (l.fBus, l.tBus)) brl).map (·.2)).map (fun l => { line := l.sc k }),
      ((sortDict (dictOf Device.id dl)).map (·.2)).map (Device.sc k)) := by
    unfold loadCase
    have b1 : mapE mkBus (inBase k n).bus = .ok bl := hbl
    have b2 : mapE (fun r => mkLine r (inBase k n).baseMVA (bs.map Bus.id)) (inBase k n).branch = .ok (brl.map (Line.sc k)) := by
      show mapE _ (n.branch.map (branchInBase k)) = _
      rw [mapE_units (f := fun r => mkLine r n.baseMVA (bs.map Bus.id)) (h := Line.sc k) _ fun r _ => mkLine_sc hk r _ _, hbrl]; rfl
    have b3 : mapE (fun r => mkDevice r (bs.map Bus.id) (inBase k n).baseMVA) (inBase k n).device = .ok (dl.map (Device.sc k)) := by
      refine mapE_ok.2 ?_
      rw [List.forall₂_map_right_iff]
      have := mapE_ok.1 hdl
      have mem : ∀ {l : List (DevRow K)} {l' : List (Device K)}, List.Forall₂ (fun r d => mkDevice r (bs.map Bus.id) n.baseMVA = .ok d) l l' → (∀ r ∈ l, r ∈ n.device) →
          List.Forall₂ (fun r d => mkDevice r (bs.map Bus.id) (inBase k n).baseMVA = .ok (d.sc k)) l l' := by
        intro l l' hf hm
        induction hf with
        | nil => exact .nil
        | @cons r d l l' h1 _ ih => exact .cons (mkDevice_sc hk r _ _ (hl r (hm r (.head _))) h1) (ih fun x hx => hm x (.tail _ hx))
      exact mem this fun r hr => hr
    simp only [b1, bind, Except.bind, ← hbs]
    simp only [b2, b3]
    show Except.ok (bs, _, _) = _
    congr 3
    · rw [dictOf_units (Line.sc k) (fun l : Line K => (l.fBus, l.tBus)) (fun l : Line K => (l.fBus, l.tBus)) (fun _ => rfl)]
      simp only [List.map_map]; rfl
    · rw [dictOf_units (Device.sc k) Device.id Device.id (fun _ => rfl)]
      unfold sortDict
      rw [← List.map_insertionSort (r := fun a b : ℤ × Device K => a.1 ≤ b.1) (s := fun a b : ℤ × Device K => a.1 ≤ b.1) (fun e : ℤ × Device K => (e.1, e.2.sc k)) _ (fun _ _ _ _ => Iff.rfl)]
      simp only [List.map_map]; rfl
  rw [c1, c2]
  simp only [bind, Except.bind]
  have c3 : ybusCheck (bs.map Bus.id) ((((dictOf (fun l : Line K => (l.fBus, l.tBus)) brl).map (·.2)).map (fun l => ({ line := l.sc k } : Branch K))).map fun b => (b.line.fBus, b.line.tBus)) = .ok () := by
    rw [← hy]
    simp only [List.map_map]
    rfl
  rw [c3]
  show Except.ok _ = Except.ok (Sim.sc k _)
  have fresh : ∀ b ∈ bs, b.sc k = b := by
    intro b hb
    have hb' : b ∈ bl := by
      obtain ⟨e, he, rfl⟩ := List.mem_map.1 hb
      exact (dictOf_mem _ _ ((sortDict_perm _).mem_iff.1 he)).2
    obtain ⟨r, _, hr⟩ := mapE_mem hbl hb'
    exact mkBus_fresh hr
  have e5 : bs.map (busBounds (((sortDict (dictOf Device.id dl)).map (·.2)).map (Device.sc k))) = (bs.map (busBounds ((sortDict (dictOf Device.id dl)).map (·.2)))).map (Bus.sc k) := by
    rw [List.map_map (l := bs)]
    refine List.map_congr_left fun b hb => ?_
    have := busBounds_sc (k := k) ((sortDict (dictOf Device.id dl)).map (·.2)) b
    rw [fresh b hb] at this
    exact this
  rw [e5]
  unfold Sim.sc
  simp only [List.map_map]
  rfl

theorem inBase_inv (hk : 0 < k) (n : Network K) : inBase k⁻¹ (inBase k n) = n := by
  have e : ∀ r : BranchRow K, branchInBase k⁻¹ (branchInBase k r) = r := by
    intro r
    funext c
    cases c <;> simp only [branchInBase, inv_inv]
    · cases r .r <;> simp [X.sc_inv' hk]
    · cases r .x <;> simp [X.sc_inv' hk]
    · cases r .b <;> simp [X.sc_inv hk]
  unfold inBase
  cases n
  simp [X.sc_inv' hk, Function.comp_def, e]

/-- **C133.** The two files are accepted or rejected together. -/
theorem C133_accepted_partial (hk : 0 < k) {n : Network K} (hl : LoadsPlain n) (dt lam : X K) :
    (∃ s, mkSim n dt lam = .ok s) ↔ ∃ s, mkSim (inBase k n) dt lam = .ok s := by
  constructor
  · rintro ⟨s, h⟩
    exact ⟨_, C133_construct_partial hk hl h⟩
  · rintro ⟨s, h⟩
    have := C133_construct_partial (inv_pos.2 hk) (n := inBase k n) hl h
    rw [inBase_inv hk] at this
    exact ⟨_, this⟩

end

/-! ### The projections -/

theorem feasible_sc (hk : 0 < k) (rows : List (HalfPlane K)) (p q : K) :
    Feasible (rows.map (HalfPlane.sc k)) (.fin (p * k)) (.fin (q * k)) ↔ Feasible rows (.fin p) (.fin q) := by
  unfold Feasible
  simp only [List.forall_mem_map]
  refine forall_congr' fun r => forall_congr' fun _ => ?_
  show r.gP * X.sc k (.fin p) + r.gQ * X.sc k (.fin q) ≤ X.sc k r.h ↔ _
  rw [X.mul_sc hk, X.mul_sc hk, ← X.sc_add, X.sc_le hk]

theorem closest_sc (hk : 0 < k) (rows : List (HalfPlane K)) (p0 q0 p q : K) :
    IsClosest (rows.map (HalfPlane.sc k)) (p0 * k) (q0 * k) (p * k) (q * k) ↔ IsClosest rows p0 q0 p q := by
  unfold IsClosest
  rw [feasible_sc hk]
  have d : ∀ a b : K, sqDist (a * k) (b * k) (p0 * k) (q0 * k) = sqDist a b p0 q0 * k ^ 2 := fun a b => by unfold sqDist; ring
  refine and_congr_right fun _ => ⟨fun h p' q' hf => ?_, fun h p' q' hf => ?_⟩
  · have := h (p' * k) (q' * k) ((feasible_sc hk _ _ _).2 hf)
    rw [d, d] at this
    exact le_of_mul_le_mul_right this (pow_pos hk 2)
  · have e : ∀ a : K, a = a / k * k := fun a => (div_mul_cancel₀ a hk.ne').symm
    rw [e p', e q'] at hf ⊢
    rw [d, d]
    exact mul_le_mul_of_nonneg_right (h _ _ ((feasible_sc hk _ _ _).1 hf)) (pow_pos hk 2).le

/-- **C133.** The hypothesis on the solver of the projections holds for exact projections. -/
theorem C133_projection {k : ℝ} (hk : 0 < k) : QPUnits k exactQP exactQP := by
  intro rows x
  obtain ⟨x, y⟩ := x
  have hc : FinCoeffs (rows.map (HalfPlane.sc k)) ↔ FinCoeffs rows := by
    unfold FinCoeffs
    simp only [List.forall_mem_map]
    rfl
  have hnf : ∀ (rows : List (HalfPlane ℝ)) (x y : X ℝ), ¬ (x.IsFin ∧ y.IsFin) → exactQP rows (x, y) = none := by
    intro rows x y h
    cases x <;> cases y <;> first | rfl | exact absurd ⟨trivial, trivial⟩ h
  by_cases hx : x.IsFin ∧ y.IsFin
  · obtain ⟨p0, rfl⟩ := X.isFin_iff.1 hx.1
    obtain ⟨q0, rfl⟩ := X.isFin_iff.1 hx.2
    show exactQP (rows.map (HalfPlane.sc k)) (.fin (p0 * k), .fin (q0 * k)) = _
    have key : ∀ (rows : List (HalfPlane ℝ)) (p0 q0 p q : ℝ), FinCoeffs rows → IsClosest rows p0 q0 p q → exactQP rows (.fin p0, .fin q0) = some (.fin p, .fin q) := by
      intro rows p0 q0 p q hf h
      cases h1 : exactQP rows (.fin p0, .fin q0) with
      | none => exact absurd h.1 (C16_exact_solver_exists.complete rows p0 q0 hf h1 p q)
      | some z =>
        obtain ⟨p', q', rfl, h2⟩ := C16_exact_solver_exists.closest rows p0 q0 z hf h1
        obtain ⟨rfl, rfl⟩ := C16_unique hf h h2
        rfl
    by_cases he : FinCoeffs rows ∧ ∃ p q, IsClosest rows p0 q0 p q
    · obtain ⟨hf, p, q, h⟩ := he
      rw [key rows p0 q0 p q hf h, key _ _ _ _ _ (hc.2 hf) ((closest_sc hk _ _ _ _ _).2 h)]
      rfl
    · have h1 : exactQP rows (.fin p0, .fin q0) = none := dif_neg he
      have h2 : exactQP (rows.map (HalfPlane.sc k)) (.fin (p0 * k), .fin (q0 * k)) = none := by
        refine dif_neg fun ⟨hf, p, q, h⟩ => he ⟨hc.1 hf, p / k, q / k, ?_⟩
        refine (closest_sc hk _ _ _ _ _).1 ?_
        rwa [div_mul_cancel₀ _ hk.ne', div_mul_cancel₀ _ hk.ne']
      rw [h1, h2]; rfl
  · rw [hnf _ _ _ hx, hnf]
    · rfl
    · intro h
      refine hx ?_
      cases x <;> cases y <;> simp_all [X.sc, X.IsFin]

end Anm
