import Verif.Props.Energy
import Verif.Props.Total
import Verif.Props.DynamicsEx

/-! # Concrete networks over ℝ: counterexamples to C28, C33, C36 and examples for C25, C29, C31, C32 -/

set_option linter.unusedSimpArgs false

namespace Anm

open Spec Complex ComplexConjugate

noncomputable section

/-! ### Networks without injections (C73) -/

section
variable {m : ℕ} {ls : List LineC} {s s' : Sim ℝ} {o : LFOracle} {qp : QP ℝ} {pi : ℝ} {a : Sim.Args ℝ}
  {out : Sim.TransOut ℝ} {n : Network ℝ} {base : ℝ} {dt lam : X ℝ}

/-- The load flow raises no exception on a network with buses `0, ..., m` and finite lines. -/
theorem realPF_total (hm : Numbered s m) (hl : FiniteLines s ls) : PFTotal (realPF o) s := by
  intro ds
  obtain ⟨pq, h, _⟩ := realPF_numbered o (m := m) (ls := ls)
    (inp := Sim.pfIn { s with devices := ds, buses := s.buses.map (Sim.busInjections ds) }) (by
      rw [← hm.ids]
      simp [Sim.pfIn, Sim.busInjections, Function.comp_def]) hm.pos (by
      intro b hb
      obtain ⟨b1, hb1, rfl⟩ := List.mem_map.1 hb
      obtain ⟨b0, hb0, rfl⟩ := List.mem_map.1 hb1
      exact hm.slack b0 hb0) (by
      rw [mapO_forall₂]
      exact List.forall₂_map_left_iff.2 hl)
  exact ⟨_, h⟩

theorem run_init {Y : Matrix (Fin (m + 1)) (Fin (m + 1)) ℂ} {p q : Fin m → X ℝ} {c : ℝ}
    (h : NR.norm (NR.init Y p q).F ≤ .fin c) : NR.run o Y p q c = NR.init Y p q := by
  unfold NR.run NR.loop
  rw [if_neg]
  rintro ⟨h1, _⟩
  have h2 : X.NotNan (NR.norm (NR.init Y p q).F) := by
    rw [X.notNan_iff]
    intro e
    rw [e] at h
    exact h
  exact absurd h ((X.not_le_iff h2 (X.notNan_fin c)).2 h1)

/-- **C73.** If no bus but the slack bus injects power and lines have neither line charging nor
transformers, the load flow converges: all buses are at `1 + 0j`, and the slack bus injects nothing. -/
theorem C73_idle (hn : CleanFile n base) (hs : SimOf n dt lam s) (hm : Numbered s m)
    (hl : FiniteLines s ls) (hplain : ∀ l ∈ ls, l.b = 0 ∧ l.tapMagn = 1 ∧ l.shiftDeg = 0)
    (h : s.transition ⟨qp, realPF o, pi⟩ a = .ok (s', out))
    (hz : ∀ b ∈ s'.buses, b.isSlack = false → b.p = .fin 0 ∧ b.q = .fin 0) :
    out.converged = true ∧ ∀ b ∈ s'.buses, b.v = .ofC 1 ∧ b.p = .fin 0 ∧ b.q = .fin 0 := by
  obtain ⟨g1, g2, _⟩ := simOf_lines hn hs hm hl
  have hcur : ∀ k, NR.curr (ymat m ls) (fun _ => 1) k = 0 := by
    intro k
    rw [curr_eq_leaving g1 g2]
    unfold leaving
    have hat : ∀ i : ℤ, 0 ≤ i ∧ i < (m + 1 : ℕ) → atId (fun _ : Fin (m + 1) => (1 : ℂ)) i = 1 := by
      intro i hi
      unfold atId
      rw [dif_pos (by omega)]
    have : (ls.map fun l => (if l.fBus = ((k : ℕ) : ℤ) then l.iFrom (atId (fun _ : Fin (m + 1) => (1 : ℂ)) l.fBus)
        (atId (fun _ : Fin (m + 1) => (1 : ℂ)) l.tBus) else 0) +
        (if l.tBus = ((k : ℕ) : ℤ) then l.iTo (atId (fun _ : Fin (m + 1) => (1 : ℂ)) l.fBus)
        (atId (fun _ : Fin (m + 1) => (1 : ℂ)) l.tBus) else 0)) = ls.map fun _ => 0 := by
      refine List.map_congr_left fun l hl' => ?_
      obtain ⟨e1, e2, e3⟩ := hplain l hl'
      rw [hat _ (g2 l hl').1, hat _ (g2 l hl').2]
      have i1 : l.iFrom 1 1 = 0 := by
        simp [LineC.iFrom, LineC.shunt, LineC.tap, LineC.shift, e1, e2, e3]
      have i2 : l.iTo 1 1 = 0 := by
        simp [LineC.iTo, LineC.shunt, LineC.tap, LineC.shift, e1, e2, e3]
      rw [i1, i2]
      simp
    rw [this]
    simp
  have hflat : NR.volt (NR.flat : Guess m) = fun _ => 1 := by
    funext k
    refine Fin.cases rfl (fun j => ?_) k
    simp [NR.volt, NR.flat]
  obtain ⟨ds, po, I⟩ := transition_ok h
  have A := I.solve.apply
  obtain ⟨pq, hpf, hpq⟩ := realPF_numbered o (m := m) (ls := ls)
    (inp := Sim.pfIn { s with devices := ds, buses := s.buses.map (Sim.busInjections ds) }) (by
      rw [← hm.ids]
      simp [Sim.pfIn, Sim.busInjections, Function.comp_def]) hm.pos (by
      intro b hb
      obtain ⟨b1, hb1, rfl⟩ := List.mem_map.1 hb
      obtain ⟨b0, hb0, rfl⟩ := List.mem_map.1 hb1
      exact hm.slack b0 hb0) (by
      rw [mapO_forall₂]
      exact List.forall₂_map_left_iff.2 hl)
  have hpo := I.solve.pf
  simp only at hpo
  rw [hpf] at hpo
  injection hpo with hpo
  have hlen : s.buses.length = m + 1 := length_of_ids hm.ids
  have hb' : ∀ k (hk : k < m + 1), ∃ b, s.buses[k]? = some b ∧ b.id = k := by
    intro k hk
    refine ⟨s.buses[k]'(by omega), by simp [hlen, hk], ?_⟩
    exact (get_id hm.ids (k := k) (by simp [hlen, hk])).1
  have hpq0 : ∀ k, pq k = (.fin 0, .fin 0) := by
    intro k
    obtain ⟨b, hb, hid⟩ := hb' (k.1 + 1) (by omega)
    have e := hpq k (b.id, b.isSlack, (Sim.busInjections ds b).p, (Sim.busInjections ds b).q) (by
      simp [Sim.pfIn, hb, Sim.busInjections])
    have hsl : b.isSlack = false := by
      by_contra hc
      have := (hm.slack b (List.mem_of_getElem? hb)).1 (by simpa using hc)
      omega
    have hmem : ({ Sim.busInjections ds b with v := po.v (k.1 + 1), i := po.i (k.1 + 1) } : Bus ℝ) ∈ s'.buses := by
      rw [A.buses]
      refine List.mem_of_getElem? (i := k.1 + 1) ?_
      rw [List.getElem?_mapIdx, List.getElem?_map, hb]
      have : (Sim.busInjections ds b).isSlack = false := hsl
      simp [this]
    have := hz _ hmem hsl
    rw [e]
    exact Prod.ext this.1 this.2
  have hF : ∀ k, NR.f (ymat m ls) (fun k => (pq k).1) (fun k => (pq k).2) NR.flat k = .fin 0 := by
    intro k
    have hp : ∀ j : Fin m, NR.power (ymat m ls) (NR.flat : Guess m) j = 0 := by
      intro j
      unfold NR.power
      rw [hflat, hcur]
      simp
    cases k with
    | inl k => simp [NR.f, hp, hpq0]
    | inr k => simp [NR.f, hp, hpq0]
  have hnorm : NR.norm (NR.init (ymat m ls) (fun k => (pq k).1) (fun k => (pq k).2)).F ≤ .fin xtol := by
    rw [norm_le (by unfold xtol; norm_num)]
    intro k
    rw [show (NR.init (ymat m ls) (fun k => (pq k).1) (fun k => (pq k).2)).F k = .fin 0 from hF k]
    simp [X.abs, xtol]
    norm_num
  have hrun := run_init (o := o) hnorm
  have hpo' : po = outOf ls (fun _ : Fin (m + 1) => 1)
      (NR.stable xtol (NR.init (ymat m ls) (fun k => (pq k).1) (fun k => (pq k).2))) := by
    rw [← hpo, solveFinite, hrun]
    simp only [NR.init, hflat]
  constructor
  · rw [I.converged, hpo']
    simp only [outOf, NR.stable, decide_eq_true_eq]
    refine ⟨fun e => ?_, hnorm⟩
    rw [e] at hnorm
    exact hnorm
  · intro b hb
    have hb0 := hb
    rw [A.buses] at hb
    obtain ⟨k, hk⟩ := List.mem_iff_getElem?.1 hb
    rw [List.getElem?_mapIdx, List.getElem?_map] at hk
    cases hbk : s.buses[k]? with
    | none => simp [hbk] at hk
    | some b1 =>
      simp only [hbk, Option.map_some, Option.some.injEq] at hk
      have hkm : k < m + 1 := (get_id hm.ids hbk).2
      refine ⟨?_, ?_⟩
      · rw [← hk]
        show po.v k = _
        rw [hpo']
        simp only [outOf, dif_pos hkm]
      · cases hbs : b.isSlack with
        | false => exact hz b hb0 hbs
        | true =>
          rw [← hk] at hbs ⊢
          have hbs : (Sim.busInjections ds b1).isSlack = true := hbs
          simp only [hbs, if_true, hpo', outOf, hcur, Sim.nanToInf]
          simp

end

/-! ### Rows of concrete networks over ℝ -/

abbrev rnum (x : ℝ) : Cell ℝ := some (.fin x)

def rbus (i ty kv vmax : ℝ) (vmin : Cell ℝ) : BusRow ℝ
  | .busId => rnum i | .busType => rnum ty | .baseKV => rnum kv | .vmax => rnum vmax | .vmin => vmin

def rline (f t r x b tap shift : ℝ) : BranchRow ℝ
  | .fBus => rnum f | .tBus => rnum t | .r => rnum r | .x => rnum x | .b => rnum b | .rate => none
  | .tap => rnum tap | .shift => rnum shift

def rslack (i bus : ℝ) : DevRow ℝ
  | .devId => rnum i | .busId => rnum bus | .devType => rnum 0 | _ => none

def rload (i bus qp pmin : ℝ) : DevRow ℝ
  | .devId => rnum i | .busId => rnum bus | .devType => rnum (-1) | .qp => rnum qp | .pmin => rnum pmin
  | _ => none

theorem one_not_lt : ((1 : ℝ) < 0) = False := by norm_num
theorem one_not_le : ((1 : ℝ) ≤ 0) = False := by norm_num
theorem two_not_lt : ((2 : ℝ) < 0) = False := by norm_num
theorem ninety_ok : ((360 : ℝ) < 90) = False := by norm_num
theorem twoSeventy_ok : ((360 : ℝ) < 270) = False := by norm_num

/-- Evaluation of constructors over ℝ. -/
macro "eval_sim" "[" l:Lean.Parser.Tactic.simpLemma,* "]" : tactic =>
  `(tactic| simp [mkSim, loadCase, mapE, dictOf, sortDict, Dict.set, ybusCheck, one_not_lt, one_not_le,
    mkBus, mkLine, mkDevice, mkGen, mkLoad, deviceCommon, toPu, endpoint, inIds, X.fin_div_fin, cellInt,
    X.toInt, readCell, checkNetwork, rbus, rline, rslack, rload, cellEqB, cellEq, X.feq, guardE,
    Bind.bind, Except.bind, pure, Except.pure, X.zero_def, X.one_def, pySet, pySetAdd, setBranches,
    pairEqB, two_not_lt, ninety_ok, twoSeventy_ok, busBounds, $l,*])

/-- Two buses, one line, a slack device and a load of at most 2 MW; and `extra` devices. -/
structure TwoFacts (s : Sim ℝ) (slackFirst : Bool) (line : LineC)
    (devs : List (ℤ × ℤ × DevKind × Bool × X ℝ × X ℝ × X ℝ)) : Prop where
  base : s.baseMVA = .fin 1
  buses : s.buses.map (fun b => (b.id, b.isSlack, b.vMin.isSome)) = [(0, slackFirst, true), (1, !slackFirst, true)]
  branches : s.branches.map (fun b => b.line.finite?) = [some line]
  devices : s.devices.map (fun d => (d.id, d.busId, d.kind, d.isSlack, d.qpRatio, d.pMin, d.pMax)) = devs

theorem twoFacts_iff {s : Sim ℝ} {b : Bool} {line : LineC}
    {devs : List (ℤ × ℤ × DevKind × Bool × X ℝ × X ℝ × X ℝ)} : TwoFacts s b line devs ↔
      s.baseMVA = .fin 1 ∧
      s.buses.map (fun b => (b.id, b.isSlack, b.vMin.isSome)) = [(0, b, true), (1, !b, true)] ∧
      s.branches.map (fun b => b.line.finite?) = [some line] ∧
      s.devices.map (fun d => (d.id, d.busId, d.kind, d.isSlack, d.qpRatio, d.pMin, d.pMax)) = devs :=
  ⟨fun h => ⟨h.1, h.2, h.3, h.4⟩, fun h => ⟨h.1, h.2.1, h.2.2.1, h.2.2.2⟩⟩

/-- A slack device at bus `i`. -/
def slackAt (i : ℤ) : ℤ × ℤ × DevKind × Bool × X ℝ × X ℝ × X ℝ := (0, i, .classical, true, .nan, .ninf, .pinf)
/-- A load of at most 2 MW without reactive power. -/
def loadAt (k i : ℤ) : ℤ × ℤ × DevKind × Bool × X ℝ × X ℝ × X ℝ :=
  (k, i, .load, false, .fin 0, .fin (-2), .fin 0)

/-- Slack bus 0, load bus 1; the line has `1 / (jx) + jb/2 = 0` and a phase shift of 270 degrees, so that
the load flow is linear: the injection at bus 1 is `-V1`. -/
def goodNet : Network ℝ :=
  ⟨.fin 1, [rbus 0 0 132 1 (rnum 1), rbus 1 1 33 3 (rnum 0)], [rline 0 1 0 1 2 1 270],
    [rslack 0 0, rload 1 1 0 (-2)]⟩

/-- The line of `goodNet`. -/
def goodLine : LineC := ⟨0, 1, 0, 1, 2, 1, 270⟩

theorem goodNet_mk : ∃ s, mkSim goodNet (.fin 1) (.fin 1) = .ok s ∧
    TwoFacts s true goodLine [slackAt 0, loadAt 1 1] := by
  simp only [twoFacts_iff]
  eval_sim [goodNet, slackAt, loadAt, Line.finite?, goodLine]

/-- The same with the slack bus numbered 1. -/
def lateNet : Network ℝ :=
  ⟨.fin 1, [rbus 0 1 33 3 (rnum 0), rbus 1 0 132 1 (rnum 1)], [rline 1 0 0 1 2 1 90],
    [rslack 0 1, rload 1 0 0 (-2)]⟩

/-- The line of `lateNet`. -/
def lateLine : LineC := ⟨1, 0, 0, 1, 2, 1, 90⟩

theorem lateNet_mk : ∃ s, mkSim lateNet (.fin 1) (.fin 1) = .ok s ∧
    TwoFacts s false lateLine [slackAt 1, loadAt 1 0] := by
  simp only [twoFacts_iff]
  eval_sim [lateNet, slackAt, loadAt, Line.finite?, lateLine]

/-- A load on the slack bus, another one on bus 1, and a purely inductive line. -/
def sharedNet : Network ℝ :=
  ⟨.fin 1, [rbus 0 0 132 1 (rnum 1), rbus 1 1 33 3 (rnum 0)], [rline 0 1 0 1 0 1 0],
    [rslack 0 0, rload 1 1 0 (-2), rload 2 0 0 (-2)]⟩

/-- The line of `sharedNet`. -/
def sharedLine : LineC := ⟨0, 1, 0, 1, 0, 1, 0⟩

theorem sharedNet_mk : ∃ s, mkSim sharedNet (.fin 1) (.fin 1) = .ok s ∧
    TwoFacts s true sharedLine [slackAt 0, loadAt 1 1, loadAt 2 0] := by
  simp only [twoFacts_iff]
  eval_sim [sharedNet, slackAt, loadAt, Line.finite?, sharedLine]

theorem clean_of (base : ℝ) {n : Network ℝ} (h : n.baseMVA = .fin base)
    (h1 : ∀ r ∈ n.bus, ∃ i ty kv vmax vmin, r = rbus i ty kv vmax (rnum vmin))
    (h2 : ∀ r ∈ n.branch, ∃ f t r' x b tap shift, r = rline f t r' x b tap shift)
    (h3 : ∀ r ∈ n.device, (∃ i bus, r = rslack i bus) ∨ ∃ i bus qp pmin, r = rload i bus qp pmin) :
    CleanFile n base := by
  refine ⟨h, ?_, ?_, ?_⟩
  · intro r hr c
    obtain ⟨i, ty, kv, vmax, vmin, rfl⟩ := h1 r hr
    cases c <;> simp [rbus, CellOk]
  · intro r hr c
    obtain ⟨f, t, r', x, b, tap, shift, rfl⟩ := h2 r hr
    cases c <;> simp [rline, CellOk]
  · intro r hr c
    rcases h3 r hr with ⟨i, bus, rfl⟩ | ⟨i, bus, qp, pmin, rfl⟩ <;>
    cases c <;> simp [rslack, rload, CellOk]

theorem goodNet_clean : CleanFile goodNet 1 := by
  refine clean_of 1 rfl ?_ ?_ ?_ <;> simp only [goodNet, List.mem_cons, List.not_mem_nil, or_false] <;> intro r hr
  · rcases hr with rfl | rfl <;> exact ⟨_, _, _, _, _, rfl⟩
  · subst hr; exact ⟨_, _, _, _, _, _, _, rfl⟩
  · rcases hr with rfl | rfl
    · exact Or.inl ⟨_, _, rfl⟩
    · exact Or.inr ⟨_, _, _, _, rfl⟩

theorem lateNet_clean : CleanFile lateNet 1 := by
  refine clean_of 1 rfl ?_ ?_ ?_ <;> simp only [lateNet, List.mem_cons, List.not_mem_nil, or_false] <;> intro r hr
  · rcases hr with rfl | rfl <;> exact ⟨_, _, _, _, _, rfl⟩
  · subst hr; exact ⟨_, _, _, _, _, _, _, rfl⟩
  · rcases hr with rfl | rfl
    · exact Or.inl ⟨_, _, rfl⟩
    · exact Or.inr ⟨_, _, _, _, rfl⟩

theorem sharedNet_clean : CleanFile sharedNet 1 := by
  refine clean_of 1 rfl ?_ ?_ ?_ <;> simp only [sharedNet, List.mem_cons, List.not_mem_nil, or_false] <;> intro r hr
  · rcases hr with rfl | rfl <;> exact ⟨_, _, _, _, _, rfl⟩
  · subst hr; exact ⟨_, _, _, _, _, _, _, rfl⟩
  · rcases hr with rfl | rfl | rfl
    · exact Or.inl ⟨_, _, rfl⟩
    · exact Or.inr ⟨_, _, _, _, rfl⟩
    · exact Or.inr ⟨_, _, _, _, rfl⟩

/-! ### Running the load flow of a two-bus network -/

section
variable {s s' : Sim ℝ} {o : LFOracle} {qp : QP ℝ} {pi : ℝ} {a : Sim.Args ℝ} {out : Sim.TransOut ℝ}
  {first : Bool} {line : LineC} {devs : List (ℤ × ℤ × DevKind × Bool × X ℝ × X ℝ × X ℝ)}

theorem two_lines (F : TwoFacts s first line devs) : FiniteLines s [line] := by
  have := F.branches
  obtain ⟨b, e1, e2⟩ := List.map_eq_singleton_iff.1 this
  rw [FiniteLines, e1]
  exact .cons e2 .nil

theorem two_buses (F : TwoFacts s first line devs) : ∃ b0 b1, s.buses = [b0, b1] ∧ b0.id = 0 ∧ b1.id = 1 ∧
    b0.isSlack = first ∧ b1.isSlack = !first ∧ b0.vMin ≠ none ∧ b1.vMin ≠ none := by
  have := F.buses
  simp only [List.map_eq_cons_iff, List.map_eq_nil_iff, Prod.mk.injEq] at this
  obtain ⟨b0, l0, e1, ⟨h1, h2, h3⟩, b1, l1, rfl, ⟨h4, h5, h6⟩, rfl⟩ := this
  exact ⟨b0, b1, e1, h1, h4, h2, h5, by rintro e; simp [e] at h3, by rintro e; simp [e] at h6⟩

/-- What the load flow is given on a two-bus network. -/
theorem realPF_two {ls : List LineC} {inp : PFIn ℝ} {p0 q0 p1 q1 : X ℝ}
    (h : inp.buses = [(0, first, p0, q0), (1, !first, p1, q1)]) (h3 : mapO Line.finite? inp.lines = some ls) :
    realPF o inp = .ok (solveFinite o inp 1 (fun _ => if first then (p1, q1) else (p0, q0)) ls) := by
  unfold realPF
  have hr : (List.range 2).map Int.ofNat = [0, 1] := rfl
  have hl : inp.buses.length = 2 := by rw [h]; rfl
  cases first <;> simp [h, h3, hr] <;> rw [hl]

theorem two_pf (F : TwoFacts s first line devs) (ds : List (Device ℝ)) :
    ∃ inp b0 b1, s.buses.map (Sim.busInjections ds) = [b0, b1] ∧ b0.isSlack = first ∧ b1.isSlack = !first ∧
      b0.id = 0 ∧ b1.id = 1 ∧
    realPF o (Sim.pfIn { s with devices := ds, buses := s.buses.map (Sim.busInjections ds) }) =
      .ok (solveFinite o inp 1 (fun _ => if first then (b1.p, b1.q) else (b0.p, b0.q)) [line]) := by
  obtain ⟨b0, b1, e, h0, h1, f0, f1, _⟩ := two_buses F
  refine ⟨Sim.pfIn { s with devices := ds, buses := s.buses.map (Sim.busInjections ds) },
    Sim.busInjections ds b0, Sim.busInjections ds b1, by simp [e], f0, f1, h0, h1, ?_⟩
  refine realPF_two (p0 := (Sim.busInjections ds b0).p) (q0 := (Sim.busInjections ds b0).q) ?_ ?_
  · simp [Sim.pfIn, e, Sim.busInjections, h0, h1, f0, f1]
  · rw [mapO_forall₂]
    have hl : FiniteLines s [line] := two_lines F
    exact List.forall₂_map_left_iff.2 hl

theorem two_total (F : TwoFacts s first line devs) : PFTotal (realPF o) s := by
  intro ds
  obtain ⟨inp, b0, b1, _, _, _, _, _, h⟩ := two_pf (o := o) F ds
  exact ⟨_, h⟩

/-- The result of a transition of a two-bus network in terms of the load flow. -/
theorem two_solved (F : TwoFacts s first line devs)
    (h : s.transition ⟨qp, realPF o, pi⟩ a = .ok (s', out)) :
    ∃ b0 b1 inp, s'.buses = [b0, b1] ∧ b0.id = 0 ∧ b1.id = 1 ∧ b0.isSlack = first ∧ b1.isSlack = !first ∧
      let po := solveFinite o inp 1 (fun _ => if first then (b1.p, b1.q) else (b0.p, b0.q)) [line]
      out.converged = po.stable ∧ b0.v = po.v 0 ∧ b1.v = po.v 1 := by
  obtain ⟨ds, po, I⟩ := transition_ok h
  obtain ⟨inp, b0, b1, e, f0, f1, i0, i1, hpf⟩ := two_pf (o := o) F ds
  have hpo := I.solve.pf
  simp only at hpo
  rw [hpf] at hpo
  injection hpo with hpo
  have A := I.solve.apply
  have hb := A.buses
  simp only [e, List.mapIdx_cons, List.mapIdx_nil] at hb
  refine ⟨_, _, inp, hb, i0, i1, f0, f1, ?_⟩
  rw [I.converged]
  cases first
  · simp only [f0, f1, Bool.false_eq_true, if_false] at hpo ⊢
    rw [hpo]
    exact ⟨rfl, rfl, rfl⟩
  · simp only [f0, f1, if_true, Bool.not_true, Bool.false_eq_true, if_false] at hpo ⊢
    rw [hpo]
    exact ⟨rfl, rfl, rfl⟩

end

/-- A load flow that one Newton iteration solves exactly. -/
theorem newton_one {o : LFOracle} (ho : ExactSolve o) {Y : Matrix (Fin 2) (Fin 2) ℂ} (h11 : Y 1 1 = 0)
    (h10 : Y 1 0 = -1) :
    NR.run o Y (m := 1) (fun _ => .fin (-2)) (fun _ => .fin 0) xtol =
      { nIter := 1, guess := some ⟨fun _ => 0, fun _ => 2⟩, F := fun _ => .fin 0 } := by
  have hcurr : ∀ v : Fin 2 → ℂ, v 0 = 1 → NR.curr (m := 1) Y v 1 = -1 := by
    intro v hv
    simp [NR.curr, Fin.sum_univ_two, h11, h10, hv]
  have hpow : ∀ g : Guess 1, NR.power Y g 0 = -(g.mag 0 * exp (I * g.ang 0)) := by
    intro g
    unfold NR.power
    rw [show (0 : Fin 1).succ = (1 : Fin 2) from rfl, hcurr _ rfl]
    simp [NR.volt]
  have hF0 : (NR.init Y (m := 1) (fun _ => .fin (-2)) (fun _ => .fin 0)).F =
      fun k => .fin (match k with | .inl _ => 1 | .inr _ => 0) := by
    funext k
    rcases k with k | k <;> (have hk : k = 0 := Subsingleton.elim _ _) <;> subst hk <;>
      simp [NR.init, NR.f, hpow, NR.flat]
    norm_num
  have hF1 : NR.f Y (m := 1) (fun _ => .fin (-2)) (fun _ => .fin 0) ⟨fun _ => 0, fun _ => 2⟩ =
      fun _ => .fin 0 := by
    funext k
    rcases k with k | k <;> (have hk : k = 0 := Subsingleton.elim _ _) <;> subst hk <;>
      simp [NR.f, hpow]
  have hJ : ∀ d : Ix 1 → ℝ, (NR.dfdx Y (NR.flat : Guess 1)).mulVec d =
      fun k => match k with | .inl _ => - d (.inr 0) | .inr _ => - d (.inl 0) := by
    intro d
    funext k
    rcases k with k | k <;> (have hk : k = 0 := Subsingleton.elim _ _) <;> subst hk <;>
      simp [Matrix.mulVec, dotProduct, NR.dfdx, NR.dSdVa, NR.dSdVm, NR.iDiag, h11, hcurr, NR.volt, NR.flat]
  have hdet : IsUnit (NR.dfdx Y (NR.flat : Guess 1)).det := by
    rw [← Matrix.isUnit_iff_isUnit_det, ← Matrix.mulVec_injective_iff_isUnit]
    intro d d' e
    rw [hJ, hJ] at e
    have e1 := congrFun e (.inl 0)
    have e2 := congrFun e (.inr 0)
    simp at e1 e2
    funext k
    rcases k with k | k <;> (have hk : k = 0 := Subsingleton.elim _ _) <;> subst hk <;> assumption
  obtain ⟨d, hd, hJd⟩ := ho 1 _ (fun k => match k with | .inl _ => 1 | .inr _ => 0) hdet
  rw [hJ] at hJd
  have d1 : d (.inr 0) = -1 := by
    have := congrFun hJd (.inl 0)
    simp at this
    linarith
  have d0 : d (.inl 0) = 0 := by
    have := congrFun hJd (.inr 0)
    simpa using this
  have hnext : NR.next o Y (some NR.flat)
      (fun k => .fin (match k with | .inl _ => 1 | .inr _ => 0)) = some ⟨fun _ => 0, fun _ => 2⟩ := by
    have hj : NR.jac Y (NR.flat : Guess 1) = some (NR.dfdx Y NR.flat) := by
      unfold NR.jac
      rw [if_neg (by rintro ⟨k, hk⟩; simp [NR.flat] at hk)]
    unfold NR.next
    simp only [hj, hd, Option.some.injEq, Guess.mk.injEq]
    constructor <;> funext k <;> (have hk : k = 0 := Subsingleton.elim _ _) <;> subst hk <;>
      simp [NR.flat, d0, d1]
    norm_num
  have hbody : NR.body o Y (fun _ => .fin (-2)) (fun _ => .fin 0)
      (NR.init Y (m := 1) (fun _ => .fin (-2)) (fun _ => .fin 0)) =
      { nIter := 1, guess := some ⟨fun _ => 0, fun _ => 2⟩, F := fun _ => .fin 0 } := by
    unfold NR.body
    rw [hF0]
    simp only [show (NR.init Y (m := 1) (fun _ => .fin (-2)) (fun _ => .fin 0)).guess = some NR.flat from rfl,
      hnext, NR.evalF, hF1]
    rfl
  have hc0 : NR.cond xtol (NR.init Y (m := 1) (fun _ => .fin (-2)) (fun _ => .fin 0)) := by
    refine ⟨?_, by simp [NR.init]⟩
    rw [hF0]
    simp [NR.norm, X.abs, X.zero_def, X.max_fin, xtol]
    norm_num
  have hc1 : ¬ NR.cond xtol ({ nIter := 1, guess := some ⟨fun _ => 0, fun _ => 2⟩, F := fun _ => .fin 0 } : NR.St 1) := by
    rintro ⟨hc, _⟩
    simp [NR.norm, X.abs, X.zero_def, X.max_fin, xtol] at hc
    norm_num at hc
  unfold NR.run NR.loop
  rw [if_pos hc0, hbody]
  unfold NR.loop
  rw [if_neg hc1]

theorem stable_zero {m : ℕ} {n : ℕ} {g : Option (Guess m)} :
    NR.stable xtol ({ nIter := n, guess := g, F := fun _ => .fin 0 } : NR.St m) = true := by
  have : NR.norm (fun _ : Ix m => X.fin (0 : ℝ)) ≤ .fin xtol := by
    rw [norm_le (by unfold xtol; norm_num)]
    intro k
    simp [X.abs, xtol]
    norm_num
  simp only [NR.stable, decide_eq_true_eq]
  refine ⟨fun e => ?_, this⟩
  rw [e] at this
  exact this

/-- The result of the load flow in that case. -/
theorem solve_one {o : LFOracle} (ho : ExactSolve o) {l : LineC} (h11 : ymat 1 [l] 1 1 = 0)
    (h10 : ymat 1 [l] 1 0 = -1) (inp : PFIn ℝ) :
    let po := solveFinite o inp 1 (fun _ => (.fin (-2), .fin 0)) [l]
    po.stable = true ∧ po.v 1 = .ofC 2 := by
  unfold solveFinite
  simp only [newton_one ho h11 h10, stable_zero]
  refine ⟨rfl, ?_⟩
  simp [outOf, NR.volt]

/-- There are exact linear solvers. -/
theorem exactSolve_exists : ∃ o : LFOracle, ExactSolve o := by
  classical
  refine ⟨⟨fun m J F => J.map fun J => J⁻¹.mulVec fun k => finVal (F k), fun _ => true,
    fun _ => ⟨fun _ => .undef, fun _ => .undef, .nan, .nan, fun _ => {}, false⟩, fun _ => .error .valueError⟩, ?_⟩
  intro m J F hJ
  refine ⟨_, rfl, ?_⟩
  rw [Matrix.mulVec_mulVec, Matrix.mul_nonsing_inv _ hJ, Matrix.one_mulVec]
  rfl

theorem series_one {l : LineC} (hr : l.r = 0) (hx : l.x = 1) : l.series = -I := by
  simp [LineC.series, hr, hx]

theorem late_tap : lateLine.tap = I := by
  have : I * (lateLine.shift : ℂ) = (Real.pi / 2 : ℂ) * I := by
    simp [LineC.shift, lateLine]
    ring
  rw [LineC.tap, this, Complex.exp_pi_div_two_mul_I]
  simp [lateLine]

theorem good_tap : goodLine.tap = -I := by
  have : I * (goodLine.shift : ℂ) = (Real.pi / 2 : ℂ) * I + Real.pi * I := by
    simp [LineC.shift, goodLine]
    ring
  rw [LineC.tap, this, Complex.exp_add, Complex.exp_pi_div_two_mul_I, Complex.exp_pi_mul_I]
  simp [goodLine]

theorem late_y : ymat 1 [lateLine] 1 1 = 0 ∧ ymat 1 [lateLine] 1 0 = -1 := by
  have e := series_one (l := lateLine) rfl rfl
  constructor
  · simp [ymat, ybus, ybusStep, setAt, lateLine]
    left
    rw [show (⟨1, 0, 0, 1, 2, 1, 90⟩ : LineC) = lateLine from rfl, e]
    simp [LineC.shunt, lateLine]
  · simp [ymat, ybus, ybusStep, setAt, lateLine]
    rw [show (⟨1, 0, 0, 1, 2, 1, 90⟩ : LineC) = lateLine from rfl, e, late_tap]
    simp

theorem good_y : ymat 1 [goodLine] 1 1 = 0 ∧ ymat 1 [goodLine] 1 0 = -1 := by
  have e := series_one (l := goodLine) rfl rfl
  constructor
  · simp [ymat, ybus, ybusStep, setAt, goodLine]
    rw [show (⟨0, 1, 0, 1, 2, 1, 270⟩ : LineC) = goodLine from rfl, e]
    simp [LineC.shunt, goodLine]
  · simp [ymat, ybus, ybusStep, setAt, goodLine]
    rw [show (⟨0, 1, 0, 1, 2, 1, 270⟩ : LineC) = goodLine from rfl, e, good_tap]
    simp

/-- Loads and the slack device only. -/
theorem two_workable {s : Sim ℝ} {first : Bool} {line : LineC} {l : List (ℤ × ℤ)} (F : TwoFacts s first line
    (slackAt (if first then 0 else 1) :: l.map fun e => loadAt e.1 e.2)) : Workable s ∧ SocFin s := by
  have key : ∀ d ∈ s.devices, d.isStorage = false ∧ d.isNonSlackGen = false ∧
      (d.isSlack = true → d.busId = if first then 0 else 1) := by
    intro d hd
    have : (d.id, d.busId, d.kind, d.isSlack, d.qpRatio, d.pMin, d.pMax) ∈
        s.devices.map fun d => (d.id, d.busId, d.kind, d.isSlack, d.qpRatio, d.pMin, d.pMax) :=
      List.mem_map.2 ⟨d, hd, rfl⟩
    rw [F.devices] at this
    simp only [List.mem_cons, List.mem_map, slackAt, loadAt, Prod.mk.injEq] at this
    unfold Device.isStorage Device.isNonSlackGen Device.isGen
    rcases this with ⟨_, h1, h2, h3, _⟩ | ⟨_, _, _, h1, h2, h3, _⟩
    · simp [h2, h3, h1]
    · simp [← h2, ← h3]
  obtain ⟨b0, b1, e, h0, h1, _, _, v0, v1⟩ := two_buses F
  refine ⟨⟨?_, ?_, ?_, ?_⟩, ?_⟩
  · intro d hd h; simp [(key d hd).2.1] at h
  · intro d hd h; simp [(key d hd).1] at h
  · rw [e]; simp [v0, v1]
  · intro d hd h
    rw [(key d hd).2.2 h, e]
    cases first <;> simp [h0, h1]
  · intro d hd h; simp [(key d hd).1] at h

section
variable {n : Network ℝ} {s s' : Sim ℝ} {o : LFOracle} {qp : QP ℝ} {pi : ℝ} {a : Sim.Args ℝ}
  {out : Sim.TransOut ℝ} {first : Bool} {line : LineC} {l : List (ℤ × ℤ)}

theorem two_same {devs : List (ℤ × ℤ × DevKind × Bool × X ℝ × X ℝ × X ℝ)} (h : SameConfig s s')
    (F : TwoFacts s first line devs) : TwoFacts s' first line devs := by
  have e1 : s'.buses.map (fun b => (b.id, b.isSlack, b.vMin.isSome)) =
      s.buses.map (fun b => (b.id, b.isSlack, b.vMin.isSome)) := by
    rw [← List.forall₂_eq_eq_eq, List.forall₂_map_left_iff, List.forall₂_map_right_iff]
    refine h.buses.flip.imp fun b b' hb => ?_
    rw [hb]
  have e2 : s'.branches.map (fun b => b.line.finite?) = s.branches.map (fun b => b.line.finite?) := by
    rw [← List.forall₂_eq_eq_eq, List.forall₂_map_left_iff, List.forall₂_map_right_iff]
    refine h.branches.flip.imp fun b b' hb => ?_
    rw [hb]
  have e3 : s'.devices.map (fun d => (d.id, d.busId, d.kind, d.isSlack, d.qpRatio, d.pMin, d.pMax)) =
      s.devices.map (fun d => (d.id, d.busId, d.kind, d.isSlack, d.qpRatio, d.pMin, d.pMax)) := by
    rw [← List.forall₂_eq_eq_eq, List.forall₂_map_left_iff, List.forall₂_map_right_iff]
    refine h.devices.flip.imp fun b b' hb => ?_
    rw [hb]
  exact ⟨h.base.trans F.base, e1.trans F.buses, e2.trans F.branches, e3.trans F.devices⟩

/-- A load within its limits withdraws what is asked. -/
theorem load_meets {k i : ℤ} {x : ℝ} (hb : s.baseMVA = .fin 1)
    (h : s.transition ⟨qp, realPF o, pi⟩ a = .ok (s', out)) {d : Device ℝ}
    (hd : d ∈ s'.devices)
    (hl : (d.id, d.busId, d.kind, d.isSlack, d.qpRatio, d.pMin, d.pMax) = loadAt k i)
    (ha : a.pLoad.get? k = some (.fin x)) (h1 : -2 ≤ x) (h2 : x ≤ 0) : d.p = .fin x ∧ d.q = .fin 0 := by
  simp only [loadAt, Prod.mk.injEq] at hl
  obtain ⟨l1, l2, l3, l4, l5, l6, l7⟩ := hl
  obtain ⟨d0, hd0, hr⟩ := transition_device h hd l4
  rw [hb] at hr
  cases hr with
  | load y hk hy =>
    have e1 : d0.id = k := l1
    have e5 : d0.qpRatio = .fin 0 := l5
    have e6 : d0.pMin = .fin (-2) := l6
    have e7 : d0.pMax = .fin 0 := l7
    rw [e1, Dict.getE_ok, ha] at hy
    injection hy with hy
    subst hy
    have hc : X.clip (.fin x / .fin 1) (.fin (-2)) (.fin 0) = (.fin x : X ℝ) := by
      rw [X.fin_div_fin one_ne_zero, div_one]
      unfold X.clip X.minimum X.maximum
      simp only [reduceCtorEq, if_false, X.fin_le_fin]
      split_ifs <;> simp_all <;> order
    simp only [Device.mapLoad, e5, e6, e7, hc]
    exact ⟨trivial, by simp⟩
  | gen _ _ _ _ _ hk => simp [Device.isNonSlackGen, Device.isGen, Device.setPPot] at hk l3; simp [l3] at hk
  | storage _ _ _ _ _ _ hk => simp [Device.isStorage] at hk l3; simp [l3] at hk
  | slack hk => simp [Device.isLoad] at hk l3; exact absurd l3 hk
  | none hk => simp [Device.isLoad] at hk l3; exact absurd l3 hk

theorem two_load {devs : List (ℤ × ℤ × DevKind × Bool × X ℝ × X ℝ × X ℝ)} {k i : ℤ} {x : ℝ}
    (F : TwoFacts s first line devs) (h : s.transition ⟨qp, realPF o, pi⟩ a = .ok (s', out)) {d : Device ℝ}
    (hd : d ∈ s'.devices)
    (hl : (d.id, d.busId, d.kind, d.isSlack, d.qpRatio, d.pMin, d.pMax) = loadAt k i)
    (ha : a.pLoad.get? k = some (.fin x)) (h1 : -2 ≤ x) (h2 : x ≤ 0) : d.p = .fin x ∧ d.q = .fin 0 :=
  load_meets F.base h hd hl ha h1 h2

theorem two_args {devs : List (ℤ × ℤ)} (F : TwoFacts s first line
    (slackAt (if first then 0 else 1) :: devs.map fun e => loadAt e.1 e.2))
    (h : ∀ e ∈ devs, ∃ x, a.pLoad.get? e.1 = some (.fin x)) : FiniteArgs s a := by
  have key : ∀ d ∈ s.devices, d.isStorage = false ∧ d.isNonSlackGen = false ∧
      (d.isLoad = true → ∃ e ∈ devs, e.1 = d.id) := by
    intro d hd
    have : (d.id, d.busId, d.kind, d.isSlack, d.qpRatio, d.pMin, d.pMax) ∈
        s.devices.map fun d => (d.id, d.busId, d.kind, d.isSlack, d.qpRatio, d.pMin, d.pMax) :=
      List.mem_map.2 ⟨d, hd, rfl⟩
    rw [F.devices] at this
    simp only [List.mem_cons, List.mem_map, slackAt, loadAt, Prod.mk.injEq] at this
    unfold Device.isStorage Device.isNonSlackGen Device.isGen Device.isLoad
    rcases this with ⟨_, h1, h2, h3, _⟩ | ⟨e, he, h0, h1, h2, h3, _⟩
    · simp [h2, h3]
    · refine ⟨by simp [← h2], by simp [← h2], fun _ => ⟨e, he, h0⟩⟩
  refine ⟨?_, ?_, ?_⟩
  · intro d hd hl
    obtain ⟨e, he, e1⟩ := (key d hd).2.2 hl
    rw [← e1]
    exact h e he
  · intro d hd hl; simp [(key d hd).2.1] at hl
  · intro d hd hl; simp [(key d hd).2.1, (key d hd).1] at hl

/-- A transition of these networks raises no exception. -/
theorem two_run {devs : List (ℤ × ℤ)} (o : LFOracle) (pi : ℝ) (hn : CleanFile n 1)
    (hmk : mkSim n (.fin 1) (.fin 1) = .ok s) (F : TwoFacts s first line
    (slackAt (if first then 0 else 1) :: devs.map fun e => loadAt e.1 e.2))
    (h : ∀ e ∈ devs, ∃ x, a.pLoad.get? e.1 = some (.fin x)) :
    ∃ s' out, s.transition ⟨exactQP, realPF o, pi⟩ a = .ok (s', out) :=
  C72_transition_total (c := ⟨exactQP, realPF o, pi⟩) C16_exact_solver_exists one_pos hn
    ⟨s, hmk, sameConfig_refl s⟩ (two_workable F).1 (two_total F) (two_workable F).2 (two_args F h)

end

/-- Demands of the loads 1 and 2. -/
def demand (x y : ℝ) : Sim.Args ℝ :=
  { pLoad := [(1, .fin x), (2, .fin y)], pPot := [], pSet := [], qSet := [] }

theorem goodNet_documented : Documented goodNet := by
  refine ⟨⟨?_, ?_⟩, ?_⟩ <;> simp only [goodNet, List.mem_cons, List.not_mem_nil, or_false]
  · rintro r (rfl | rfl)
    exacts [⟨0, by simp [rbus]⟩, ⟨1, by simp [rbus]⟩]
  · rintro r (rfl | rfl)
    exacts [⟨0, by simp [rslack]⟩, ⟨1, by simp [rload]⟩]
  · rintro r (rfl | rfl) <;> simp [rbus]

theorem lateNet_documented : Documented lateNet := by
  refine ⟨⟨?_, ?_⟩, ?_⟩ <;> simp only [lateNet, List.mem_cons, List.not_mem_nil, or_false]
  · rintro r (rfl | rfl)
    exacts [⟨0, by simp [rbus]⟩, ⟨1, by simp [rbus]⟩]
  · rintro r (rfl | rfl)
    exacts [⟨0, by simp [rslack]⟩, ⟨1, by simp [rload]⟩]
  · rintro r (rfl | rfl) <;> simp [rbus]

theorem sharedNet_documented : Documented sharedNet := by
  refine ⟨⟨?_, ?_⟩, ?_⟩ <;> simp only [sharedNet, List.mem_cons, List.not_mem_nil, or_false]
  · rintro r (rfl | rfl)
    exacts [⟨0, by simp [rbus]⟩, ⟨1, by simp [rbus]⟩]
  · rintro r (rfl | rfl | rfl)
    exacts [⟨0, by simp [rslack]⟩, ⟨1, by simp [rload]⟩, ⟨2, by simp [rload]⟩]
  · rintro r (rfl | rfl) <;> simp [rbus]

theorem devs_two {s : Sim ℝ} {first : Bool} {line : LineC} {x y : ℤ × ℤ × DevKind × Bool × X ℝ × X ℝ × X ℝ}
    (F : TwoFacts s first line [x, y]) : ∃ d e, s.devices = [d, e] ∧
      (d.id, d.busId, d.kind, d.isSlack, d.qpRatio, d.pMin, d.pMax) = x ∧
      (e.id, e.busId, e.kind, e.isSlack, e.qpRatio, e.pMin, e.pMax) = y := by
  have := F.devices
  simp only [List.map_eq_cons_iff, List.map_eq_nil_iff] at this
  obtain ⟨d, l0, e1, h1, d1, l1, rfl, h2, rfl⟩ := this
  exact ⟨d, d1, e1, h1, h2⟩

theorem zero_add_X (x : X ℝ) : (0 : X ℝ) + x = x := by
  cases x <;> simp [X.zero_def] <;> rfl

/-- **C28 is false** when the slack bus does not have ID 0: for every exact linear solver the load flow
converges with the slack bus at 2 p.u. -/
theorem C28_counterexample : ∃ n s, CleanFile n 1 ∧ Documented n ∧ mkSim n (.fin 1) (.fin 1) = .ok s ∧
    ∀ (o : LFOracle) (pi : ℝ), ExactSolve o → ∃ a s' out b,
      s.transition ⟨exactQP, realPF o, pi⟩ a = .ok (s', out) ∧ out.converged = true ∧
      b ∈ s'.buses ∧ b.isSlack = true ∧ b.v = .ofC 2 := by
  obtain ⟨s, hmk, F⟩ := lateNet_mk
  refine ⟨lateNet, s, lateNet_clean, lateNet_documented, hmk, fun o pi ho => ?_⟩
  obtain ⟨s', out, h⟩ := two_run (devs := [(1, 0)]) (a := demand (-2) 0) o pi lateNet_clean hmk F
    (by simp [demand, Dict.get?])
  obtain ⟨b0, b1, inp, hb, i0, i1, f0, f1, hc, hv0, hv1⟩ := two_solved F h
  have F' := two_same (sameConfig_transition h) F
  obtain ⟨i, j, hos⟩ := oneSlack_of_file lateNet_clean lateNet_documented ⟨s, hmk, sameConfig_refl s⟩
  obtain ⟨hp, hq⟩ := C33_bus_sum_partial hos h (b := b0) (by simp [hb]) (by simp [f0])
  obtain ⟨d, e, hds, hd1, he1⟩ := devs_two F'
  have hL := two_load (x := -2) F h (d := e) (by simp [hds]) he1 (by simp [demand, Dict.get?]) le_rfl
    (by norm_num)
  simp only [slackAt, loadAt, Prod.mk.injEq] at hd1 he1
  simp only [devicesAt, hds, i0, List.filter, hd1.2.1, he1.2.1, sumX, List.map, List.foldl] at hp hq
  simp [zero_add_X, hL.1, hL.2] at hp hq
  simp only [hp, hq, Bool.false_eq_true, if_false] at hc hv1
  obtain ⟨g1, g2⟩ := solve_one ho late_y.1 late_y.2 inp
  exact ⟨_, s', out, b1, h, hc.trans g1, by simp [hb], by simp [f1], hv1.trans g2⟩

/-- A transition of `goodNet` that converges after one iteration, to `V1 = 2`. -/
theorem good_run (o : LFOracle) (ho : ExactSolve o) (pi : ℝ) : ∃ s s' out,
    mkSim goodNet (.fin 1) (.fin 1) = .ok s ∧ TwoFacts s true goodLine [slackAt 0, loadAt 1 1] ∧
    s.transition ⟨exactQP, realPF o, pi⟩ (demand (-2) 0) = .ok (s', out) ∧ out.converged = true ∧
    ∃ b ∈ s'.buses, b.id = 1 ∧ b.v = .ofC 2 := by
  obtain ⟨s, hmk, F⟩ := goodNet_mk
  obtain ⟨s', out, h⟩ := two_run (devs := [(1, 1)]) (a := demand (-2) 0) o pi goodNet_clean hmk F
    (by simp [demand, Dict.get?])
  refine ⟨s, s', out, hmk, F, h, ?_⟩
  obtain ⟨b0, b1, inp, hb, i0, i1, f0, f1, hc, hv0, hv1⟩ := two_solved F h
  have F' := two_same (sameConfig_transition h) F
  obtain ⟨i, j, hos⟩ := oneSlack_of_file goodNet_clean goodNet_documented ⟨s, hmk, sameConfig_refl s⟩
  obtain ⟨hp, hq⟩ := C33_bus_sum_partial hos h (b := b1) (by simp [hb]) (by simp [f1])
  obtain ⟨d, e, hds, hd1, he1⟩ := devs_two F'
  have hL := two_load (x := -2) F h (d := e) (by simp [hds]) he1 (by simp [demand, Dict.get?]) le_rfl
    (by norm_num)
  simp only [slackAt, loadAt, Prod.mk.injEq] at hd1 he1
  simp only [devicesAt, hds, i1, List.filter, hd1.2.1, he1.2.1, sumX, List.map, List.foldl] at hp hq
  simp [zero_add_X, hL.1, hL.2] at hp hq
  simp only [hp, hq, if_true] at hc hv1
  obtain ⟨g1, g2⟩ := solve_one ho good_y.1 good_y.2 inp
  exact ⟨hc.trans g1, b1, by simp [hb], i1, hv1.trans g2⟩

theorem two_numbered {s : Sim ℝ} {line : LineC} {devs : List (ℤ × ℤ × DevKind × Bool × X ℝ × X ℝ × X ℝ)}
    (F : TwoFacts s true line devs) : Numbered s 1 := by
  obtain ⟨b0, b1, e, h0, h1, f0, f1, _⟩ := two_buses F
  refine ⟨?_, le_rfl, ?_⟩
  · simp [e, h0, h1, List.range_succ]
  · rw [e]
    simp [h0, h1, f0, f1]

/-- The hypotheses of C25, C28, C29, C31 and C32 are met by a run that needs a Newton iteration. -/
example (o : LFOracle) (ho : ExactSolve o) (pi : ℝ) : ∃ n base s m ls i j qp a s' out,
    CleanFile n base ∧ SimOf n (.fin 1) (.fin 1) s ∧ Numbered s m ∧ OneSlack s i j ∧ FiniteLines s ls ∧
    (∀ d ∈ s.devices, d.busId = i → d.isSlack = true) ∧
    s.transition ⟨qp, realPF o, pi⟩ a = .ok (s', out) ∧ out.converged = true ∧
    (∀ d ∈ s'.devices, d.isRenewable = true → ∃ p, d.pPot = .fin p) := by
  obtain ⟨s, s', out, hmk, F, h, hc, _⟩ := good_run o ho pi
  have hs : SimOf goodNet (.fin 1) (.fin 1) s := ⟨s, hmk, sameConfig_refl s⟩
  obtain ⟨i, j, hos⟩ := oneSlack_of_file goodNet_clean goodNet_documented hs
  have hm := two_numbered F
  have hi : i = 0 := by
    obtain ⟨b, hb, e⟩ := hos.busMem
    rw [← e]
    exact (hm.slack b hb).1 ((hos.bus b hb).2 e)
  subst hi
  refine ⟨goodNet, 1, s, 1, [goodLine], 0, j, exactQP, _, s', out, goodNet_clean, hs, hm, hos,
    two_lines F, ?_, h, hc, ?_⟩
  · obtain ⟨d, e, hds, hd1, he1⟩ := devs_two F
    simp only [slackAt, loadAt, Prod.mk.injEq] at hd1 he1
    simp [hds, hd1, he1]
  · obtain ⟨d, e, hds, hd1, he1⟩ := devs_two (two_same (sameConfig_transition h) F)
    simp only [slackAt, loadAt, Prod.mk.injEq] at hd1 he1
    simp [hds, Device.isRenewable, hd1, he1]

theorem devs_three {s : Sim ℝ} {first : Bool} {line : LineC}
    {x y z : ℤ × ℤ × DevKind × Bool × X ℝ × X ℝ × X ℝ}
    (F : TwoFacts s first line [x, y, z]) : ∃ d e f, s.devices = [d, e, f] ∧
      (d.id, d.busId, d.kind, d.isSlack, d.qpRatio, d.pMin, d.pMax) = x ∧
      (e.id, e.busId, e.kind, e.isSlack, e.qpRatio, e.pMin, e.pMax) = y ∧
      (f.id, f.busId, f.kind, f.isSlack, f.qpRatio, f.pMin, f.pMax) = z := by
  have := F.devices
  simp only [List.map_eq_cons_iff, List.map_eq_nil_iff] at this
  obtain ⟨d, l0, e1, h1, d1, l1, rfl, h2, d2, l2, rfl, h3, rfl⟩ := this
  exact ⟨d, d1, d2, e1, h1, h2, h3⟩

/-- **C33 is false** when a device shares the slack bus: with a demand of 1 MW on the slack bus and none
elsewhere, the slack bus reports 0 while its devices sum up to -1 p.u.; whatever the linear solver does. -/
theorem C33_counterexample : ∃ n s, CleanFile n 1 ∧ Documented n ∧ mkSim n (.fin 1) (.fin 1) = .ok s ∧
    ∀ (o : LFOracle) (pi : ℝ), ∃ a s' out b,
      s.transition ⟨exactQP, realPF o, pi⟩ a = .ok (s', out) ∧ out.converged = true ∧
      b ∈ s'.buses ∧ b.p = .fin 0 ∧ sumX ((devicesAt s' b.id).map Device.p) = .fin (-1) := by
  obtain ⟨s, hmk, F⟩ := sharedNet_mk
  refine ⟨sharedNet, s, sharedNet_clean, sharedNet_documented, hmk, fun o pi => ?_⟩
  have hs : SimOf sharedNet (.fin 1) (.fin 1) s := ⟨s, hmk, sameConfig_refl s⟩
  obtain ⟨s', out, h⟩ := two_run (devs := [(1, 1), (2, 0)]) (a := demand 0 (-1)) o pi sharedNet_clean hmk F
    (by simp [demand, Dict.get?])
  have F' := two_same (sameConfig_transition h) F
  obtain ⟨b0, b1, hb, i0, i1, f0, f1, _⟩ := two_buses F'
  obtain ⟨i, j, hos⟩ := oneSlack_of_file sharedNet_clean sharedNet_documented hs
  obtain ⟨hp, hq⟩ := C33_bus_sum_partial hos h (b := b1) (by simp [hb]) (by simp [f1])
  obtain ⟨d, e, f, hds, hd1, he1, hf1⟩ := devs_three F'
  have hL := two_load (x := 0) F h (d := e) (by simp [hds]) he1 (by simp [demand, Dict.get?])
    (by norm_num) le_rfl
  have hM := two_load (x := -1) F h (d := f) (by simp [hds]) hf1 (by simp [demand, Dict.get?])
    (by norm_num) (by norm_num)
  simp only [slackAt, loadAt, Prod.mk.injEq] at hd1 he1 hf1
  simp only [devicesAt, hds, i1, List.filter, hd1.2.1, he1.2.1, hf1.2.1, sumX, List.map, List.foldl] at hp hq
  simp [zero_add_X, hL.1, hL.2] at hp hq
  obtain ⟨hc, hflat⟩ := C73_idle sharedNet_clean hs (two_numbered F) (two_lines F)
    (by simp [sharedLine]) h (by
      rw [hb]
      simp [f0, f1, hp, hq])
  refine ⟨_, s', out, b0, h, hc, by simp [hb], (hflat b0 (by simp [hb])).2.1, ?_⟩
  have hS := slack_device hos h (b := b0) (by simp [hb]) (by simp [f0]) (d := d) (by simp [hds]) hd1.2.2.2.1
  have hp0 := (hflat b0 (by simp [hb])).2.1
  simp only [devicesAt, hds, i0, List.filter, hd1.2.1, he1.2.1, hf1.2.1, sumX, List.map, List.foldl]
  simp [zero_add_X, hS.1, hM.1, hp0]

/-! ### C36: accepted networks that cannot be simulated -/

/-- Buses 0 and 2. -/
def gapNet : Network ℝ :=
  ⟨.fin 1, [rbus 0 0 132 1 (rnum 1), rbus 2 1 33 3 (rnum 0)], [rline 0 2 0 1 0 1 0], [rslack 0 0]⟩

/-- One bus. -/
def singleNet : Network ℝ := ⟨.fin 1, [rbus 0 0 132 1 (rnum 1)], [], [rslack 0 0]⟩

/-- **C36 is false** for bus IDs with gaps: `reset` raises `ValueError`. -/
theorem C36_counterexample_gap : ∃ s, mkSim gapNet (.fin 1) (.fin 1) = .ok s ∧
    ∀ (c : QP ℝ) (o : LFOracle) (pi x y : ℝ), s.reset ⟨c, realPF o, pi⟩ [.fin x, .fin y] = .error .valueError := by
  obtain ⟨s, hmk, hb, hd⟩ : ∃ s, mkSim gapNet (.fin 1) (.fin 1) = .ok s ∧
      s.buses.map (fun b => b.id) = [0, 2] ∧ s.devices.map (fun d => (d.kind, d.isSlack)) =
        [(.classical, true)] := by
    eval_sim [gapNet]
  refine ⟨s, hmk, fun c o pi x y => ?_⟩
  simp only [List.map_eq_cons_iff, List.map_eq_nil_iff, Prod.mk.injEq] at hb hd
  obtain ⟨b0, _, hb, i0, b1, _, rfl, i1, rfl⟩ := hb
  obtain ⟨d, _, hd, ⟨k, hk⟩, rfl⟩ := hd
  simp [Sim.reset, hd, Sim.resetArgs, Device.isLoad, Device.isGen, Device.isStorage, k, hk, mapE, Sim.resetSoc,
    Sim.transition, Sim.solveStep, Sim.stepDevice, Device.isNonSlackGen, Sim.pfIn, hb, realPF, Sim.busInjections,
    i0, i1, Bind.bind, Except.bind, pure, Except.pure]

/-- **C36 is false** for networks with one bus: `reset` raises `ValueError`. -/
theorem C36_counterexample_single : ∃ s, mkSim singleNet (.fin 1) (.fin 1) = .ok s ∧
    ∀ (c : QP ℝ) (o : LFOracle) (pi x y : ℝ), s.reset ⟨c, realPF o, pi⟩ [.fin x, .fin y] = .error .valueError := by
  obtain ⟨s, hmk, hb, hd⟩ : ∃ s, mkSim singleNet (.fin 1) (.fin 1) = .ok s ∧
      s.buses.map (fun b => b.id) = [0] ∧ s.devices.map (fun d => (d.kind, d.isSlack)) =
        [(.classical, true)] := by
    eval_sim [singleNet]
  refine ⟨s, hmk, fun c o pi x y => ?_⟩
  simp only [List.map_eq_cons_iff, List.map_eq_nil_iff, Prod.mk.injEq] at hb hd
  obtain ⟨b0, _, hb, i0, rfl⟩ := hb
  obtain ⟨d, _, hd, ⟨k, hk⟩, rfl⟩ := hd
  simp [Sim.reset, hd, Sim.resetArgs, Device.isLoad, Device.isGen, Device.isStorage, k, hk, mapE, Sim.resetSoc,
    Sim.transition, Sim.solveStep, Sim.stepDevice, Device.isNonSlackGen, Sim.pfIn, hb, realPF, Sim.busInjections,
    i0, Bind.bind, Except.bind, pure, Except.pure]

end

/-- A slack bus without VMIN. -/
def noVminNet : Network ℚ := Network.ofLists (.fin 1)
  [[num 0, num 0, num 132, num 1, none], [num 1, num 1, num 33, num 2, num 0]]
  [[num 0, num 1, num 0, num 1, num 0, num 1, num 1, num 0]]
  [[num 0, num 0, num 0, none, none, none, none, none, none, none, none, none, none, none, none]]

/-- What a successful `reset` does first. -/
theorem reset_trans {K : Type} [Field K] [LinearOrder K] {c : Ctx K} {s s' : Sim K} {init : List (X K)}
    {conv : Bool} (h : s.reset c init = .ok (s', conv)) : ∃ (a : Sim.Args K) (ds : List (Device K)) (s1 : Sim K)
      (out : Sim.TransOut K), List.Forall₂ (fun d d' => Sim.resetSoc a.pSet d = .ok d') s.devices ds ∧
      Sim.transition c { s with state := none, devices := ds } a = .ok (s1, out) := by
  simp only [Sim.reset, bind_ok, pure_ok] at h
  obtain ⟨a, _, ds, hds, ⟨s1, out⟩, ht, _⟩ := h
  exact ⟨a, ds, s1, out, mapE_ok.1 hds, ht⟩

/-- **C36 is false** for a slack bus without VMIN, which the constructor accepts: `reset` raises an
exception whatever the vector, the solvers and the load flow. -/
theorem C36_counterexample_vmin : ∃ s, mkSim noVminNet (.fin 1) (.fin 1) = .ok s ∧
    ∀ (c : Ctx ℚ) (init : List (X ℚ)), ∃ e, s.reset c init = .error e := by
  obtain ⟨s, hmk, hb⟩ : ∃ s, mkSim noVminNet (.fin 1) (.fin 1) = .ok s ∧
      s.buses.map (fun b => b.vMin) = [none, some (.fin 0)] := exOk (by decide +kernel)
  refine ⟨s, hmk, fun c init => ?_⟩
  cases hr : s.reset c init with
  | error e => exact ⟨e, rfl⟩
  | ok r =>
    exfalso
    obtain ⟨a, ds, s1, out, _, ht⟩ := reset_trans (s' := r.1) (conv := r.2) hr
    obtain ⟨_, po, I⟩ := transition_ok ht
    have hsc := (sameConfig_transition ht).buses
    obtain ⟨b0, l, hb0, v0, _⟩ := List.map_eq_cons_iff.1 hb
    obtain ⟨b, hbm, e⟩ := forall₂_mem_left hsc (a := b0) (by simp [hb0])
    have hR := I.reward
    simp only [Sim.computeReward, bind_ok] at hR
    obtain ⟨bp, hbp, _⟩ := hR
    obtain ⟨x, _, hx⟩ := forall₂_mem_left (mapE_ok.1 hbp) hbm
    rw [e] at hx
    simp [Sim.busPenalty, v0] at hx

/-- A storage unit with EFF = 0. -/
def zeroEffNet : Network ℚ := Network.ofLists (.fin 1)
  [[num 0, num 0, num 132, num 1, num 1], [num 1, num 1, num 33, num 2, num 0]]
  [[num 0, num 1, num 0, num 1, num 0, num 1, num 1, num 0]]
  [[num 0, num 0, num 0, none, none, none, none, none, none, none, none, none, none, none, none],
   [num 1, num 1, num 3, none, num 50, num (-50), num 50, num (-50), num 30, num (-30), num 25,
     num (-25), num 100, num 0, num 0]]

/-- **C36 is false** for a storage unit with EFF = 0, which the constructor accepts: `reset` raises an
exception whatever the vector, the solvers and the load flow. -/
theorem C36_counterexample_eff : ∃ s, mkSim zeroEffNet (.fin 1) (.fin 1) = .ok s ∧
    ∀ (c : Ctx ℚ) (init : List (X ℚ)), ∃ e, s.reset c init = .error e := by
  obtain ⟨s, hmk, hb, hdt⟩ : ∃ s, mkSim zeroEffNet (.fin 1) (.fin 1) = .ok s ∧
      s.devices.map (fun d => (d.kind, d.isSlack, d.eff)) =
        [(.classical, true, .nan), (.storage, false, .fin 0)] ∧ s.deltaT = .fin 1 := exOk (by decide +kernel)
  refine ⟨s, hmk, fun c init => ?_⟩
  cases hr : s.reset c init with
  | error e => exact ⟨e, rfl⟩
  | ok r =>
    exfalso
    obtain ⟨a, ds, s1, out, hds, ht⟩ := reset_trans (s' := r.1) (conv := r.2) hr
    obtain ⟨ds', po, I⟩ := transition_ok ht
    simp only [List.map_eq_cons_iff, List.map_eq_nil_iff, Prod.mk.injEq] at hb
    obtain ⟨d0, _, hd, _, d1, _, rfl, ⟨k1, k2, k3⟩, rfl⟩ := hb
    obtain ⟨d, hdm, hd1⟩ := forall₂_mem_left hds (a := d1) (by simp [hd])
    obtain ⟨p, _, rfl⟩ := (resetSoc_ok hd1).2 (by simp [Device.isStorage, k1])
    obtain ⟨d', _, hst⟩ := forall₂_mem_left I.solve.step hdm
    simp [Sim.stepDevice, Device.isLoad, Device.isNonSlackGen, Device.isGen, Device.isStorage, k1, bind_ok,
      Device.mapStorage, Device.storageConstraints, k3, hdt, X.pyDiv, guardE_ok] at hst

end Anm
