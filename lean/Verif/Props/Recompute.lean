import Verif.Props.BaseEx
import Verif.Props.VarsFlow
import Verif.Props.EnvObs
import Verif.Props.Totals

/-! # C148: the rewards can be recomputed from the returned state -/

set_option linter.unusedSectionVars false

namespace Anm

open Spec

variable {K : Type} [Field K] [LinearOrder K] [IsStrictOrderedRing K] [FloorRing K]

namespace Spec

/-- A number read from the returned state. -/
def shown (st : SimState K) (k : Key) (u : QUnit) (i : Ident) : X K := (reading st k u i).getD .nan

/-- What a device adds to the energy loss, per hour: what it injects, unless it is a storage unit, and what a renewable generator could
have produced but did not. -/
def lossTerms (st : SimState K) (u : QUnit) (d : Device K) : List (X K) :=
  (if d.kind = .storage then [] else [shown st .devP u (.node d.id)]) ++
    if d.kind = .renewable then [X.maximum 0 (shown st .genPMax u (.node d.id) - shown st .devP u (.node d.id))] else []

/-- The energy loss per hour of the devices `ds`, from the powers in the state, in the unit `u`. -/
def lossFrom (st : SimState K) (u : QUnit) (ds : List (Device K)) : X K := sumX (ds.flatMap (lossTerms st u))

/-- By how much the voltage of a bus is outside its limits. -/
def voltageExcess (st : SimState K) (b : Bus K) : X K :=
  X.maximum 0 (shown st .busVMagn .pu (.node b.id) - b.vMax) + X.maximum 0 (b.vMin.getD .nan - shown st .busVMagn .pu (.node b.id))

/-- By how much a branch is overloaded. -/
def overload (st : SimState K) (b : Branch K) : X K :=
  X.maximum 0 (X.abs (shown st .branchS .pu (.br b.line.fBus b.line.tBus)) - b.line.rate)

/-- All excessSum of limits in the state. -/
def excessSum (st : SimState K) (s : Sim K) : X K := sumX (s.buses.map (voltageExcess st) ++ s.branches.map (overload st))

end Spec

variable {n : Network K} {dt lam : X K} {s s' : Sim K} {c : Ctx K} {a : Sim.Args K} {out : Sim.TransOut K} {base : K}

theorem foldl_flatMap {β : Type} (f : β → List (X K)) (g : X K → β → X K) (h : ∀ e d, g e d = (f d).foldl (· + ·) e) :
    ∀ (l : List β) (e : X K), l.foldl g e = (l.flatMap f).foldl (· + ·) e
  | [], _ => rfl
  | d :: l, e => by rw [List.foldl_cons, List.flatMap_cons, List.foldl_append, h, foldl_flatMap f g h l]

theorem foldl_congr_mem {α β : Type} {f g : β → α → β} : ∀ {l : List α} {e : β}, (∀ d ∈ l, ∀ e, f e d = g e d) → l.foldl f e = l.foldl g e
  | [], _, _ => rfl
  | d :: l, e, h => by
    rw [List.foldl_cons, List.foldl_cons, h d (by simp), foldl_congr_mem fun d' hd' => h d' (by simp [hd'])]

theorem sumX_sc (k : K) : ∀ (l : List (X K)), X.sc k (sumX l) = sumX (l.map (X.sc k)) := by
  intro l
  have : ∀ (l : List (X K)) (e : X K), X.sc k (l.foldl (· + ·) e) = (l.map (X.sc k)).foldl (· + ·) (X.sc k e) := by
    intro l
    induction l with
    | nil => intro e; rfl
    | cons a l ih => intro e; rw [List.foldl_cons, ih, List.map_cons, List.foldl_cons, X.sc_add]
  rw [sumX, sumX, this, X.sc_zero]

/-- **C148, the energy loss.** It is the time step times the losses that the powers of the returned state show, in p.u.; multiplied by the base
power, it is what the powers in MW show. -/
theorem C148_energy_partial (hn : CleanFile n base) (hs : SimOf n dt lam s) (h : s.transition c a = .ok (s', out)) :
    ∃ st, s'.state = some st ∧ out.eLoss = lossFrom st .pu s'.devices * dt ∧ out.eLoss * .fin base = lossFrom st .mw s'.devices * dt := by
  obtain ⟨ds, o, I⟩ := transition_ok h
  obtain ⟨st, hg, hst⟩ := I.state
  have hs' := simOf_transition hs h
  have hb := basePos_of_simOf hn hs
  have hbase : s'.baseMVA = .fin base := (simOf_base hs').1.trans hn.base
  have hdt : s'.deltaT = dt := (simOf_base hs').2.1
  have hr := I.reward
  simp only [Sim.computeReward, bind_ok, pure_ok, Prod.mk.injEq] at hr
  obtain ⟨bp, -, -, he, -⟩ := hr
  have hread : ∀ d ∈ s'.devices, shown st .devP .mw (.node d.id) = X.sc base d.p ∧ shown st .devP .pu (.node d.id) = d.p ∧
      (d.kind = .renewable → shown st .genPMax .mw (.node d.id) = X.sc base d.pPot ∧ shown st .genPMax .pu (.node d.id) = d.pPot) := by
    intro d hd
    obtain ⟨h1, h2⟩ := dev_reading hg (simOf_sorted hs') hd
    have q1 := C38_power_units (k := .devP) (u := .mw) hg (by simp [powerUnits]) (.node d.id)
    have q2 := C38_power_units (k := .genPMax) (u := .mw) hg (by simp [powerUnits]) (.node d.id)
    rw [hbase, ← X.sc_eq_mul hb] at h1
    have cancel : ∀ {r : Option (X K)} {x : X K}, r.map (· * .fin base) = some (X.sc base x) → r = some x := by
      intro r x hx
      rw [Option.map_eq_some_iff] at hx
      obtain ⟨y, hy, e⟩ := hx
      rw [← X.sc_eq_mul hb, X.sc_inj hb] at e
      rw [hy, e]
    rw [hbase] at q1 q2
    refine ⟨by rw [shown, h1]; rfl, by rw [shown, cancel (q1.symm.trans h1)]; rfl, fun hk => ?_⟩
    have hns : d.isNonSlackGen = true := by
      have : d.isSlack = false := by
        by_contra hc
        have := slack_kind hs' hd (by simpa using hc)
        rw [this] at hk
        cases hk
      simp [Device.isNonSlackGen, Device.isGen, hk, this]
    have h2 := h2 hns
    rw [hbase, ← X.sc_eq_mul hb] at h2
    exact ⟨by rw [shown, h2]; rfl, by rw [shown, cancel (q2.symm.trans h2)]; rfl⟩
  have e1 : out.eLoss = lossFrom st .pu s'.devices * dt := by
    rw [← he, hdt]
    congr 1
    rw [lossFrom, sumX, ← foldl_flatMap (lossTerms st .pu) (fun e d => (lossTerms st .pu d).foldl (· + ·) e) (fun _ _ => rfl)]
    refine foldl_congr_mem fun d hd e => ?_
    obtain ⟨-, p1, p2⟩ := hread d hd
    unfold Sim.eLossStep lossTerms
    rw [p1]
    cases hk : d.kind <;> simp [Device.isGen, Device.isLoad, Device.isRenewable, hk]
    rw [(p2 hk).2]
  refine ⟨st, hst, e1, ?_⟩
  rw [e1, ← X.sc_eq_mul hb, ← X.sc_mul hb]
  congr 1
  rw [lossFrom, lossFrom, sumX_sc, List.map_flatMap]
  congr 1
  refine List.flatMap_congr fun d hd => ?_
  obtain ⟨p0, p1, p2⟩ := hread d hd
  unfold lossTerms
  rw [p0, p1, List.map_append]
  congr 1
  · split_ifs <;> rfl
  · split_ifs with hk
    · rw [(p2 hk).1, (p2 hk).2, ← X.sc_sub, X.sc_max_zero hb]; rfl
    · rfl

/-- **C148, the penalty.** It is the weight times the time step times the excessSum that the voltages and apparent powers of the returned state
show; the reward is minus the sum of energy loss and penalty. -/
theorem C148_penalty (hs : SimOf n dt lam s) (h : s.transition c a = .ok (s', out)) :
    ∃ st, s'.state = some st ∧ out.penalty = excessSum st s' * (dt * lam) ∧ out.reward = -(out.eLoss + out.penalty) := by
  obtain ⟨ds, o, I⟩ := transition_ok h
  obtain ⟨st, hg, hst⟩ := I.state
  have hs' := simOf_transition hs h
  have hdt : s'.deltaT = dt := (simOf_base hs').2.1
  have hlam : s'.lamb = lam := (simOf_base hs').2.2
  have hr := I.reward
  simp only [Sim.computeReward, bind_ok, pure_ok, Prod.mk.injEq] at hr
  obtain ⟨bp, hbp, h1, h2, h3⟩ := hr
  refine ⟨st, hst, ?_, by rw [← h1, ← h2, ← h3]⟩
  rw [← h3, hdt, hlam]
  congr 1
  simp only [Sim.gatherState, bind_ok, pure_ok] at hg
  obtain ⟨soc, hsoc, hste⟩ := hg
  have R1 : ∀ i, reading st .busVMagn .pu i = Dict.get? (s'.buses.map fun b => (Ident.node b.id, b.v.abs)) i := by
    rw [← hste]; intro; rfl
  have R2 : ∀ i, reading st .branchS .pu i = Dict.get? (s'.branches.map fun b => (Ident.br b.line.fBus b.line.tBus, b.flow.sApparentMax)) i := by
    rw [← hste]; intro; rfl
  have hbi : ∀ x ∈ s'.buses, ∀ y ∈ s'.buses, x.id = y.id → x = y := fun x hx y hy e => by
    have hnd : (s'.buses.map Bus.id).Nodup := by
      rw [List.Nodup, List.pairwise_map]
      exact (simOf_bus_sorted hs').imp fun h => h.ne
    exact List.inj_on_of_nodup_map hnd hx hy e
  have hv : ∀ b ∈ s'.buses, shown st .busVMagn .pu (.node b.id) = b.v.abs := by
    intro b hb
    rw [shown, R1, get?_of_mem hbi hb]; rfl
  have hnb := simOf_branch_nodup hs'
  have hf : ∀ b ∈ s'.branches, shown st .branchS .pu (.br b.line.fBus b.line.tBus) = b.flow.sApparentMax := by
    intro b hb
    rw [shown, R2, get?_map s'.branches (fun b => Ident.br b.line.fBus b.line.tBus) (fun b => b.flow.sApparentMax)]
    obtain ⟨b', hb'⟩ : ∃ b', s'.branches.find? (fun y => decide (Ident.br y.line.fBus y.line.tBus = Ident.br b.line.fBus b.line.tBus)) = some b' := by
      rw [← Option.isSome_iff_exists, List.find?_isSome]
      exact ⟨b, hb, by simp⟩
    have e := List.find?_some hb'
    simp only [decide_eq_true_eq, Ident.br.injEq] at e
    have : b' = b := List.inj_on_of_nodup_map hnb (List.mem_of_find?_eq_some hb') hb (by rw [e.1, e.2])
    rw [hb', this]
    rfl
  have e1 : bp = s'.buses.map (voltageExcess st) := by
    have F := mapE_ok.1 hbp
    clear hbp h1 h2 h3 hbi R1
    revert hv F
    generalize s'.buses = L
    intro hv F
    induction F with
    | nil => rfl
    | @cons b x l l' hx _ ih =>
      rw [List.map_cons, ih fun b hb => hv b (by simp [hb])]
      congr 1
      unfold Sim.busPenalty at hx
      unfold voltageExcess
      rw [hv b (by simp)]
      cases hm : b.vMin with
      | none => rw [hm] at hx; cases hx
      | some m => rw [hm] at hx; cases hx; rfl
  rw [excessSum, sumX, List.foldl_append, List.foldl_map (l := s'.branches), e1]
  refine foldl_congr_mem fun b hb e => ?_
  rw [overload, hf b hb]
  rfl

/-- The hypotheses are met by a time step with losses and a violated voltage limit. -/
example : ∃ s0 s1 s2 b out, mkSim demoNet (.fin (1 / 4)) (.fin 100) = .ok s0 ∧ SimOf demoNet (.fin (1 / 4)) (.fin 100) s1 ∧
    s1.transition ⟨demoQP, flowPF 2 0, 22 / 7⟩ (demoArgs (-40)) = .ok (s2, out) ∧ s0.reset ⟨demoQP, flowPF 2 0, 22 / 7⟩ demoInit = .ok (s1, b) ∧
    out.eLoss = .fin (3 / 80) ∧ out.penalty = .fin 70 := by
  obtain ⟨x, h, h1, h2⟩ := exOk (r := unitsDemo demoNet 2) (P := fun x => x.2.eLoss = .fin (3/80) ∧ x.2.penalty = .fin 70) (by decide +kernel)
  simp only [unitsDemo, bind_ok] at h
  obtain ⟨s0, h0, ⟨s1, b⟩, hr, ht⟩ := h
  exact ⟨s0, s1, x.1, b, x.2, h0, ⟨s0, h0, sameConfig_reset hr⟩, ht, hr, h1, h2⟩

/-- **C148 is false as documented** (`simulator.py:493-494`: `e_loss` in MWh): a time step of the demonstration network, with a base power of
100 MVA, loses 3.75 MWh, but `e_loss` is 0.0375. -/
theorem C148_counterexample : ∃ x st, unitsDemo demoNet 1 = .ok x ∧ x.1.state = some st ∧
    lossFrom st .mw x.1.devices * .fin (1 / 4) = .fin (15 / 4) ∧ x.2.eLoss = .fin (3 / 80) := by
  have : ∃ x, unitsDemo demoNet 1 = .ok x ∧ ((x.1.state.map fun st => lossFrom st .mw x.1.devices * .fin (1 / 4)) = some (.fin (15 / 4)) ∧
      x.2.eLoss = .fin (3 / 80)) := exOk (by decide +kernel)
  obtain ⟨x, h1, h2, h3⟩ := this
  rw [Option.map_eq_some_iff] at h2
  obtain ⟨st, h4, h5⟩ := h2
  exact ⟨x, st, h1, h4, h5, h3⟩

end Anm
