import Verif.Props.Separate
import Verif.Props.Energy
import Verif.Props.Turned

/-! # C139: the grid only sees the total power at each bus -/

set_option linter.unusedSectionVars false

namespace Anm

open Spec

namespace Spec
variable {K : Type} [Field K] [LinearOrder K]

/-- Two simulators with the same buses and branches, the same base power, time step and penalty factor; the devices may differ in
every respect, hence also the limits of the buses that are computed from them. -/
structure SameGrid (s u : Sim K) : Prop where
  base : u.baseMVA = s.baseMVA
  dt : u.deltaT = s.deltaT
  lamb : u.lamb = s.lamb
  buses : List.Forall₂ (fun b b' : Bus K => b'.id = b.id ∧ b'.isSlack = b.isSlack ∧ b'.baseKV = b.baseKV ∧ b'.vMin = b.vMin ∧
    b'.vMax = b.vMax) s.buses u.buses
  branches : List.Forall₂ (fun b b' : Branch K => b'.line = b.line) s.branches u.branches

/-- The total over the devices at bus `i`, without the slack device. -/
def totalAt (s : Sim K) (f : Device K → X K) (i : ℤ) : X K :=
  sumX ((s.devices.filter fun d => decide (d.busId = i) && !d.isSlack).map f)

/-- At every bus, the devices together inject the same active and reactive power. -/
def SameTotals (s u : Sim K) : Prop :=
  ∀ b ∈ s.buses, totalAt u Device.p b.id = totalAt s Device.p b.id ∧ totalAt u Device.q b.id = totalAt s Device.q b.id

/-- The quantities of buses and branches. -/
def gridKeys : List Key :=
  [.busP, .busQ, .busVMagn, .busVAng, .busIMagn, .busIAng, .branchP, .branchQ, .branchS, .branchIMagn, .branchIAng]

/-- The states say the same about all buses and branches, in every unit. -/
def SameGridReadings (st st' : SimState K) : Prop := ∀ key ∈ gridKeys, ∀ u i, reading st' key u i = reading st key u i

end Spec

section
variable {K : Type} [Field K] [LinearOrder K] [IsStrictOrderedRing K] [FloorRing K]

/-- A bus without the limits computed from its devices. -/
def Bus.plain (b : Bus K) : Bus K := { b with pMin := .nan, pMax := .nan, qMin := .nan, qMax := .nan }

theorem X.add_zero' (x : X K) : x + 0 = x := by cases x <;> simp [X.zero_def] <;> rfl

theorem sum_without {f : Device K → X K} {l : List (Device K)} {q r : Device K → Bool} (h : ∀ d ∈ l, q d = true → r d = false → f d = 0) (x : X K) :
    (l.filter q).foldl (fun a d => a + f d) x = (l.filter fun d => q d && r d).foldl (fun a d => a + f d) x := by
  induction l generalizing x with
  | nil => rfl
  | cons d l ih =>
    have ih := ih fun e he => h e (List.mem_cons_of_mem _ he)
    rw [List.filter_cons, List.filter_cons]
    cases hq : q d with
    | false => simpa using ih x
    | true =>
      cases hr : r d with
      | false =>
        simp only [if_true, Bool.and_false, Bool.false_eq_true, if_false, List.foldl_cons]
        rw [h d (by simp) hq hr, X.add_zero']
        exact ih x
      | true => simpa using ih _

theorem slack_kind {n : Network K} {dt lam : X K} {s : Sim K} {d : Device K} (hs : SimOf n dt lam s) (hd : d ∈ s.devices) (h : d.isSlack = true) :
    d.kind = .classical := by
  obtain ⟨r, -, ids, d0, hm, hc⟩ := simOf_device hs hd
  have e1 : d.isSlack = d0.isSlack := hc.classes.1
  have e2 : d.kind = d0.kind := by rw [hc]
  rw [e1] at h
  rw [e2]
  cases mkDevice_class hm <;> simp_all

theorem stepped_slack {qp : QP K} {base dt : X K} {a : Sim.Args K} {d d' : Device K} (h : StepRel qp base dt a d d') (hk : d.kind = .classical)
    (hs : d'.isSlack = true) : d'.p = 0 ∧ d'.q = 0 := by
  have hs0 : d.isSlack = true := by rw [← hs, h.same]
  have hk : d.isLoad = false ∧ d.isNonSlackGen = false ∧ d.isStorage = false := by
    unfold Device.isLoad Device.isNonSlackGen Device.isGen Device.isStorage
    simp_all
  cases h with
  | slack => exact ⟨rfl, rfl⟩
  | load x h1 => simp_all
  | gen _ _ _ _ _ h1 => simp_all
  | storage _ _ _ _ _ _ h1 => simp_all
  | none h1 h2 h3 h4 => simp_all

variable {n m : Network K} {dt lam lam₂ : X K} {c c₂ : Ctx K} {s s' u u' : Sim K} {a a₂ : Sim.Args K} {out out₂ : Sim.TransOut K}

/-- What the load flow is given at a bus is the total of the devices at the end of the time step. -/
theorem injected_total {ds : List (Device K)} {o : PFOut K} (hs : SimOf n dt lam s) (I : TransInv c s a ds o s' out) (b : Bus K) :
    (Sim.busInjections ds b).p = totalAt s' Device.p b.id ∧ (Sim.busInjections ds b).q = totalAt s' Device.q b.id := by
  have z : ∀ d ∈ ds, d.isSlack = true → d.p = 0 ∧ d.q = 0 := by
    intro d hd hsl
    obtain ⟨d0, h0, hst⟩ := forall₂_mem_right I.solve.step hd
    have hst := stepDevice_ok hst
    refine stepped_slack hst (slack_kind hs h0 ?_) hsl
    rw [← hsl, hst.same]
  have hf := I.solve.apply.devices
  simp only at hf
  have key : ∀ f : Device K → X K, (∀ d ∈ ds, d.isSlack = true → f d = 0) →
      (ds.filter fun d => d.busId = b.id).foldl (fun a d => a + f d) 0 = totalAt s' f b.id := by
    intro f hz
    rw [sum_without (r := fun d => !d.isSlack) (fun d hd _ hr => hz d hd (by simpa using hr))]
    unfold totalAt sumX
    rw [List.foldl_map]
    congr 1
    clear z hz I
    generalize s'.devices = l at hf
    induction hf with
    | nil => rfl
    | @cons d d' l l' hd _ ih =>
      rw [List.filter_cons, List.filter_cons, ih]
      cases hs : d.isSlack with
      | false => rw [hd.1 hs, hs]
      | true =>
        obtain ⟨b', -, e⟩ := hd.2 hs
        have : d'.isSlack = true := by rw [e]; exact hs
        simp [this]
  exact ⟨key _ fun d hd h => (z d hd h).1, key _ fun d hd h => (z d hd h).2⟩

theorem penalties_plain (l : List (Bus K)) : mapE Sim.busPenalty (l.map Bus.plain) = mapE Sim.busPenalty l := by
  induction l with
  | nil => rfl
  | cons b l ih =>
    simp only [List.map_cons, mapE, ih]
    rfl

/-- The electrical quantities of two simulators are the same. -/
structure SameElec (s u : Sim K) : Prop where
  base : u.baseMVA = s.baseMVA
  buses : u.buses.map Bus.plain = s.buses.map Bus.plain
  branches : u.branches = s.branches

theorem sameElec_readings {pi : K} {st st' : SimState K} (h : SameElec s u) (hg : s.gatherState pi = .ok st) (hg' : u.gatherState pi = .ok st') :
    SameGridReadings st st' := by
  have B : ∀ f : Bus K → X K, (∀ b, f b.plain = f b) → u.buses.map (fun b => (Ident.node b.id, f b)) = s.buses.map (fun b => (Ident.node b.id, f b)) := by
    intro f hf
    have e : ∀ l : List (Bus K), l.map (fun b => (Ident.node b.id, f b)) = (l.map Bus.plain).map (fun b => (Ident.node b.id, f b)) := by
      intro l
      rw [List.map_map]
      refine List.map_congr_left fun b _ => ?_
      simp only [Function.comp, hf]
      rfl
    exact (e _).trans ((congrArg _ h.buses).trans (e _).symm)
  simp only [Sim.gatherState, bind_ok, pure_ok] at hg hg'
  obtain ⟨soc, h1, rfl⟩ := hg
  obtain ⟨soc', h2, rfl⟩ := hg'
  rw [h.base, h.branches]
  intro key hk v i
  simp only [gridKeys, List.mem_cons, List.not_mem_nil, or_false] at hk
  rcases hk with rfl | rfl | rfl | rfl | rfl | rfl | rfl | rfl | rfl | rfl | rfl
  · exact two_units (by rw [B (fun b => b.p) fun _ => rfl]) (by rw [B (fun b => b.p * s.baseMVA) fun _ => rfl])
  · exact two_units (by rw [B (fun b => b.q) fun _ => rfl]) (by rw [B (fun b => b.q * s.baseMVA) fun _ => rfl])
  · exact two_units (by rw [B (fun b => b.v.abs) fun _ => rfl]) (by rw [B (fun b => b.v.abs * b.baseKV) fun _ => rfl])
  · exact two_units (by rw [B (fun b => b.v.ang) fun _ => rfl]) (by rw [B (fun b => b.v.ang * .fin 180 / .fin pi) fun _ => rfl])
  · exact two_units (by rw [B (fun b => b.i.abs) fun _ => rfl]) (by rw [B (fun b => b.i.abs * s.baseMVA / b.baseKV) fun _ => rfl])
  · exact two_units (by rw [B (fun b => b.i.ang) fun _ => rfl]) (by rw [B (fun b => b.i.ang * .fin 180 / .fin pi) fun _ => rfl])
  all_goals rfl

theorem mapIdx_rel {α β γ : Type} {R : α → β → Prop} {l : List α} {l' : List β} {f : ℕ → α → γ} {g : ℕ → β → γ} (h : List.Forall₂ R l l')
    (hfg : ∀ k x y, R x y → g k y = f k x) : l'.mapIdx g = l.mapIdx f := by
  induction h generalizing f g with
  | nil => rfl
  | cons h _ ih =>
    rw [List.mapIdx_cons, List.mapIdx_cons, hfg 0 _ _ h]
    congr 1
    exact ih fun k x y h => hfg (k + 1) x y h

theorem map_mapIdx_map {α β γ δ : Type} (l : List α) (f : α → β) (g : ℕ → β → γ) (φ : γ → δ) :
    ((l.map f).mapIdx g).map φ = l.mapIdx fun k x => φ (g k (f x)) := by
  induction l generalizing g with
  | nil => rfl
  | cons x l ih =>
    rw [List.map_cons, List.mapIdx_cons, List.map_cons, List.mapIdx_cons, ih]

theorem forall₂_both {α β : Type} {R S : α → β → Prop} {l : List α} {l' : List β} (h : List.Forall₂ R l l') (h' : List.Forall₂ S l l') :
    List.Forall₂ (fun x y => R x y ∧ S x y) l l' := by
  induction h with
  | nil => exact .nil
  | cons h _ ih =>
    cases h' with
    | cons g gs => exact .cons ⟨h, g⟩ (ih gs)

/-- The electrical quantities after two time steps with the same results of the load flow. -/
theorem sameElec_of_input {ds ds₂ : List (Device K)} {o : PFOut K} (hg : SameGrid s u) (I : TransInv c s a ds o s' out)
    (I₂ : TransInv c₂ u a₂ ds₂ o u' out₂)
    (hin : List.Forall₂ (fun b b' : Bus K => b.isSlack = false → (Sim.busInjections ds₂ b').p = (Sim.busInjections ds b).p ∧
      (Sim.busInjections ds₂ b').q = (Sim.busInjections ds b).q) s.buses u.buses) :
    SameElec s' u' := by
  refine ⟨?_, ?_, ?_⟩
  · rw [I.solve.apply.base, I₂.solve.apply.base]; exact hg.base
  · rw [I.solve.apply.buses, I₂.solve.apply.buses]
    rw [map_mapIdx_map, map_mapIdx_map]
    refine mapIdx_rel (forall₂_both hg.buses hin) fun k b b' h => ?_
    obtain ⟨⟨h1, h2, h3, h4, h5⟩, h6⟩ := h
    simp only [Bus.plain, Sim.busInjections] at h6 ⊢
    rw [Bus.mk.injEq]
    refine ⟨h1, h2, h3, h5, h4, rfl, rfl, rfl, rfl, ?_, ?_, rfl, rfl⟩
    · by_cases hb : b.isSlack = true
      · exact (if_pos (h2.trans hb)).trans (if_pos hb).symm
      · exact (if_neg (by rw [← h2] at hb; exact hb)).trans ((h6 (by simpa using hb)).1.trans (if_neg hb).symm)
    · by_cases hb : b.isSlack = true
      · exact (if_pos (h2.trans hb)).trans (if_pos hb).symm
      · exact (if_neg (by rw [← h2] at hb; exact hb)).trans ((h6 (by simpa using hb)).2.trans (if_neg hb).symm)
  · rw [I.solve.apply.branches, I₂.solve.apply.branches]
    exact mapIdx_rel hg.branches fun k b b' h => by rw [← h]

theorem sameElec_penalty (h : SameElec s u) (hd : u.deltaT = s.deltaT) (hl : u.lamb = s.lamb) {r e p r' e' p' : X K}
    (hs : s.computeReward = .ok (r, e, p)) (hu : u.computeReward = .ok (r', e', p')) : p' = p := by
  simp only [Sim.computeReward, bind_ok, pure_ok, Prod.mk.injEq] at hs hu
  obtain ⟨bp, h1, -, -, h2⟩ := hs
  obtain ⟨bp', h1', -, -, h2'⟩ := hu
  rw [← penalties_plain, h.buses, penalties_plain, h1] at h1'
  cases h1'
  rw [← h2, ← h2', h.branches, hd, hl]

theorem sameGrid_of (E : SameElec s u) (h1 : u.deltaT = s.deltaT) (h2 : u.lamb = s.lamb) : SameGrid s u := by
  refine ⟨E.base, h1, h2, ?_, ?_⟩
  · have := E.buses
    rw [← List.forall₂_eq_eq_eq, List.forall₂_map_left_iff, List.forall₂_map_right_iff] at this
    refine this.flip.imp fun b b' h => ?_
    refine ⟨?_, ?_, ?_, ?_, ?_⟩
    · have := congrArg (fun x : Bus K => x.id) h; exact this
    · have := congrArg (fun x : Bus K => x.isSlack) h; exact this
    · have := congrArg (fun x : Bus K => x.baseKV) h; exact this
    · have := congrArg (fun x : Bus K => x.vMin) h; exact this
    · have := congrArg (fun x : Bus K => x.vMax) h; exact this
  · rw [E.branches]
    exact List.forall₂_same.2 fun _ _ => rfl

theorem sameElec_of_totals (hs : SimOf n dt lam s) (hu : SimOf m dt lam₂ u) (hg : SameGrid s u) (hpf : c₂.pf = c.pf)
    (h : s.transition c a = .ok (s', out)) (h₂ : u.transition c₂ a₂ = .ok (u', out₂)) (ht : SameTotals s' u') :
    SameElec s' u' ∧ u'.deltaT = s'.deltaT ∧ u'.lamb = s'.lamb ∧ out₂.converged = out.converged := by
  obtain ⟨ds, o, I⟩ := transition_ok h
  obtain ⟨ds₂, o₂, I₂⟩ := transition_ok h₂
  have hin : List.Forall₂ (fun b b' : Bus K => (b'.id = b.id ∧ b'.isSlack = b.isSlack) ∧ (Sim.busInjections ds₂ b').p = (Sim.busInjections ds b).p ∧
      (Sim.busInjections ds₂ b').q = (Sim.busInjections ds b).q) s.buses u.buses := by
    refine forall₂_mono_mem hg.buses fun b hb b' hbb => ?_
    obtain ⟨b1, hb1, e⟩ := forall₂_mem_left (sameConfig_transition h).buses hb
    have e : b1.id = b.id := by rw [e]
    obtain ⟨k1, k2⟩ := injected_total hs I b
    obtain ⟨k3, k4⟩ := injected_total hu I₂ b'
    obtain ⟨t1, t2⟩ := ht b1 hb1
    rw [k1, k2, k3, k4, hbb.1, ← e]
    exact ⟨⟨rfl.trans (by rw [e]), hbb.2.1⟩, t1, t2⟩
  have hlines : u.branches.map (·.line) = s.branches.map (·.line) := by
    have := hg.branches
    generalize s.branches = l at this
    generalize u.branches = l' at this
    induction this with
    | nil => rfl
    | cons h _ ih => rw [List.map_cons, List.map_cons, h, ih]
  have hpfin : Sim.pfIn { u with devices := ds₂, buses := u.buses.map (Sim.busInjections ds₂) } =
      Sim.pfIn { s with devices := ds, buses := s.buses.map (Sim.busInjections ds) } := by
    unfold Sim.pfIn
    simp only [hlines, List.map_map, PFIn.mk.injEq, and_true]
    clear hs hu h h₂ I I₂ ht
    generalize s.buses = l at hin
    generalize u.buses = l' at hin
    induction hin with
    | nil => rfl
    | @cons b b' l l' hb _ ih =>
      obtain ⟨⟨e1, e2⟩, e3, e4⟩ := hb
      rw [List.map_cons, List.map_cons, ih]
      congr 1
      simp only [Function.comp, e3, e4]
      rw [show (Sim.busInjections ds₂ b').id = b'.id from rfl, show (Sim.busInjections ds₂ b').isSlack = b'.isSlack from rfl, e1, e2]
      rfl
  have ho := I₂.solve.pf
  rw [hpf, hpfin, I.solve.pf] at ho
  cases ho
  have E := sameElec_of_input hg I I₂ (hin.imp fun b b' h _ => h.2)
  have d1 : u'.deltaT = s'.deltaT := by rw [I.solve.apply.dt, I₂.solve.apply.dt]; exact hg.dt
  have d2 : u'.lamb = s'.lamb := by rw [I.solve.apply.lamb, I₂.solve.apply.lamb]; exact hg.lamb
  exact ⟨E, d1, d2, by rw [I.converged, I₂.converged]⟩

/-- **C139, one time step.** Two simulators with the same buses and branches — whatever their devices — take a time step, perhaps with different
arguments.  If afterwards the devices at each bus together inject the same power, then all that is reported about buses and branches is the
same, and so are the penalty and the flag that tells whether the load flow converged. -/
theorem C139_totals (hs : SimOf n dt lam s) (hu : SimOf m dt lam₂ u) (hg : SameGrid s u) (hpf : c₂.pf = c.pf) (hpi : c₂.pi = c.pi)
    (h : s.transition c a = .ok (s', out)) (h₂ : u.transition c₂ a₂ = .ok (u', out₂)) (ht : SameTotals s' u') :
    SameGrid s' u' ∧ out₂.converged = out.converged ∧ out₂.penalty = out.penalty ∧
      ∃ st st', s'.state = some st ∧ u'.state = some st' ∧ SameGridReadings st st' := by
  obtain ⟨E, d1, d2, hc⟩ := sameElec_of_totals hs hu hg hpf h h₂ ht
  obtain ⟨ds, o, I⟩ := transition_ok h
  obtain ⟨ds₂, o₂, I₂⟩ := transition_ok h₂
  obtain ⟨st, g1, g2⟩ := I.state
  obtain ⟨st', g3, g4⟩ := I₂.state
  refine ⟨sameGrid_of E d1 d2, hc, sameElec_penalty E d1 d2 I.reward I₂.reward, st, st', g2, g4, ?_⟩
  rw [hpi] at g3
  exact sameElec_readings E g1 g3

/-! ### Splitting a load -/

theorem X.add_comm' (x y : X K) : x + y = y + x := by
  cases x <;> cases y <;> first | rfl | (simp only [X.fin_add_fin, add_comm])

theorem X.add_assoc' (x y z : X K) : x + y + z = x + (y + z) := by
  cases x <;> cases y <;> cases z <;> first | rfl | (simp only [X.fin_add_fin, add_assoc])

instance : RightCommutative (fun x y : X K => x + y) := ⟨fun x y z => by simp only [X.add_assoc', X.add_comm' y z]⟩

theorem sumX_perm {l l' : List (X K)} (h : l.Perm l') : sumX l = sumX l' := h.foldl_eq 0

theorem eLoss_add (x : X K) (d : Device K) : Sim.eLossStep x d = x + Sim.eLossStep 0 d := by
  unfold Sim.eLossStep
  have z : ∀ x : X K, 0 + x = x := fun x => (X.add_comm' 0 x).trans (X.add_zero' x)
  split_ifs <;> simp only [X.add_assoc', X.add_zero', z]

instance : RightCommutative (Sim.eLossStep (K := K)) :=
  ⟨fun x d e => by rw [eLoss_add (Sim.eLossStep x d) e, eLoss_add x d, eLoss_add (Sim.eLossStep x e) d, eLoss_add x e, X.add_assoc', X.add_assoc', X.add_comm' (Sim.eLossStep 0 d)]⟩

end

end Anm
