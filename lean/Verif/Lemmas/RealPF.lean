import Verif.Lemmas.LoadFlow
import Verif.Lemmas.Transition
import Verif.Props.LoadCase

/-! # The load flow inside a transition -/

set_option linter.unusedSectionVars false

namespace Anm

open Spec Complex ComplexConjugate

theorem foldl_max_range (m : ℕ) : ((List.range (m + 1)).map Int.ofNat).foldl max 0 = (m : ℤ) := by
  induction m with
  | zero => simp
  | succ m ih =>
    rw [List.range_succ, List.map_append, List.foldl_append, ih]
    simp

theorem get_id {α : Type} {l : List α} {id : α → ℤ} {m : ℕ} (h : l.map id = (List.range (m + 1)).map Int.ofNat)
    {k : ℕ} {a : α} (hk : l[k]? = some a) : id a = k ∧ k < m + 1 := by
  have h1 : (l.map id)[k]? = some (id a) := by simp [hk]
  rw [h] at h1
  simp only [List.getElem?_map, Option.map_eq_some_iff] at h1
  obtain ⟨j, hj, e⟩ := h1
  rw [List.getElem?_eq_some_iff] at hj
  obtain ⟨hlt, hj⟩ := hj
  simp at hlt hj
  subst hj
  exact ⟨e.symm, by omega⟩

theorem length_of_ids {α : Type} {l : List α} {id : α → ℤ} {m : ℕ}
    (h : l.map id = (List.range (m + 1)).map Int.ofNat) : l.length = m + 1 := by
  simpa using congrArg List.length h

theorem mem_get_id {α : Type} {l : List α} {id : α → ℤ} {m : ℕ}
    (h : l.map id = (List.range (m + 1)).map Int.ofNat) {a : α} (ha : a ∈ l) :
    ∃ k : ℕ, l[k]? = some a ∧ id a = k ∧ k < m + 1 := by
  obtain ⟨k, hk⟩ := List.mem_iff_getElem?.1 ha
  exact ⟨k, hk, get_id h hk⟩

/-- What `realPF` computes on a network with buses `0, ..., m`, slack bus 0 and finite lines. -/
theorem realPF_numbered (o : LFOracle) {inp : PFIn ℝ} {m : ℕ} {ls : List LineC}
    (h1 : inp.buses.map (·.1) = (List.range (m + 1)).map Int.ofNat) (hm : 1 ≤ m)
    (h2 : ∀ b ∈ inp.buses, b.2.1 = true ↔ b.1 = 0) (h3 : mapO Line.finite? inp.lines = some ls) :
    ∃ pq : Fin m → X ℝ × X ℝ, realPF o inp = .ok (solveFinite o inp m pq ls) ∧
      ∀ (k : Fin m) b, inp.buses[k.1 + 1]? = some b → pq k = b.2.2 := by
  classical
  have hlen := length_of_ids h1
  have hpq : (inp.buses.filter (fun b => !b.2.1)).map (fun b => (b.2.2.1, b.2.2.2)) =
      (inp.buses.drop 1).map (fun b => b.2.2) := by
    cases hb : inp.buses with
    | nil => simp [hb] at hlen
    | cons b0 rest =>
      have e0 : b0.1 = 0 := (get_id h1 (k := 0) (by simp [hb])).1
      have hs0 : b0.2.1 = true := (h2 b0 (by simp [hb])).2 e0
      have hr : ∀ b ∈ rest, b.2.1 = false := by
        intro b hbr
        obtain ⟨k, hk⟩ := List.mem_iff_getElem?.1 hbr
        have := (get_id h1 (k := k + 1) (a := b) (by simp [hb, hk])).1
        cases hc : b.2.1 with
        | false => rfl
        | true =>
          have := (h2 b (by simp [hb, hbr])).1 hc
          omega
      rw [List.filter_cons, hs0]
      simp only [Bool.not_true, Bool.false_eq_true, if_false, List.drop_succ_cons, List.drop_zero]
      rw [List.filter_eq_self.2 (by intro b hb; simp [hr b hb])]
  have hids : (inp.buses.map (·.1)).foldl max ((inp.buses.map (·.1)).headD 0) + 1 =
      (inp.buses.length : ℤ) := by
    rw [h1, hlen]
    have : ((List.range (m + 1)).map Int.ofNat).headD 0 = 0 := by simp [List.range_succ_eq_map]
    rw [this, foldl_max_range]
    push_cast; rfl
  obtain rfl : m = inp.buses.length - 1 := by omega
  have hl : ((inp.buses.filter (fun b => !b.2.1)).map (fun b => (b.2.2.1, b.2.2.2))).length =
      inp.buses.length - 1 := by rw [hpq]; simp
  refine ⟨fun k => ((inp.buses.filter (fun b => !b.2.1)).map
    (fun b => (b.2.2.1, b.2.2.2))).get (k.cast hl.symm), ?_, ?_⟩
  · unfold realPF
    simp only [h3]
    rw [if_neg (by rw [hids]; simp), if_neg (by rw [h1, Nat.sub_add_cancel (by omega)]; simp),
      if_neg (by omega), dif_pos hl]
  · intro k b hb
    simp only [hpq, List.get_eq_getElem, Fin.val_cast]
    have : ((inp.buses.drop 1).map (fun b => b.2.2))[k.1]? = some b.2.2 := by
      rw [List.getElem?_map, List.getElem?_drop, add_comm 1 k.1, hb]; rfl
    exact (List.getElem?_eq_some_iff.1 this).2

theorem mapO_forall₂ {α β : Type} {f : α → Option β} {l : List α} {l' : List β} :
    mapO f l = some l' ↔ List.Forall₂ (fun a b => f a = some b) l l' := by
  induction l generalizing l' with
  | nil => cases l' <;> simp [mapO]
  | cons a l ih =>
    cases l' with
    | nil => simp only [mapO]; cases f a <;> cases mapO f l <;> simp
    | cons b l' =>
      rw [List.forall₂_cons, ← ih]
      simp only [mapO]
      cases f a <;> cases mapO f l <;> simp

theorem forall₂_mapIdx_right {α β γ : Type} {R : α → γ → Prop} {S : β → γ → Prop} {f : ℕ → α → β}
    {l : List α} {l' : List γ} (h : List.Forall₂ R l l')
    (hf : ∀ k a c, l[k]? = some a → l'[k]? = some c → R a c → S (f k a) c) :
    List.Forall₂ S (l.mapIdx f) l' := by
  induction h generalizing f with
  | nil => exact .nil
  | cons hab h ih =>
    rw [List.mapIdx_cons]
    refine .cons (hf 0 _ _ rfl rfl hab) (ih fun k a c h1 h2 hr => hf (k + 1) a c (by simpa using h1)
      (by simpa using h2) hr)

section
variable {o : LFOracle} {qp : QP ℝ} {pi : ℝ} {s s' : Sim ℝ} {a : Sim.Args ℝ} {out : Sim.TransOut ℝ} {m : ℕ}
  {ls : List LineC}

theorem volt_zero {m : ℕ} (g : Guess m) : NR.volt g 0 = 1 := rfl

/-- After a transition either the electrical state is that of a voltage vector, with the power-flow
equations satisfied if convergence is reported; or the iterations ran into non-finite numbers, and then
convergence is not reported and the slack bus is still at `1 + 0j`. -/
theorem transition_solved (hn : Numbered s m) (hl : FiniteLines s ls) (hs : SimpleLines ls)
    (he : EndsIn m ls) (h : s.transition ⟨qp, realPF o, pi⟩ a = .ok (s', out)) :
    (∃ V, Solved s' ls V ∧ (out.converged = true → Balanced xtol s' ls V)) ∨
    (out.converged = false ∧ ∀ b ∈ s'.buses, b.isSlack = true → b.v = .ofC 1) := by
  obtain ⟨ds, po, I⟩ := transition_ok h
  have P := I.solve.pf
  have A := I.solve.apply
  set s1 : Sim ℝ := { s with devices := ds, buses := s.buses.map (Sim.busInjections ds) } with hs1
  have hids : s1.pfIn.buses.map (·.1) = (List.range (m + 1)).map Int.ofNat := by
    rw [← hn.ids]
    simp [hs1, Sim.pfIn, Sim.busInjections, Function.comp_def]
  have hids1 : s1.buses.map Bus.id = (List.range (m + 1)).map Int.ofNat := by
    rw [← hn.ids]
    simp [hs1, Sim.busInjections, Function.comp_def]
  have hsl1 : ∀ b ∈ s1.buses, b.isSlack = true ↔ b.id = 0 := by
    intro b hb
    obtain ⟨b0, hb0, rfl⟩ := List.mem_map.1 hb
    exact hn.slack b0 hb0
  have hsl : ∀ b ∈ s1.pfIn.buses, b.2.1 = true ↔ b.1 = 0 := by
    intro b hb
    obtain ⟨b0, hb0, rfl⟩ := List.mem_map.1 hb
    exact hsl1 b0 hb0
  have hlin : mapO Line.finite? s1.pfIn.lines = some ls := by
    rw [mapO_forall₂]
    exact List.forall₂_map_left_iff.2 hl
  obtain ⟨pq, hpf, hpq⟩ := realPF_numbered o hids hn.pos hsl hlin
  have P' : realPF o s1.pfIn = .ok po := P
  rw [hpf] at P'
  injection P' with P'
  have hbus : ∀ b' ∈ s'.buses, ∃ (k : ℕ) (b : Bus ℝ), s1.buses[k]? = some b ∧ b.id = k ∧ k < m + 1 ∧ b' = { b with
      v := po.v k, i := po.i k
      p := if b.isSlack then Sim.nanToInf po.slackP else b.p
      q := if b.isSlack then Sim.nanToInf po.slackQ else b.q } := by
    intro b' hb'
    rw [A.buses] at hb'
    obtain ⟨k, hk⟩ := List.mem_iff_getElem?.1 hb'
    rw [List.getElem?_mapIdx] at hk
    cases hb : s1.buses[k]? with
    | none => simp [hb] at hk
    | some b =>
      simp only [hb, Option.map_some, Option.some.injEq] at hk
      exact ⟨k, b, hb, (get_id hids1 hb).1, (get_id hids1 hb).2, hk.symm⟩
  unfold solveFinite at P'
  set st := NR.run o (ymat m ls) (fun k => (pq k).1) (fun k => (pq k).2) xtol with hst
  cases hg : st.guess with
  | none =>
    refine Or.inr ?_
    simp only [hg] at P'
    have hstab : po.stable = NR.stable xtol st := by rw [← P']
    constructor
    · rw [I.converged, hstab]
      by_contra hc
      have hc : NR.stable xtol st = true := by simpa using hc
      obtain ⟨g, hg', _⟩ := NR.stable_spec (by unfold xtol; norm_num) hn.pos hc
      rw [← hst, hg] at hg'
      simp at hg'
    · intro b' hb' hsb
      obtain ⟨k, b, hk, hid, _, rfl⟩ := hbus b' hb'
      have : b.id = 0 := (hsl1 b (List.mem_of_getElem? hk)).1 hsb
      have hk0 : k = 0 := by omega
      subst hk0
      show po.v 0 = _
      rw [← P']; rfl
  | some g =>
    refine Or.inl ⟨atId (NR.volt g), ?_, ?_⟩
    · simp only [hg] at P'
      refine ⟨?_, ?_, ?_, ?_, ?_⟩
      · exact (atId_nat (NR.volt g) 0).trans (volt_zero g)
      · intro b' hb'
        obtain ⟨k, b, hk, hid, hlt, rfl⟩ := hbus b' hb'
        show po.v k = Phasor.ofC (atId (NR.volt g) b.id)
        rw [hid, ← P', show atId (NR.volt g) (k : ℤ) = _ from atId_nat (NR.volt g) ⟨k, hlt⟩]
        simp only [outOf, dif_pos hlt]
      · intro b' hb'
        obtain ⟨k, b, hk, hid, hlt, rfl⟩ := hbus b' hb'
        show po.i k = Phasor.ofC (leaving ls (atId (NR.volt g)) b.id)
        rw [hid, ← P', ← curr_eq_leaving hs he (NR.volt g) ⟨k, hlt⟩]
        simp only [outOf, dif_pos hlt]
      · intro b' hb' hsb
        obtain ⟨k, b, hk, hid, hlt, rfl⟩ := hbus b' hb'
        have hsb' : b.isSlack = true := hsb
        have e := curr_eq_leaving hs he (NR.volt g) 0
        have e' : leaving ls (atId (NR.volt g)) 0 = NR.curr (ymat m ls) (NR.volt g) 0 := e.symm
        have e0 : atId (NR.volt g) 0 = NR.volt g 0 := atId_nat (NR.volt g) 0
        simp only [hsb', if_true, ← P', outOf, Sim.nanToInf]
        rw [e', e0]
        simp
      · rw [A.branches]
        refine forall₂_mapIdx_right (R := fun (b : Branch ℝ) l => b.line.finite? = some l) hl ?_
        intro k b l hb hl' hr
        refine ⟨hr, ?_⟩
        show po.flow k = _
        rw [← P']
        simp [outOf, hl']
    · intro hconv
      rw [I.converged] at hconv
      simp only [hg] at P'
      have hstab : NR.stable xtol st = true := by rw [← hconv, ← P']; rfl
      obtain ⟨g', hg', hbal⟩ := NR.stable_spec (by unfold xtol; norm_num) hn.pos hstab
      rw [← hst, hg] at hg'
      injection hg' with hg'
      subst hg'
      intro b' hb' hsb
      obtain ⟨k, b, hk, hid, hlt, rfl⟩ := hbus b' hb'
      have hsb' : b.isSlack = false := hsb
      have hk0 : k ≠ 0 := by
        rintro rfl
        have := (hsl1 b (List.mem_of_getElem? hk)).2 (by omega)
        simp [hsb'] at this
      obtain ⟨j, rfl⟩ := Nat.exists_eq_succ_of_ne_zero hk0
      have hj : j < m := by omega
      obtain ⟨p, q, hp, hq, hre, him⟩ := hbal ⟨j, hj⟩
      have e := hpq ⟨j, hj⟩ (b.id, b.isSlack, b.p, b.q) (by simp [Sim.pfIn, hk])
      rw [e] at hp hq
      have e1 : (((⟨j, hj⟩ : Fin m).succ : ℕ) : ℤ) = b.id := by rw [hid]; simp
      have e2 : NR.power (ymat m ls) g ⟨j, hj⟩ =
          atId (NR.volt g) b.id * conj (leaving ls (atId (NR.volt g)) b.id) := by
        unfold NR.power
        rw [curr_eq_leaving hs he, e1, ← atId_nat (NR.volt g), e1]
      rw [e2] at hre him
      simp only [hsb', Bool.false_eq_true, if_false]
      exact ⟨p, q, hp, hq, hre, him⟩

end

end Anm
