import Mathlib.LinearAlgebra.Matrix.NonsingularInverse
import Verif.Props.Turned
import Verif.Props.Renaming
import Verif.Props.Newton
import Verif.Props.NewtonReset
import Verif.Props.Accepted

/-! # C144: the numbering of the buses -/

set_option linter.unusedSectionVars false

namespace Anm

open Spec Complex ComplexConjugate

noncomputable section

namespace Spec

/-- Exchange unknowns and equations: the angle and the magnitude of bus `k + 1` become those of bus `σ k + 1`. -/
def both {m : ℕ} (σ : Equiv.Perm (Fin m)) : Equiv.Perm (Ix m) := Equiv.sumCongr σ σ

/-- The linear solver does not care about the order of the buses: exchanging rows and columns of the system exchanges the
components of the result. -/
def OrderBlind (o : LFOracle) : Prop := ∀ m (σ : Equiv.Perm (Fin m)) (J : Option (Matrix (Ix m) (Ix m) ℝ)) (F : Ix m → X ℝ),
  o.spsolve m (J.map fun M => M.submatrix (both σ) (both σ)) (F ∘ both σ) = (o.spsolve m J F).map (· ∘ both σ)

end Spec

/-! ### Newton-Raphson -/

namespace NR
variable {m : ℕ} {σ : Equiv.Perm (Fin m)} {τ : Equiv.Perm (Fin (m + 1))} {Y Y' : Matrix (Fin (m + 1)) (Fin (m + 1)) ℂ}
  {p q p' q' : Fin m → X ℝ} {o : LFOracle}

/-- The problem under the new numbers. -/
structure Renum (σ : Equiv.Perm (Fin m)) (τ : Equiv.Perm (Fin (m + 1))) (Y Y' : Matrix (Fin (m + 1)) (Fin (m + 1)) ℂ) : Prop where
  zero : τ 0 = 0
  succ : ∀ k, τ k.succ = (σ k).succ
  adm : ∀ i j, Y' (τ i) (τ j) = Y i j

/-- The guess under the new numbers. -/
def GuessRenum (σ : Equiv.Perm (Fin m)) (g g' : Guess m) : Prop := ∀ k, g'.ang (σ k) = g.ang k ∧ g'.mag (σ k) = g.mag k

theorem volt_renum (h : Renum σ τ Y Y') {g g' : Guess m} (hg : GuessRenum σ g g') (i : Fin (m + 1)) : volt g' (τ i) = volt g i := by
  refine Fin.cases ?_ (fun k => ?_) i
  · rw [h.zero]; rfl
  · rw [h.succ]
    simp only [volt, Fin.cons_succ, (hg k).1, (hg k).2]

theorem curr_renum (h : Renum σ τ Y Y') {v v' : Fin (m + 1) → ℂ} (hv : ∀ i, v' (τ i) = v i) (i : Fin (m + 1)) :
    curr Y' v' (τ i) = curr Y v i := by
  unfold curr
  rw [← Equiv.sum_comp τ]
  simp only [h.adm, hv]

theorem power_renum (h : Renum σ τ Y Y') {g g' : Guess m} (hg : GuessRenum σ g g') (k : Fin m) : power Y' g' (σ k) = power Y g k := by
  unfold power
  rw [← h.succ, volt_renum h hg, curr_renum h (volt_renum h hg)]

theorem f_renum (h : Renum σ τ Y Y') (hp : ∀ k, p' (σ k) = p k) (hq : ∀ k, q' (σ k) = q k) {g g' : Guess m} (hg : GuessRenum σ g g') :
    f Y' p' q' g' ∘ both σ = f Y p q g := by
  funext a
  cases a <;> simp only [Function.comp, both, Equiv.sumCongr_apply, Sum.map_inl, Sum.map_inr, f, power_renum h hg, hp, hq]

theorem maximum_swap (a x y : X ℝ) : X.maximum (X.maximum a (X.abs x)) (X.abs y) = X.maximum (X.maximum a (X.abs y)) (X.abs x) := by
  generalize X.abs x = u
  generalize X.abs y = w
  have e1 : ∀ b : X ℝ, X.maximum .nan b = .nan := fun b => by simp [X.maximum]
  have e2 : ∀ b : X ℝ, X.maximum b .nan = .nan := fun b => by simp [X.maximum]
  have e3 : ∀ b : X ℝ, X.maximum .ninf b = b := fun b => by cases b <;> simp [X.maximum]
  have e4 : ∀ b : X ℝ, X.maximum b .ninf = b := fun b => by cases b <;> simp [X.maximum]
  have e5 : X.maximum (.pinf : X ℝ) .pinf = .pinf := by simp [X.maximum]
  have e6 : ∀ b : ℝ, X.maximum (.pinf : X ℝ) (.fin b) = .pinf := fun b => by simp [X.maximum]
  have e7 : ∀ b : ℝ, X.maximum (.fin b) (.pinf : X ℝ) = .pinf := fun b => by simp [X.maximum]
  have e8 : ∀ b c : ℝ, X.maximum (.fin b) (.fin c) = .fin (max b c) := fun b c => by
    rcases le_total b c with h | h
    · by_cases h' : c ≤ b
      · simp [X.maximum, le_antisymm h h']
      · simp [X.maximum, h', h]
    · simp [X.maximum, h]
  cases a <;> cases u <;> cases w <;> simp only [e1, e2, e3, e4, e5, e6, e7, e8]
  · rw [max_comm]
  · rw [max_right_comm]

theorem norm_renum {F F' : Ix m → X ℝ} (h : F' ∘ both σ = F) : norm F' = norm F := by
  subst h
  unfold norm
  refine List.Perm.foldl_eq' (List.Perm.append ?_ ?_) (fun x _ y _ z => maximum_swap z x y) _
  · exact (Equiv.Perm.ofFn_comp_perm σ fun k => F' (.inl k)).symm
  · exact (Equiv.Perm.ofFn_comp_perm σ fun k => F' (.inr k)).symm

theorem jac_renum (h : Renum σ τ Y Y') {g g' : Guess m} (hg : GuessRenum σ g g') :
    (jac Y' g').map (fun M => M.submatrix (both σ) (both σ)) = jac Y g := by
  have hz : (∃ k, g'.mag k = 0) ↔ ∃ k, g.mag k = 0 := by
    constructor
    · rintro ⟨k, hk⟩
      exact ⟨σ.symm k, by rw [← (hg _).2, Equiv.apply_symm_apply]; exact hk⟩
    · rintro ⟨k, hk⟩
      exact ⟨σ k, by rw [(hg k).2]; exact hk⟩
  have hi : ∀ i j : Fin m, iDiag Y' (volt g') (σ i).succ (σ j).succ = iDiag Y (volt g) i.succ j.succ := by
    intro i j
    unfold iDiag
    rw [← h.succ, ← h.succ, curr_renum h (volt_renum h hg)]
    simp only [τ.apply_eq_iff_eq]
  have hv : ∀ i : Fin m, volt g' (σ i).succ = volt g i.succ := fun i => by rw [← h.succ, volt_renum h hg]
  have hy : ∀ i j : Fin m, Y' (σ i).succ (σ j).succ = Y i.succ j.succ := fun i j => by rw [← h.succ, ← h.succ, h.adm]
  have ha : ∀ i j : Fin m, dSdVa Y' (volt g') (σ i).succ (σ j).succ = dSdVa Y (volt g) i.succ j.succ := by
    intro i j
    unfold dSdVa
    rw [hi, hv, hv, hy]
  have hm : ∀ i j : Fin m, dSdVm Y' (volt g') (σ i).succ (σ j).succ = dSdVm Y (volt g) i.succ j.succ := by
    intro i j
    unfold dSdVm
    rw [hi, hv, hv, hy]
  unfold jac
  by_cases h0 : ∃ k, g.mag k = 0
  · rw [if_pos h0, if_pos (hz.2 h0)]; rfl
  · rw [if_neg h0, if_neg fun e => h0 (hz.1 e)]
    simp only [Option.map_some]
    congr 1
    ext a b
    cases a <;> cases b <;> simp only [Matrix.submatrix_apply, both, Equiv.sumCongr_apply, Sum.map_inl, Sum.map_inr, dfdx, ha, hm]

/-- The loop variables under the new numbers. -/
structure StRenum (σ : Equiv.Perm (Fin m)) (s s' : St m) : Prop where
  nIter : s'.nIter = s.nIter
  guess : (s.guess = none ∧ s'.guess = none) ∨ ∃ g g', s.guess = some g ∧ s'.guess = some g' ∧ GuessRenum σ g g'
  F : s'.F ∘ both σ = s.F

theorem body_renum (ho : OrderBlind o) (h : Renum σ τ Y Y') (hp : ∀ k, p' (σ k) = p k) (hq : ∀ k, q' (σ k) = q k) {s s' : St m}
    (hs : StRenum σ s s') : StRenum σ (body o Y p q s) (body o Y' p' q' s') := by
  have hg : (next o Y s.guess s.F = none ∧ next o Y' s'.guess s'.F = none) ∨
      ∃ g g', next o Y s.guess s.F = some g ∧ next o Y' s'.guess s'.F = some g' ∧ GuessRenum σ g g' := by
    rcases hs.guess with ⟨h1, h2⟩ | ⟨g, g', h1, h2, h3⟩
    · rw [h1, h2]; exact .inl ⟨rfl, rfl⟩
    · rw [h1, h2]
      have key := ho m σ (jac Y' g') s'.F
      rw [jac_renum h h3, hs.F] at key
      cases hd : o.spsolve m (jac Y' g') s'.F with
      | none =>
        rw [hd] at key
        exact .inl ⟨by simp only [next, key, Option.map_none], by simp only [next, hd]⟩
      | some d =>
        rw [hd] at key
        refine .inr ⟨⟨fun k => g.ang k - (d ∘ both σ) (.inl k), fun k => g.mag k - (d ∘ both σ) (.inr k)⟩,
          ⟨fun k => g'.ang k - d (.inl k), fun k => g'.mag k - d (.inr k)⟩, by simp only [next, key, Option.map_some],
          by simp only [next, hd], fun k => ?_⟩
        simp only [Function.comp, both, Equiv.sumCongr_apply, Sum.map_inl, Sum.map_inr, (h3 k).1, (h3 k).2, and_self]
  refine ⟨by simp only [body, hs.nIter], hg, ?_⟩
  simp only [body, hs.nIter]
  rcases hg with ⟨h1, h2⟩ | ⟨g, g', h1, h2, h3⟩
  · rw [h1, h2]; rfl
  · rw [h1, h2]; exact f_renum h hp hq h3

theorem run_renum (ho : OrderBlind o) (h : Renum σ τ Y Y') (hp : ∀ k, p' (σ k) = p k) (hq : ∀ k, q' (σ k) = q k) (x : ℝ) :
    StRenum σ (run o Y p q x) (run o Y' p' q' x) := by
  unfold run
  have : ∀ (n : ℕ) (s s' : St m), StRenum σ s s' → StRenum σ (loop o Y p q x n s) (loop o Y' p' q' x n s') := by
    intro n
    induction n with
    | zero => intro s s' hs; exact hs
    | succ n ih =>
      intro s s' hs
      unfold loop
      have hc : cond x s' ↔ cond x s := by unfold cond; rw [norm_renum hs.F, hs.nIter]
      by_cases hh : cond x s
      · rw [if_pos hh, if_pos (hc.2 hh)]; exact ih _ _ (body_renum ho h hp hq hs)
      · rw [if_neg hh, if_neg fun e => hh (hc.1 e)]; exact hs
  refine this 100 _ _ ⟨rfl, .inr ⟨flat, flat, rfl, rfl, fun _ => ⟨rfl, rfl⟩⟩, ?_⟩
  exact f_renum h hp hq fun _ => ⟨rfl, rfl⟩

theorem stable_renum {s s' : St m} (hs : StRenum σ s s') (x : ℝ) : stable x s' = stable x s := by
  unfold stable
  rw [norm_renum hs.F]

end NR

/-! ### The two networks -/

namespace Spec

/-- The same bus under a new number. -/
def renBus (f : ℤ → ℤ) (b : Bus ℝ) : Bus ℝ := { b with id := f b.id }

/-- The same branch between the same two buses. -/
def renLine (f : ℤ → ℤ) (l : Line ℝ) : Line ℝ := { l with fBus := f l.fBus, tBus := f l.tBus }

/-- The same branch between the same two buses, with the same measurements. -/
def renBranch (f : ℤ → ℤ) (b : Branch ℝ) : Branch ℝ := { b with line := renLine f b.line }

/-- The same device at the same bus. -/
def renAt (f : ℤ → ℤ) (d : Device ℝ) : Device ℝ := { d with busId := f d.busId }

/-- Two simulators that differ by the numbers of the buses only. -/
structure BusesRenamed (f : ℤ → ℤ) (s s' : Sim ℝ) : Prop where
  base : s'.baseMVA = s.baseMVA
  dt : s'.deltaT = s.deltaT
  lamb : s'.lamb = s.lamb
  buses : (s.buses.map (renBus f)).Perm s'.buses
  branches : s'.branches = s.branches.map (renBranch f)
  devices : s'.devices = s.devices.map (renAt f)

/-- The new name of an entry of the state. -/
def busEntry (f : ℤ → ℤ) (key : Key) : Ident → Ident
  | .node i => if key ∈ [Key.busP, .busQ, .busVMagn, .busVAng, .busIMagn, .busIAng] then .node (f i) else .node i
  | .br i j => .br (f i) (f j)

/-- Every value of the state is found under the new numbers. -/
def StateBusesRenamed (f : ℤ → ℤ) (st st' : SimState ℝ) : Prop := ∀ key u i, reading st' key u (busEntry f key i) = reading st key u i

end Spec

/-- The solver that multiplies with the inverse matrix does not depend on the order of the buses. -/
theorem exactOracle_blind : OrderBlind exactOracle := by
  intro m σ J F
  unfold exactOracle
  cases J with
  | none => rfl
  | some M =>
    simp only [Option.map_some, Matrix.inv_submatrix_equiv]
    congr 1
    exact (Matrix.submatrix_mulVec_equiv _ _ _ _).trans (by congr 2; funext a; simp)

section
variable {m : ℕ} {f : ℤ → ℤ} {s s' s1 : Sim ℝ} {o : LFOracle} {qp : QP ℝ} {pi : ℝ} {a : Sim.Args ℝ} {out : Sim.TransOut ℝ} {ls : List LineC}

/-- The numbers of the buses as positions. -/
theorem renumbering (hf : Function.Injective f) (hm : Numbered s m) (hm' : Numbered s' m) (h : (s.buses.map (renBus f)).Perm s'.buses) :
    ∃ (σ : Equiv.Perm (Fin m)) (τ : Equiv.Perm (Fin (m + 1))), τ 0 = 0 ∧ (∀ k, τ k.succ = (σ k).succ) ∧
      ∀ k : Fin (m + 1), f ((k : ℕ) : ℤ) = ((τ k : ℕ) : ℤ) := by
  have hids : ∀ k : Fin (m + 1), ∃ b ∈ s.buses, b.id = ((k : ℕ) : ℤ) := by
    intro k
    have : ((k : ℕ) : ℤ) ∈ s.buses.map Bus.id := by
      rw [hm.ids]; exact List.mem_map.2 ⟨k, List.mem_range.2 k.2, rfl⟩
    obtain ⟨b, hb, e⟩ := List.mem_map.1 this
    exact ⟨b, hb, e⟩
  have himg : ∀ k : Fin (m + 1), ∃ j : Fin (m + 1), f ((k : ℕ) : ℤ) = ((j : ℕ) : ℤ) := by
    intro k
    obtain ⟨b, hb, e⟩ := hids k
    have h1 : renBus f b ∈ s'.buses := h.mem_iff.1 (List.mem_map_of_mem hb)
    have h2 : (renBus f b).id ∈ s'.buses.map Bus.id := List.mem_map_of_mem h1
    rw [hm'.ids] at h2
    obtain ⟨j, hj, e'⟩ := List.mem_map.1 h2
    exact ⟨⟨j, List.mem_range.1 hj⟩, by rw [← e]; exact e'.symm⟩
  choose t ht using himg
  have hinj : Function.Injective t := by
    intro i j hij
    have : f ((i : ℕ) : ℤ) = f ((j : ℕ) : ℤ) := by rw [ht, ht, hij]
    have := hf this
    exact Fin.ext (by exact_mod_cast this)
  let τ : Equiv.Perm (Fin (m + 1)) := Equiv.ofBijective t (Finite.injective_iff_bijective.1 hinj)
  have hτ : ∀ k : Fin (m + 1), f ((k : ℕ) : ℤ) = ((τ k : ℕ) : ℤ) := ht
  have h0 : τ 0 = 0 := by
    obtain ⟨b, hb, e⟩ := hids 0
    have h1 : renBus f b ∈ s'.buses := h.mem_iff.1 (List.mem_map_of_mem hb)
    have h2 := (hm'.slack _ h1).1 ((hm.slack b hb).2 (by simpa using e))
    have h3 : f b.id = 0 := h2
    rw [e, hτ] at h3
    exact Fin.ext (by simpa using h3)
  have hne : ∀ k : Fin m, τ k.succ ≠ 0 := fun k e => Fin.succ_ne_zero k (τ.injective (e.trans h0.symm))
  let t' : Fin m → Fin m := fun k => (τ k.succ).pred (hne k)
  have hinj' : Function.Injective t' := by
    intro i j hij
    have : τ i.succ = τ j.succ := Fin.pred_inj.1 hij
    exact Fin.succ_injective _ (τ.injective this)
  refine ⟨Equiv.ofBijective t' (Finite.injective_iff_bijective.1 hinj'), τ, h0, fun k => ?_, hτ⟩
  show τ k.succ = ((τ k.succ).pred (hne k)).succ
  exact (Fin.succ_pred _ _).symm

/-- The same line with finite parameters. -/
def renC (f : ℤ → ℤ) (l : LineC) : LineC := { l with fBus := f l.fBus, tBus := f l.tBus }

theorem finite_ren (l : Line ℝ) : (renLine f l).finite? = l.finite?.map (renC f) := by
  cases l with
  | mk a b r x bb rate tap shift => cases r <;> cases x <;> cases bb <;> cases tap <;> cases shift <;> rfl

theorem ybus_ren (hf : Function.Injective f) (ls : List LineC) (i j : ℤ) : ybus (ls.map (renC f)) (f i) (f j) = ybus ls i j := by
  unfold ybus
  have : ∀ (ls : List LineC) (Y Y' : ℤ → ℤ → ℂ), (∀ i j, Y' (f i) (f j) = Y i j) →
      ∀ i j, (ls.map (renC f)).foldl ybusStep Y' (f i) (f j) = ls.foldl ybusStep Y i j := by
    intro ls
    induction ls with
    | nil => intro Y Y' h; exact h
    | cons l ls ih =>
      intro Y Y' h
      refine ih _ _ fun i j => ?_
      simp only [ybusStep, setAt, renC, hf.eq_iff, h, LineC.series, LineC.shunt, LineC.tap, LineC.shift]
  exact this ls _ _ (fun _ _ => rfl) i j

/-- The results of the load flow under the new numbers. -/
structure OutRenum (m : ℕ) (f : ℤ → ℤ) (n : ℕ) (po po' : PFOut ℝ) : Prop where
  v : ∀ k : ℕ, k < m + 1 → po'.v (f k).toNat = po.v k
  i : ∀ k : ℕ, k < m + 1 → po'.i (f k).toNat = po.i k
  slackP : po'.slackP = po.slackP
  slackQ : po'.slackQ = po.slackQ
  flow : ∀ k < n, po'.flow k = po.flow k
  stable : po'.stable = po.stable

theorem finiteLines_ren (h : s'.branches = s.branches.map (renBranch f)) (hl : FiniteLines s ls) : FiniteLines s' (ls.map (renC f)) := by
  unfold FiniteLines at hl ⊢
  rw [h, List.forall₂_map_left_iff, List.forall₂_map_right_iff]
  refine hl.imp fun b l hb => ?_
  show (renLine f b.line).finite? = _
  rw [finite_ren, hb]; rfl

/-- The load flow of both networks. -/
theorem pf_ren (ho : OrderBlind o) (hf : Function.Injective f) (hm : Numbered s m) (hm' : Numbered s' m)
    (hb : (s.buses.map (renBus f)).Perm s'.buses) (hbr : s'.branches = s.branches.map (renBranch f)) (hl : FiniteLines s ls) (he : EndsIn m ls)
    {po : PFOut ℝ} (hpo : realPF o s.pfIn = .ok po) (hst : po.stable = true) :
    ∃ po', realPF o s'.pfIn = .ok po' ∧ OutRenum m f ls.length po po' := by
  obtain ⟨σ, τ, h0, hσ, hτ⟩ := renumbering hf hm hm' hb
  have i1 : ∀ {t : Sim ℝ}, Numbered t m → t.pfIn.buses.map (·.1) = (List.range (m + 1)).map Int.ofNat := by
    intro t ht
    rw [← ht.ids]; simp [Sim.pfIn, Function.comp_def]
  have i2 : ∀ {t : Sim ℝ}, Numbered t m → ∀ b ∈ t.pfIn.buses, b.2.1 = true ↔ b.1 = 0 := by
    intro t ht b hb
    obtain ⟨b0, hb0, rfl⟩ := List.mem_map.1 hb
    exact ht.slack b0 hb0
  have i3 : ∀ {t : Sim ℝ} {ls}, FiniteLines t ls → mapO Line.finite? t.pfIn.lines = some ls := by
    intro t ls h
    rw [mapO_forall₂]
    exact List.forall₂_map_left_iff.2 h
  have hl' := finiteLines_ren hbr hl
  obtain ⟨pq, hpf, hpq⟩ := realPF_numbered o (i1 hm) hm.pos (i2 hm) (i3 hl)
  obtain ⟨pq', hpf', hpq'⟩ := realPF_numbered o (i1 hm') hm.pos (i2 hm') (i3 hl')
  have hR : NR.Renum σ τ (ymat m ls) (ymat m (ls.map (renC f))) := by
    refine ⟨h0, hσ, fun i j => ?_⟩
    unfold ymat
    rw [← hτ, ← hτ, ybus_ren hf]
  have hp : ∀ k, pq' (σ k) = pq k := by
    intro k
    have hlen := length_of_ids hm.ids
    obtain ⟨b, hbk⟩ : ∃ b, s.buses[k.1 + 1]? = some b := ⟨_, List.getElem?_eq_getElem (by rw [hlen]; omega)⟩
    have hid := (get_id hm.ids hbk).1
    have hmem : renBus f b ∈ s'.buses := hb.mem_iff.1 (List.mem_map_of_mem (List.mem_of_getElem? hbk))
    obtain ⟨j, hj, hj2, -⟩ := mem_get_id hm'.ids hmem
    have hj3 : j = (σ k).1 + 1 := by
      have e1 : (renBus f b).id = f ((k.succ : ℕ) : ℤ) := by
        show f b.id = _
        rw [hid]; rfl
      rw [e1, hτ, hσ] at hj2
      have : ((σ k).succ : ℕ) = j := by exact_mod_cast hj2
      rw [← this]; rfl
    rw [hpq k (b.id, b.isSlack, b.p, b.q) (by simp [Sim.pfIn, hbk]),
      hpq' (σ k) (f b.id, b.isSlack, b.p, b.q) (by rw [← hj3]; simp [Sim.pfIn, hj, renBus])]
  rw [hpf] at hpo
  injection hpo with hpo
  have hrun := NR.run_renum ho hR (p := fun k => (pq k).1) (q := fun k => (pq k).2) (p' := fun k => (pq' k).1) (q' := fun k => (pq' k).2)
    (fun k => by rw [hp]) (fun k => by rw [hp]) xtol
  have hstab := NR.stable_renum hrun xtol
  obtain ⟨g, hg⟩ : ∃ g, (NR.run o (ymat m ls) (fun k => (pq k).1) (fun k => (pq k).2) xtol).guess = some g := by
    cases hgg : (NR.run o (ymat m ls) (fun k => (pq k).1) (fun k => (pq k).2) xtol).guess with
    | some g => exact ⟨g, rfl⟩
    | none =>
      have hst' : NR.stable xtol (NR.run o (ymat m ls) (fun k => (pq k).1) (fun k => (pq k).2) xtol) = true := by
        rw [← hpo, solveFinite, hgg] at hst
        simpa using hst
      obtain ⟨g, hg', _⟩ := NR.stable_spec (by unfold xtol; norm_num) hm.pos hst'
      rw [hgg] at hg'
      simp at hg'
  rcases hrun.guess with ⟨e, -⟩ | ⟨g1, g', e1, e2, hgg⟩
  · rw [hg] at e; simp at e
  rw [hg] at e1
  cases e1
  have hv := NR.volt_renum hR hgg
  have hc := NR.curr_renum hR hv
  have hat : ∀ i : ℤ, 0 ≤ i → i < (m + 1 : ℕ) → atId (NR.volt g') (f i) = atId (NR.volt g) i := by
    intro i hi0 hi
    obtain ⟨k, rfl⟩ : ∃ k : Fin (m + 1), i = ((k : ℕ) : ℤ) := ⟨⟨i.toNat, by omega⟩, by simp [hi0]⟩
    rw [hτ, atId_nat, atId_nat, hv]
  rw [solveFinite, hg] at hpo
  refine ⟨_, hpf', ?_⟩
  rw [solveFinite, e2, ← hpo]
  have hidx : ∀ k (hk : k < m + 1), (f (k : ℤ)).toNat = τ ⟨k, hk⟩ := fun k hk => by
    have := hτ ⟨k, hk⟩
    rw [show f (k : ℤ) = _ from this]; simp
  refine ⟨fun k hk => ?_, fun k hk => ?_, ?_, ?_, fun k hk => ?_, hstab⟩
  · simp only [outOf, hidx k hk, Fin.is_lt, dif_pos, hk, Fin.eta, hv]
  · simp only [outOf, hidx k hk, Fin.is_lt, dif_pos, hk, Fin.eta, hc]
  · have e1 := hv 0
    have e2 := hc 0
    rw [h0] at e1 e2
    simp only [outOf, e1, e2]
  · have e1 := hv 0
    have e2 := hc 0
    rw [h0] at e1 e2
    simp only [outOf, e1, e2]
  · obtain ⟨l, hlk⟩ : ∃ l, ls[k]? = some l := ⟨_, List.getElem?_eq_getElem hk⟩
    obtain ⟨⟨a1, a2⟩, a3, a4⟩ := he l (List.mem_of_getElem? hlk)
    simp only [outOf, List.getElem?_map, hlk, Option.map_some, Option.elim_some]
    show (renC f l).flow (atId (NR.volt g') (f l.fBus)) (atId (NR.volt g') (f l.tBus)) = _
    rw [hat _ a1 a2, hat _ a3 a4]
    rfl

/-! ### The devices -/

theorem project_renAt (rows : List (HalfPlane ℝ)) (d : Device ℝ) (p q : X ℝ) :
    Device.project qp rows (renAt f d) p q = (Device.project qp rows d p q).map (renAt f) := by
  unfold Device.project
  cases qp rows (p, q) <;> rfl

theorem stepDevice_renAt (b dt : X ℝ) (d : Device ℝ) :
    Sim.stepDevice qp b dt a (renAt f d) = (Sim.stepDevice qp b dt a d).map (renAt f) := by
  unfold Sim.stepDevice
  rw [show (renAt f d).isLoad = d.isLoad from rfl, show (renAt f d).isNonSlackGen = d.isNonSlackGen from rfl,
    show (renAt f d).isStorage = d.isStorage from rfl, show (renAt f d).isSlack = d.isSlack from rfl, show (renAt f d).id = d.id from rfl]
  split
  · exact bind_named fun x => rfl
  split
  · refine bind_named fun x => ?_
    show (a.pSet.getE d.id >>= fun p => a.qSet.getE d.id >>= fun q =>
      Device.project qp (d.setPPot (X.clip (x / b) d.pMin d.pMax)).genConstraints (renAt f (d.setPPot (X.clip (x / b) d.pMin d.pMax))) (p / b) (q / b)) = _
    exact bind_named fun p => bind_named fun q => project_renAt _ _ _ _
  split
  · refine bind_named fun p => bind_named fun q => ?_
    have hs : (renAt f d).mapStorage qp (p / b) (q / b) dt = (d.mapStorage qp (p / b) (q / b) dt).map (renAt f) := by
      unfold Device.mapStorage
      show (d.storageConstraints dt >>= _) = _
      exact bind_named fun rows => project_renAt rows d _ _
    have hu : ∀ e : Device ℝ, (renAt f e).updateSoc dt = (e.updateSoc dt).map (renAt f) := by
      intro e
      unfold Device.updateSoc
      dsimp only [renAt]
      cases e.soc <;> rfl
    rw [hs]
    cases d.mapStorage qp (p / b) (q / b) dt
    · rfl
    · exact hu _
  split <;> rfl

theorem busInjections_ren (hf : Function.Injective f) (ds : List (Device ℝ)) (b : Bus ℝ) :
    Sim.busInjections (ds.map (renAt f)) (renBus f b) = renBus f (Sim.busInjections ds b) := by
  have : (ds.map (renAt f)).filter (fun d => d.busId = (renBus f b).id) = (ds.filter fun d => d.busId = b.id).map (renAt f) := by
    rw [List.filter_map]
    congr 1
    refine List.filter_congr fun d _ => ?_
    simp [renAt, renBus, hf.eq_iff]
  unfold Sim.busInjections
  dsimp only
  rw [this, List.foldl_map, List.foldl_map]
  rfl

/-! ### The buses after the load flow -/

/-- A bus after the load flow. -/
def solvedBus (po : PFOut ℝ) (b : Bus ℝ) : Bus ℝ :=
  { b with v := po.v b.id.toNat, i := po.i b.id.toNat, p := if b.isSlack then Sim.nanToInf po.slackP else b.p, q := if b.isSlack then Sim.nanToInf po.slackQ else b.q }

theorem solvedBuses_eq (hm : Numbered s m) (po : PFOut ℝ) : solvedBuses po s.buses = s.buses.map (solvedBus po) := by
  refine List.ext_getElem? fun k => ?_
  unfold solvedBuses
  rw [List.getElem?_mapIdx, List.getElem?_map]
  cases h : s.buses[k]? with
  | none => rfl
  | some b =>
    have := (get_id hm.ids h).1
    simp only [Option.map_some, solvedBus, this, Int.toNat_natCast]

theorem solvedBus_ren {n : ℕ} {po po' : PFOut ℝ} (h : OutRenum m f n po po') (hm : Numbered s m) {b : Bus ℝ} (hb : b ∈ s.buses) :
    solvedBus po' (renBus f b) = renBus f (solvedBus po b) := by
  obtain ⟨k, -, hk, hk'⟩ := mem_get_id hm.ids hb
  unfold solvedBus
  have h1 : (renBus f b).id = f k := by rw [← hk]; rfl
  have h2 : b.id.toNat = k := by rw [hk]; simp
  rw [h1, h2, h.v k hk', h.i k hk', h.slackP, h.slackQ]
  simp only [renBus, hk]

theorem find_perm {l l' : List (Bus ℝ)} (hp : l.Perm l') (hn : (l.map Bus.id).Nodup) (i : ℤ) :
    l'.find? (fun b => b.id = i) = l.find? (fun b => b.id = i) := by
  have key : ∀ l : List (Bus ℝ), l.find? (fun b => b.id = i) = Dict.get? (l.map fun b => (b.id, b)) i := by
    intro l
    induction l with
    | nil => rfl
    | cons b l ih =>
      unfold Dict.get? at ih ⊢
      rw [List.map_cons, List.find?_cons, List.find?_cons]
      by_cases h : b.id = i
      · simp [h]
      · simp only [h, decide_false, ih]
  rw [key, key]
  refine get?_perm (hp.map _) ?_ i
  rw [List.map_map]
  exact hn

theorem find_ren (hf : Function.Injective f) (l : List (Bus ℝ)) (i : ℤ) :
    (l.map (renBus f)).find? (fun b => b.id = f i) = (l.find? fun b => b.id = i).map (renBus f) := by
  induction l with
  | nil => rfl
  | cons b l ih =>
    rw [List.map_cons, List.find?_cons, List.find?_cons]
    by_cases h : b.id = i
    · simp [h, renBus]
    · have : (renBus f b).id ≠ f i := fun e => h (hf e)
      simp only [h, this, decide_false, ih]

/-! ### The state -/

theorem busEntry_bus {key : Key} (h : key ∈ [Key.busP, .busQ, .busVMagn, .busVAng, .busIMagn, .busIAng]) (i : Ident) :
    busEntry f key i = busEntry f .busP i := by
  cases i with
  | node j => simp only [busEntry]; rw [if_pos h, if_pos (by decide)]
  | br _ _ => rfl

theorem busEntry_inj (hf : Function.Injective f) : Function.Injective (busEntry f .busP) := by
  intro a b hab
  cases a <;> cases b <;> simp_all [busEntry, hf.eq_iff]

theorem get?_relabel {g : Ident → Ident} (hg : Function.Injective g) {β : Type} (d : Dict Ident β) (i : Ident) :
    Dict.get? (d.map fun e => (g e.1, e.2)) (g i) = d.get? i := by
  induction d with
  | nil => rfl
  | cons e d ih =>
    unfold Dict.get? at ih ⊢
    rw [List.map_cons, List.find?_cons, List.find?_cons]
    by_cases hi : e.1 = i
    · subst hi; simp
    · simp only [hi, hg.ne hi, decide_false]
      exact ih

theorem bus_reading (hf : Function.Injective f) {l l' : List (Bus ℝ)} (hn : (l.map Bus.id).Nodup) (hp : (l.map (renBus f)).Perm l')
    (g : Bus ℝ → X ℝ) (hg : ∀ b, g (renBus f b) = g b) (i : Ident) :
    Dict.get? (l'.map fun b => (Ident.node b.id, g b)) (busEntry f .busP i) = Dict.get? (l.map fun b => (Ident.node b.id, g b)) i := by
  have hp' := hp.map fun b => (Ident.node b.id, g b)
  rw [get?_perm hp']
  · rw [List.map_map, ← get?_relabel (busEntry_inj hf) (l.map fun b => (Ident.node b.id, g b)) i, List.map_map]
    congr 1
    refine List.map_congr_left fun b _ => ?_
    simp only [Function.comp, hg, busEntry]
    rfl
  · rw [List.map_map, List.map_map]
    have := (hn.map hf).map (f := Ident.node) fun a b h => by cases h; rfl
    rw [List.map_map, List.map_map] at this
    exact this

theorem branch_reading (hf : Function.Injective f) (l : List (Branch ℝ)) (g : Flow ℝ → X ℝ) (i : Ident) :
    Dict.get? ((l.map (renBranch f)).map fun b => (Ident.br b.line.fBus b.line.tBus, g b.flow)) (busEntry f .busP i) =
      Dict.get? (l.map fun b => (Ident.br b.line.fBus b.line.tBus, g b.flow)) i := by
  rw [← get?_relabel (busEntry_inj hf) (l.map fun b => (Ident.br b.line.fBus b.line.tBus, g b.flow)) i, List.map_map, List.map_map]
  rfl

/-- The entries of a dictionary that is filled by devices only. -/
theorem device_reading (l : List (ℤ × X ℝ)) {key : Key} (h : key ∉ [Key.busP, .busQ, .busVMagn, .busVAng, .busIMagn, .busIAng]) (i : Ident) :
    Dict.get? (l.map fun e => (Ident.node e.1, e.2)) (busEntry f key i) = Dict.get? (l.map fun e => (Ident.node e.1, e.2)) i := by
  cases i with
  | node j => simp only [busEntry, if_neg h]
  | br a b =>
    have : ∀ a b, Dict.get? (l.map fun e => (Ident.node e.1, e.2)) (Ident.br a b) = none := by
      intro a b
      induction l with
      | nil => rfl
      | cons e l ih =>
        unfold Dict.get? at ih ⊢
        rw [List.map_cons, List.find?_cons]
        simpa using ih
    show Dict.get? _ (Ident.br (f a) (f b)) = _
    rw [this, this]

theorem nodup_numbered (hm : Numbered s m) : (s.buses.map Bus.id).Nodup := by
  rw [hm.ids]
  exact List.nodup_range.map fun a b h => by simpa using h

theorem numbered_of (hm : Numbered s m) (g : Bus ℝ → Bus ℝ) (hg : ∀ b, (g b).id = b.id ∧ (g b).isSlack = b.isSlack)
    (h : s1.buses = s.buses.map g) : Numbered s1 m := by
  refine ⟨?_, hm.pos, ?_⟩
  · rw [h, ← hm.ids, List.map_map]
    exact List.map_congr_left fun b _ => (hg b).1
  · rw [h]
    intro b hb
    obtain ⟨b0, hb0, rfl⟩ := List.mem_map.1 hb
    rw [(hg b0).1, (hg b0).2]
    exact hm.slack b0 hb0

theorem gatherState_ren (hf : Function.Injective f) {st : SimState ℝ} (hr : BusesRenamed f s s') (hn : (s.buses.map Bus.id).Nodup)
    (h : s.gatherState pi = .ok st) : ∃ st', s'.gatherState pi = .ok st' ∧ StateBusesRenamed f st st' := by
  unfold Sim.gatherState at h ⊢
  simp only [bind_ok] at h
  obtain ⟨soc, h1, h2⟩ := h
  have hfil : ∀ q : Device ℝ → Bool, (∀ d, q (renAt f d) = q d) → s'.devices.filter q = (s.devices.filter q).map (renAt f) := by
    intro q hq
    rw [hr.devices, List.filter_map]
    congr 1
    exact List.filter_congr fun d _ => hq d
  have key : ∀ {β : Type} (F : Device ℝ → Except PyErr β) (l : List (Device ℝ)), (∀ d, F (renAt f d) = F d) → mapE F (l.map (renAt f)) = mapE F l := by
    intro β F l hF
    have := mapE_units (f := F) (f' := F) (g := renAt f) (h := id) l fun d _ => by rw [hF]; exact except_map_id _
    rw [this]
    cases mapE F l <;> simp [Except.map]
  dsimp only
  rw [hfil Device.isStorage (fun _ => rfl), key _ _ (fun _ => rfl), h1]
  refine ⟨_, rfl, ?_⟩
  obtain ⟨soc0, rfl⟩ : ∃ soc0 : List (ℤ × X ℝ), soc = soc0.map fun e => (Ident.node e.1, e.2) := by
    have := mapE_ok.1 h1
    revert this
    generalize s.devices.filter Device.isStorage = l
    intro h
    clear h1 h2
    induction h with
    | nil => exact ⟨[], rfl⟩
    | @cons d e _ _ hd _ ih =>
      obtain ⟨l0, rfl⟩ := ih
      cases hs : d.soc with
      | none => rw [hs] at hd; cases hd
      | some x => rw [hs] at hd; cases hd; exact ⟨(d.id, x) :: l0, rfl⟩
  cases h2
  intro key u i
  have hb := hr.base
  have hdev : ∀ (l : List (Device ℝ)) (g : Device ℝ → X ℝ) {key : Key}, key ∉ [Key.busP, .busQ, .busVMagn, .busVAng, .busIMagn, .busIAng] →
      (∀ d, g (renAt f d) = g d) → Dict.get? ((l.map (renAt f)).map fun d => (Ident.node d.id, g d)) (busEntry f key i) =
        Dict.get? (l.map fun d => (Ident.node d.id, g d)) i := by
    intro l g key hk hg
    have := device_reading (f := f) (l.map fun d => (d.id, g d)) hk i
    rw [List.map_map] at this ⊢
    rw [show ((fun d : Device ℝ => (Ident.node d.id, g d)) ∘ renAt f) = (fun e : ℤ × X ℝ => (Ident.node e.1, e.2)) ∘ fun d => (d.id, g d) by
      funext d; simp only [Function.comp, hg]; rfl]
    exact this
  rw [hb, hr.branches, hfil Device.isNonSlackGen (fun _ => rfl), hr.devices]
  have hbus := fun g hg => bus_reading hf hn hr.buses g hg i
  have hbra := fun g => branch_reading hf s.branches g i
  by_cases hkey : key ∈ [Key.busP, .busQ, .busVMagn, .busVAng, .busIMagn, .busIAng]
  · rw [busEntry_bus hkey]
    simp only [List.mem_cons, List.not_mem_nil, or_false] at hkey
    rcases hkey with rfl | rfl | rfl | rfl | rfl | rfl <;> cases u <;> first
      | rfl
      | exact hbus (fun b => b.p) fun _ => rfl
      | exact hbus (fun b => b.p * s.baseMVA) fun _ => rfl
      | exact hbus (fun b => b.q) fun _ => rfl
      | exact hbus (fun b => b.q * s.baseMVA) fun _ => rfl
      | exact hbus (fun b => b.v.abs) fun _ => rfl
      | exact hbus (fun b => b.v.abs * b.baseKV) fun _ => rfl
      | exact hbus (fun b => b.v.ang) fun _ => rfl
      | exact hbus (fun b => b.v.ang * .fin 180 / .fin pi) fun _ => rfl
      | exact hbus (fun b => b.i.abs) fun _ => rfl
      | exact hbus (fun b => b.i.abs * s.baseMVA / b.baseKV) fun _ => rfl
      | exact hbus (fun b => b.i.ang) fun _ => rfl
      | exact hbus (fun b => b.i.ang * .fin 180 / .fin pi) fun _ => rfl
  · have hbr' : ∀ g : Flow ℝ → X ℝ, Dict.get? ((s.branches.map (renBranch f)).map fun b => (Ident.br b.line.fBus b.line.tBus, g b.flow)) (busEntry f key i) =
        Dict.get? (s.branches.map fun b => (Ident.br b.line.fBus b.line.tBus, g b.flow)) i := by
      intro g
      cases i with
      | br x y => exact hbra g
      | node x =>
        have : ∀ (l : List (Branch ℝ)) x, Dict.get? (l.map fun b => (Ident.br b.line.fBus b.line.tBus, g b.flow)) (Ident.node x) = none := by
          intro l x
          induction l with
          | nil => rfl
          | cons e l ih =>
            unfold Dict.get? at ih ⊢
            rw [List.map_cons, List.find?_cons]
            simpa using ih
        simp only [busEntry, if_neg hkey]
        rw [this, this]
    cases key <;> first
      | exact absurd (by decide) hkey
      | (cases u <;> first
          | rfl
          | exact hbr' fun w => w.pFrom
          | exact hbr' fun w => w.pFrom * s.baseMVA
          | exact hbr' fun w => w.qFrom
          | exact hbr' fun w => w.qFrom * s.baseMVA
          | exact hbr' fun w => w.sApparentMax
          | exact hbr' fun w => w.sApparentMax * s.baseMVA
          | exact hbr' fun w => Sim.signRe w.iFrom * w.iFrom.abs
          | exact hbr' fun w => w.iFrom.ang
          | exact hbr' fun w => w.iFrom.ang * .fin 180 / .fin pi
          | exact hdev _ (fun d => d.p) hkey fun _ => rfl
          | exact hdev _ (fun d => d.p * s.baseMVA) hkey fun _ => rfl
          | exact hdev _ (fun d => d.q) hkey fun _ => rfl
          | exact hdev _ (fun d => d.q * s.baseMVA) hkey fun _ => rfl
          | exact hdev _ (fun d => d.pPot) hkey fun _ => rfl
          | exact hdev _ (fun d => d.pPot * s.baseMVA) hkey fun _ => rfl
          | exact device_reading soc0 hkey i
          | (have := device_reading (f := f) (soc0.map fun e => (e.1, e.2 * s.baseMVA)) hkey i
             rw [List.map_map] at this
             show Dict.get? ((soc0.map fun e => (Ident.node e.1, e.2)).map fun e => (e.1, e.2 * s.baseMVA)) _ =
               Dict.get? ((soc0.map fun e => (Ident.node e.1, e.2)).map fun e => (e.1, e.2 * s.baseMVA)) _
             rw [List.map_map]
             exact this))

/-! ### A time step -/

theorem flows_ren {po po' : PFOut ℝ} (bs : List (Branch ℝ)) (h : ∀ k < bs.length, po'.flow k = po.flow k) :
    ((bs.map (renBranch f)).mapIdx fun k b => ({ b with flow := po'.flow k } : Branch ℝ)) =
      (bs.mapIdx fun k b => ({ b with flow := po.flow k } : Branch ℝ)).map (renBranch f) := by
  refine List.ext_getElem? fun k => ?_
  rw [List.getElem?_mapIdx, List.getElem?_map, List.getElem?_map, List.getElem?_mapIdx]
  cases hk : bs[k]? with
  | none => rfl
  | some b =>
    have : k < bs.length := (List.getElem?_eq_some_iff.1 hk).1
    simp only [Option.map_some, h k this, renBranch]

/-- **C144.** One time step whose load flow converges: under the new numbers the load flow converges too, everything the call returns is the same,
and so is every entry of the state, under the new numbers. -/
theorem C144_transition (ho : OrderBlind o) (hf : Function.Injective f) (hm : Numbered s m) (hm' : Numbered s' m) (hl : FiniteLines s ls)
    (he : EndsIn m ls) (hr : BusesRenamed f s s') (h : s.transition ⟨qp, realPF o, pi⟩ a = .ok (s1, out)) (hc : out.converged = true) :
    ∃ s1' st st', s'.transition ⟨qp, realPF o, pi⟩ a = .ok (s1', out) ∧ BusesRenamed f s1 s1' ∧
      s1.state = some st ∧ s1'.state = some st' ∧ StateBusesRenamed f st st' := by
  unfold Sim.transition Sim.solveStep at h
  simp only [applyPF_eq, bind_ok] at h
  obtain ⟨s3, ⟨ds, h1, po, h2, s2, ⟨ds2, h3, h4⟩, h5⟩, st, hst, ⟨r, e, pen⟩, h6, h7⟩ := h
  cases h4
  cases h5
  cases h7
  have hstab : po.stable = true := hc
  -- the devices
  have e1 : mapE (Sim.stepDevice qp s'.baseMVA s'.deltaT a) s'.devices = .ok (ds.map (renAt f)) := by
    rw [hr.devices, hr.base, hr.dt, mapE_units (f := Sim.stepDevice qp s.baseMVA s.deltaT a) (h := renAt f) _ fun d _ => stepDevice_renAt _ _ d,
      show mapE _ s.devices = _ from h1]
    rfl
  have pb : ((s.buses.map (Sim.busInjections ds)).map (renBus f)).Perm (s'.buses.map (Sim.busInjections (ds.map (renAt f)))) := by
    refine (List.Perm.of_eq ?_).trans (hr.buses.map _)
    rw [List.map_map, List.map_map]
    exact List.map_congr_left fun b _ => (busInjections_ren hf ds b).symm
  -- the load flow
  have hm1 : Numbered { s with devices := ds, buses := s.buses.map (Sim.busInjections ds) } m :=
    numbered_of hm (Sim.busInjections ds) (fun _ => ⟨rfl, rfl⟩) rfl
  have hm1' : Numbered { s' with devices := ds.map (renAt f), buses := s'.buses.map (Sim.busInjections (ds.map (renAt f))) } m :=
    numbered_of hm' (Sim.busInjections (ds.map (renAt f))) (fun _ => ⟨rfl, rfl⟩) rfl
  obtain ⟨po', e2, hpo⟩ := pf_ren (s := { s with devices := ds, buses := s.buses.map (Sim.busInjections ds) })
    (s' := { s' with devices := ds.map (renAt f), buses := s'.buses.map (Sim.busInjections (ds.map (renAt f))) }) ho hf hm1 hm1' pb hr.branches hl he h2 hstab
  have pb2 : ((solvedBuses po (s.buses.map (Sim.busInjections ds))).map (renBus f)).Perm
      (solvedBuses po' (s'.buses.map (Sim.busInjections (ds.map (renAt f))))) := by
    have q1 := solvedBuses_eq hm1 po
    have q2 := solvedBuses_eq hm1' po'
    dsimp only at q1 q2
    rw [q1, q2]
    refine (List.Perm.of_eq ?_).trans (pb.map (solvedBus po'))
    rw [List.map_map, List.map_map (f := renBus f)]
    exact List.map_congr_left fun b hb => (solvedBus_ren hpo hm1 hb).symm
  have hn2 : ((solvedBuses po (s.buses.map (Sim.busInjections ds))).map Bus.id).Nodup := by
    have q1 := solvedBuses_eq hm1 po
    dsimp only at q1
    rw [q1, List.map_map]
    exact nodup_numbered hm1
  have e3 : mapE (slackOf po' (s'.buses.map (Sim.busInjections (ds.map (renAt f))))) (ds.map (renAt f)) = .ok (ds2.map (renAt f)) := by
    rw [mapE_units (f := slackOf po (s.buses.map (Sim.busInjections ds))) (h := renAt f) ds, show mapE _ ds = _ from h3]
    · rfl
    intro d _
    have hfind : (solvedBuses po' (s'.buses.map (Sim.busInjections (ds.map (renAt f))))).find? (fun b => b.id = (renAt f d).busId) =
        ((solvedBuses po (s.buses.map (Sim.busInjections ds))).find? fun b => b.id = d.busId).map (renBus f) := by
      rw [← find_ren hf]
      refine find_perm pb2 ?_ _
      have := hn2.map hf
      rw [List.map_map] at this ⊢
      exact this
    unfold slackOf
    unfold solvedBuses at hfind
    rw [hfind, show (renAt f d).isSlack = d.isSlack from rfl]
    split
    · generalize List.find? _ _ = x
      cases x <;> rfl
    · rfl
  have hlen : s.branches.length = ls.length := hl.length_eq
  have e4 := flows_ren (f := f) s.branches (po := po) (po' := po') (by rw [hlen]; exact hpo.flow)
  have hr2 : BusesRenamed f
      { s with devices := ds2, buses := solvedBuses po (s.buses.map (Sim.busInjections ds)), branches := s.branches.mapIdx fun k b => { b with flow := po.flow k }, pfeConverged := some po.stable }
      { s' with devices := ds2.map (renAt f), buses := solvedBuses po' (s'.buses.map (Sim.busInjections (ds.map (renAt f)))), branches := s'.branches.mapIdx fun k b => { b with flow := po'.flow k }, pfeConverged := some po'.stable } :=
    ⟨hr.base, hr.dt, hr.lamb, pb2, by rw [← e4, ← hr.branches], rfl⟩
  obtain ⟨st', e5, hs⟩ := gatherState_ren hf hr2 hn2 hst
  have e6 : Sim.computeReward { s' with devices := ds2.map (renAt f), buses := solvedBuses po' (s'.buses.map (Sim.busInjections (ds.map (renAt f)))), branches := s'.branches.mapIdx fun k b => { b with flow := po'.flow k }, pfeConverged := some po'.stable, state := some st' } = .ok (r, e, pen) := by
    simp only [Sim.computeReward, bind_ok, pure_ok] at h6 ⊢
    obtain ⟨bp, b1, b2⟩ := h6
    have b3 : mapE Sim.busPenalty ((solvedBuses po (s.buses.map (Sim.busInjections ds))).map (renBus f)) = .ok bp := by
      rw [mapE_units (f := Sim.busPenalty) (g := renBus f) (h := id) _ fun b _ => except_map_id (Sim.busPenalty b), b1]
      simp [Except.map]
    obtain ⟨bp', b4, b5⟩ := mapE_perm b3 pb2
    refine ⟨bp', b4, ?_⟩
    rw [← b2, hr.dt, hr.lamb, hr.branches, e4, List.foldl_map, List.foldl_map, ← X_foldl_perm (fun x => x) b5]
    rfl
  refine ⟨{ s' with devices := ds2.map (renAt f), buses := solvedBuses po' (s'.buses.map (Sim.busInjections (ds.map (renAt f)))), branches := s'.branches.mapIdx fun k b => { b with flow := po'.flow k }, pfeConverged := some po'.stable, state := some st' }, st, st', ?_, ?_, rfl, rfl, hs⟩
  · unfold Sim.transition Sim.solveStep
    simp only [applyPF_eq, bind_ok]
    refine ⟨_, ⟨_, e1, po', e2, _, ⟨_, e3, rfl⟩, rfl⟩, st', e5, _, e6, ?_⟩
    rw [show po.stable = po'.stable from hpo.stable.symm]
    rfl
  · exact ⟨hr2.base, hr2.dt, hr2.lamb, hr2.buses, hr2.branches, hr2.devices⟩

/-! ### Reset and runs -/

theorem resetArgs_renAt (x y z : List (X ℝ)) (ds : List (Device ℝ)) (i g : ℕ) (a : Sim.Args ℝ) :
    Sim.resetArgs x y z (ds.map (renAt f)) i g a = Sim.resetArgs x y z ds i g a := by
  induction ds generalizing i g a with
  | nil => rfl
  | cons d ds ih =>
    rw [List.map_cons]
    simp only [Sim.resetArgs, ih]
    rfl

theorem assignSoc_renAt (b : X ℝ) (soc : List (X ℝ)) (ds : List (Device ℝ)) (k : ℕ) :
    Sim.assignSoc b soc (ds.map (renAt f)) k = (Sim.assignSoc b soc ds k).map (List.map (renAt f)) := by
  induction ds generalizing k with
  | nil => rfl
  | cons d ds ih =>
    rw [List.map_cons]
    simp only [Sim.assignSoc, ih]
    rw [show (renAt f d).isStorage = d.isStorage from rfl]
    split
    · refine bind_named fun x => ?_
      cases Sim.assignSoc b soc ds (k + 1) <;> rfl
    · cases Sim.assignSoc b soc ds k <;> rfl

/-- **C144** for `reset`. -/
theorem C144_reset {init : List (X ℝ)} (ho : OrderBlind o) (hf : Function.Injective f) (hm : Numbered s m) (hm' : Numbered s' m) (hl : FiniteLines s ls)
    (he : EndsIn m ls) (hr : BusesRenamed f s s') (h : s.reset ⟨qp, realPF o, pi⟩ init = .ok (s1, true)) :
    ∃ s1' st st', s'.reset ⟨qp, realPF o, pi⟩ init = .ok (s1', true) ∧ BusesRenamed f s1 s1' ∧
      s1.state = some st ∧ s1'.state = some st' ∧ StateBusesRenamed f st st' := by
  obtain ⟨a, ds, ds', s2, out, R, hc⟩ := reset_ok h
  have hcfg := sameConfig_resetSoc R
  have z1 : s'.nDevice = s.nDevice := by simp only [Sim.nDevice, hr.devices, List.length_map]
  have hfil : ∀ q : Device ℝ → Bool, (∀ d, q (renAt f d) = q d) → s'.devices.filter q = (s.devices.filter q).map (renAt f) := by
    intro q hq
    rw [hr.devices, List.filter_map]
    congr 1
    exact List.filter_congr fun d _ => hq d
  have z2 : s'.nDes = s.nDes := by simp only [Sim.nDes, hfil Device.isStorage (fun _ => rfl), List.length_map]
  have z3 : s'.nNonSlackGen = s.nNonSlackGen := by simp only [Sim.nNonSlackGen, hfil Device.isNonSlackGen (fun _ => rfl), List.length_map]
  have e1 : mapE (Sim.resetSoc a.pSet) s'.devices = .ok (ds.map (renAt f)) := by
    rw [hr.devices, mapE_units (f := Sim.resetSoc a.pSet) (h := renAt f) _ fun d _ => ?_, mapE_ok.2 R.soc]
    · rfl
    · unfold Sim.resetSoc
      rw [show (renAt f d).isStorage = d.isStorage from rfl]
      split
      · exact bind_named fun _ => rfl
      · rfl
  have hr0 : BusesRenamed f { s with state := none, devices := ds } { s' with state := none, devices := ds.map (renAt f) } :=
    ⟨hr.base, hr.dt, hr.lamb, hr.buses, hr.branches, rfl⟩
  have hm0' : Numbered { s' with state := none, devices := ds.map (renAt f) } m := ⟨hm'.ids, hm'.pos, hm'.slack⟩
  obtain ⟨t1, _, _, k1, k2, -⟩ := C144_transition ho hf (numbered_same hcfg hm) hm0' (finiteLines_same hcfg hl) he hr0 R.trans hc.symm
  obtain ⟨st, hst, rfl⟩ := R.result
  have hn2 : (s2.buses.map Bus.id).Nodup := nodup_numbered (numbered_same (sameConfig_trans hcfg (sameConfig_transition R.trans)) hm)
  have hr2 : BusesRenamed f { s2 with devices := ds' } { t1 with devices := ds'.map (renAt f) } :=
    ⟨k2.base, k2.dt, k2.lamb, k2.buses, k2.branches, rfl⟩
  obtain ⟨st', hst', hs⟩ := gatherState_ren hf hr2 hn2 hst
  refine ⟨{ t1 with devices := ds'.map (renAt f), state := some st' }, st, st', ?_, ⟨k2.base, k2.dt, k2.lamb, k2.buses, k2.branches, rfl⟩, rfl, rfl, hs⟩
  simp only [Sim.reset, bind_ok, pure_ok, Prod.mk.injEq]
  refine ⟨a, ?_, ds.map (renAt f), e1, (t1, out), k1, ds'.map (renAt f), ?_, st', hst', rfl, hc.symm⟩
  · have := R.args
    rw [← z1, ← z2, ← z3] at this
    rw [← resetArgs_renAt (f := f), ← hr.devices] at this
    exact this
  · have := R.assign
    rw [← z1, ← z2, ← k2.base] at this
    have e2 : Sim.assignSoc t1.baseMVA (Sim.slice init (2 * s'.nDevice) (2 * s'.nDevice + s'.nDes)) t1.devices 0 = .ok (ds'.map (renAt f)) := by
      rw [k2.devices, assignSoc_renAt, this]
      rfl
    exact e2

/-- **C144** over several time steps: as long as the load flow converges, the calls return the same, and the simulators keep differing by the
numbers of the buses only. -/
theorem C144_runs {as : List (Sim.Args ℝ)} {outs : List (Sim.TransOut ℝ)} (ho : OrderBlind o) (hf : Function.Injective f) (hm : Numbered s m)
    (hm' : Numbered s' m) (hl : FiniteLines s ls) (he : EndsIn m ls) (hr : BusesRenamed f s s')
    (h : Runs ⟨qp, realPF o, pi⟩ s as outs s1) (hc : ∀ x ∈ outs, x.converged = true) :
    ∃ s1', Runs ⟨qp, realPF o, pi⟩ s' as outs s1' ∧ BusesRenamed f s1 s1' := by
  induction h generalizing s' with
  | done s => exact ⟨s', .done s', hr⟩
  | @step s s2 s1 a as x outs h1 h2 ih =>
    obtain ⟨t1, _, _, k1, k2, -⟩ := C144_transition ho hf hm hm' hl he hr h1 (hc x (by simp))
    have hsame := sameConfig_transition h1
    have hsame' := sameConfig_transition k1
    obtain ⟨t', k5, k6⟩ := ih (numbered_same hsame hm) (numbered_same hsame' hm') (finiteLines_same hsame hl) k2 fun z hz => hc z (by simp [hz])
    exact ⟨t', .step k1 k5, k6⟩

theorem busesRenamed_symm {f : Equiv.Perm ℤ} (h : BusesRenamed f s s') : BusesRenamed f.symm s' s := by
  refine ⟨h.base.symm, h.dt.symm, h.lamb.symm, ?_, ?_, ?_⟩
  · have := (h.buses.map (renBus f.symm)).symm
    rw [List.map_map] at this
    refine this.trans (List.Perm.of_eq ?_)
    rw [show (renBus f.symm ∘ renBus f : Bus ℝ → Bus ℝ) = id by funext b; simp [renBus], List.map_id]
  · rw [h.branches, List.map_map, show (renBranch f.symm ∘ renBranch f : Branch ℝ → Branch ℝ) = id by funext b; simp [renBranch, renLine], List.map_id]
  · rw [h.devices, List.map_map, show (renAt f.symm ∘ renAt f : Device ℝ → Device ℝ) = id by funext b; simp [renAt], List.map_id]

theorem endsIn_ren {f : Equiv.Perm ℤ} (hm : Numbered s m) (hm' : Numbered s' m) (hr : BusesRenamed f s s') (he : EndsIn m ls) : EndsIn m (ls.map (renC f)) := by
  obtain ⟨σ, τ, -, -, hτ⟩ := renumbering f.injective hm hm' hr.buses
  have key : ∀ i : ℤ, 0 ≤ i ∧ i < (m + 1 : ℕ) → 0 ≤ f i ∧ f i < (m + 1 : ℕ) := by
    intro i hi
    obtain ⟨k, rfl⟩ : ∃ k : Fin (m + 1), i = ((k : ℕ) : ℤ) := ⟨⟨i.toNat, by omega⟩, by simp [hi.1]⟩
    rw [hτ]
    have := (τ k).2
    omega
  intro l hl
  obtain ⟨l0, h0, rfl⟩ := List.mem_map.1 hl
  exact ⟨key _ (he l0 h0).1, key _ (he l0 h0).2⟩

/-- **C144.** Whether the load flow converges does not depend on the numbers of the buses. -/
theorem C144_converged {f : Equiv.Perm ℤ} {s1' : Sim ℝ} {out' : Sim.TransOut ℝ} (ho : OrderBlind o) (hm : Numbered s m) (hm' : Numbered s' m)
    (hl : FiniteLines s ls) (he : EndsIn m ls) (hr : BusesRenamed f s s') (h : s.transition ⟨qp, realPF o, pi⟩ a = .ok (s1, out))
    (h' : s'.transition ⟨qp, realPF o, pi⟩ a = .ok (s1', out')) : out'.converged = out.converged := by
  have h1 : out.converged = true → out'.converged = true := by
    intro hc
    obtain ⟨_, _, _, e, -⟩ := C144_transition ho f.injective hm hm' hl he hr h hc
    rw [h'] at e
    cases e
    exact hc
  have h2 : out'.converged = true → out.converged = true := by
    intro hc
    obtain ⟨_, _, _, e, -⟩ := C144_transition ho f.symm.injective hm' hm (finiteLines_ren hr.branches hl) (endsIn_ren hm hm' hr he) (busesRenamed_symm hr) h' hc
    rw [h] at e
    cases e
    exact hc
  cases h3 : out.converged <;> cases h4 : out'.converged <;> simp_all

end

/-! ### The constructor -/

namespace Spec

/-- A cell with a bus number, under the new number. -/
def renCell (f : ℤ → ℤ) (c : Cell ℝ) : Cell ℝ := c.map fun x => match x with
  | .fin y => .fin (f ⌊y⌋ : ℝ)
  | x => x

/-- A row of the bus array under the new number of the bus. -/
def renBusRow (f : ℤ → ℤ) (r : BusRow ℝ) : BusRow ℝ
  | .busId => renCell f (r .busId)
  | c => r c

/-- A row of the branch array under the new numbers of its ends. -/
def renBranchRow (f : ℤ → ℤ) (r : BranchRow ℝ) : BranchRow ℝ
  | .fBus => renCell f (r .fBus)
  | .tBus => renCell f (r .tBus)
  | c => r c

/-- A row of the device array under the new number of its bus. -/
def renDevRow (f : ℤ → ℤ) (r : DevRow ℝ) : DevRow ℝ
  | .busId => renCell f (r .busId)
  | c => r c

/-- The network file in which bus `i` has number `f i`. -/
def renumbered (f : ℤ → ℤ) (n : Network ℝ) : Network ℝ :=
  { n with bus := n.bus.map (renBusRow f), branch := n.branch.map (renBranchRow f), device := n.device.map (renDevRow f) }

end Spec

section
variable {f : ℤ → ℤ} {ids ids' : List ℤ}

theorem renCell_int (i : ℤ) : renCell f (some (.fin (i : ℝ))) = some (.fin (f i : ℝ)) := by
  simp [renCell]

theorem mkBus_ren {r : BusRow ℝ} {i : ℤ} (h : r .busId = some (.fin (i : ℝ))) : mkBus (renBusRow f r) = (mkBus r).map (renBus f) := by
  unfold mkBus
  refine bind_units f ?_ fun i => ?_
  · rw [show renBusRow f r .busId = renCell f (r .busId) from rfl, h, renCell_int, cellInt, cellInt, toInt_intCast, toInt_intCast]
    rfl
  iterate 6 refine bind_named fun _ => ?_
  rfl

theorem endpoint_ren (hids : ∀ i, f i ∈ ids' ↔ i ∈ ids) {c : Cell ℝ} {i : ℤ} (h : c = some (.fin (i : ℝ))) (e : PyErr) :
    endpoint (renCell f c) ids' e = (endpoint c ids e).map f := by
  rw [h, renCell_int]
  unfold endpoint guardE
  dsimp only
  rw [toInt_intCast, toInt_intCast]
  by_cases hi : i ∈ ids
  · rw [if_pos (inIds_intCast.2 hi), if_pos (inIds_intCast.2 ((hids i).2 hi))]
    rfl
  · rw [if_neg fun h => hi (inIds_intCast.1 h), if_neg fun h => hi ((hids i).1 (inIds_intCast.1 h))]
    rfl

theorem mkLine_ren (hids : ∀ i, f i ∈ ids' ↔ i ∈ ids) {r : BranchRow ℝ} {i j : ℤ} (hi : r .fBus = some (.fin (i : ℝ)))
    (hj : r .tBus = some (.fin (j : ℝ))) (m : X ℝ) : mkLine (renBranchRow f r) m ids' = (mkLine r m ids).map (renLine f) := by
  unfold mkLine
  refine bind_units f (endpoint_ren hids hi _) fun _ => ?_
  refine bind_units f (endpoint_ren hids hj _) fun _ => ?_
  iterate 7 refine bind_named fun _ => ?_
  rfl

theorem deviceCommon_ren (hids : ∀ i, f i ∈ ids' ↔ i ∈ ids) {r : DevRow ℝ} {i : ℤ} (h : r .busId = some (.fin (i : ℝ))) :
    deviceCommon (renDevRow f r) ids' = (deviceCommon r ids).map fun t => (t.1, f t.2.1, t.2.2) := by
  unfold deviceCommon
  refine bind_named fun _ => ?_
  refine bind_named fun _ => ?_
  refine bind_units f (endpoint_ren hids h _) fun _ => ?_
  refine bind_named fun _ => ?_
  rfl

theorem mkDevice_ren (hids : ∀ i, f i ∈ ids' ↔ i ∈ ids) {r : DevRow ℝ} {i : ℤ} (h : r .busId = some (.fin (i : ℝ))) (m : X ℝ) :
    mkDevice (renDevRow f r) ids' m = (mkDevice r ids m).map (renAt f) := by
  have h1 : mkLoad (renDevRow f r) ids' m = (mkLoad r ids m).map (renAt f) := by
    unfold mkLoad
    refine bind_units _ (deviceCommon_ren hids h) fun ⟨i, b, sl⟩ => ?_
    dsimp only
    iterate 4 refine bind_named fun _ => ?_
    rfl
  have h2 : ∀ kind, mkGen kind (renDevRow f r) ids' m = (mkGen kind r ids m).map (renAt f) := by
    intro kind
    unfold mkGen
    refine bind_units _ (deviceCommon_ren hids h) fun ⟨i, b, sl⟩ => ?_
    dsimp only
    iterate 9 refine bind_named fun _ => ?_
    rfl
  have h3 : mkStorage (renDevRow f r) ids' m = (mkStorage r ids m).map (renAt f) := by
    unfold mkStorage
    refine bind_units _ (deviceCommon_ren hids h) fun ⟨i, b, sl⟩ => ?_
    dsimp only
    iterate 16 refine bind_named fun _ => ?_
    rfl
  unfold mkDevice
  refine bind_named fun ty => ?_
  rw [h1, h2, h2, h3]
  split_ifs <;> rfl

theorem exactlyOne_map {α β : Type} {P : α → Prop} {Q : β → Prop} (g : α → β) (hg : ∀ a, Q (g a) ↔ P a) {l : List α} (h : ExactlyOne P l) :
    ExactlyOne Q (l.map g) := by
  obtain ⟨k, a, h1, h2, h3⟩ := h
  refine ⟨k, g a, by rw [List.getElem?_map, h1]; rfl, (hg a).2 h2, ?_⟩
  intro j b hj hb
  rw [List.getElem?_map] at hj
  cases hd : l[j]? with
  | none => rw [hd] at hj; cases hj
  | some d =>
    rw [hd] at hj
    cases hj
    exact h3 j d hd ((hg d).1 hb)

/-- All bus numbers of the file are integers. -/
structure BusCells (n : Network ℝ) : Prop where
  bus : ∀ r ∈ n.bus, ∃ i : ℤ, r .busId = some (.fin (i : ℝ))
  ends : ∀ r ∈ n.branch, ∃ i j : ℤ, r .fBus = some (.fin (i : ℝ)) ∧ r .tBus = some (.fin (j : ℝ))
  dev : ∀ r ∈ n.device, ∃ i : ℤ, r .busId = some (.fin (i : ℝ))

theorem renCell_inj (hf : Function.Injective f) {i j : ℤ} {c c' : Cell ℝ} (h : c = some (.fin (i : ℝ))) (h' : c' = some (.fin (j : ℝ))) :
    renCell f c = renCell f c' ↔ c = c' := by
  rw [h, h', renCell_int, renCell_int]
  simp [hf.eq_iff]

theorem noNan_ren {n : Network ℝ} (C : BusCells n) (hn : NoNanTopology n) : NoNanTopology (renumbered f n) := by
  refine ⟨hn.base, ?_, ?_, ?_⟩
  · intro r hr
    obtain ⟨r', hr', rfl⟩ := List.mem_map.1 hr
    obtain ⟨i, hi⟩ := C.bus r' hr'
    refine ⟨?_, (hn.bus r' hr').2⟩
    simp [renBusRow, hi, renCell, CellOk]
  · intro r hr
    obtain ⟨r', hr', rfl⟩ := List.mem_map.1 hr
    obtain ⟨i, hi⟩ := C.dev r' hr'
    refine ⟨(hn.dev r' hr').1, ?_, (hn.dev r' hr').2.2⟩
    simp [renDevRow, hi, renCell, CellOk]
  · intro r hr
    obtain ⟨r', hr', rfl⟩ := List.mem_map.1 hr
    obtain ⟨i, j, hi, hj⟩ := C.ends r' hr'
    constructor <;> simp [renBranchRow, hi, hj, renCell, CellOk]

theorem wellFormed_ren (hf : Function.Injective f) {n : Network ℝ} (C : BusCells n) (W : WellFormed n) : WellFormed (renumbered f n) := by
  refine ⟨W.basePos, exactlyOne_map _ (fun _ => Iff.rfl) W.oneSlackBus, exactlyOne_map _ (fun _ => Iff.rfl) W.oneSlackDev, ?_, ?_, ?_, ⟨?_, ?_⟩, ?_⟩
  · intro b hb d hd h1 h2
    obtain ⟨b', hb', rfl⟩ := List.mem_map.1 hb
    obtain ⟨d', hd', rfl⟩ := List.mem_map.1 hd
    exact congrArg (renCell f) (W.slackMatch b' hb' d' hd' h1 h2)
  · refine List.pairwise_map.2 (W.busIds.imp_of_mem ?_)
    intro a b ha hb hab e
    obtain ⟨i, hi⟩ := C.bus a ha
    obtain ⟨j, hj⟩ := C.bus b hb
    exact hab ((renCell_inj hf hi hj).1 e)
  · exact List.pairwise_map.2 W.devIds
  · intro a ha e
    obtain ⟨a', ha', rfl⟩ := List.mem_map.1 ha
    obtain ⟨i, j, hi, hj⟩ := C.ends a' ha'
    exact W.simple.1 a' ha' ((renCell_inj hf hi hj).1 e)
  · refine List.pairwise_map.2 (W.simple.2.imp_of_mem ?_)
    intro a b ha hb hab e
    obtain ⟨i, j, hi, hj⟩ := C.ends a ha
    obtain ⟨k, l, hk, hl⟩ := C.ends b hb
    refine hab (e.imp (fun e => ?_) fun e => ?_)
    · exact ⟨(renCell_inj hf hi hk).1 e.1, (renCell_inj hf hj hl).1 e.2⟩
    · exact ⟨(renCell_inj hf hi hl).1 e.1, (renCell_inj hf hj hk).1 e.2⟩
  · intro a ha
    obtain ⟨a', ha', rfl⟩ := List.mem_map.1 ha
    obtain ⟨⟨b, hb, h1⟩, b', hb', h2⟩ := W.endpoints a' ha'
    exact ⟨⟨renBusRow f b, List.mem_map_of_mem hb, congrArg (renCell f) h1⟩, renBusRow f b', List.mem_map_of_mem hb', congrArg (renCell f) h2⟩

/-- **C144.** The constructor accepts the file with renumbered buses, if the numbers stay `0, …, m` and the slack bus stays bus 0, and builds the
same simulator up to the numbers of the buses. -/
theorem C144_construct (hf : Function.Injective f) {n : Network ℝ} {dt lam : X ℝ} {s : Sim ℝ} {m : ℕ} (h : mkSim n dt lam = .ok s)
    (hb : n.baseMVA ≠ .nan) (hi : IntegralIds n) (hm : Numbered s m) (h0 : f 0 = 0) (hr : ∀ i : ℤ, 0 ≤ i → i ≤ m → 0 ≤ f i ∧ f i ≤ m) :
    ∃ s', mkSim (renumbered f n) dt lam = .ok s' ∧ BusesRenamed f s s' ∧ Numbered s' m := by
  have hn := noNan_of_mkSim h hb
  obtain ⟨⟨hchk, hyb⟩, buses, branches, devices, bl, brl, dl, I, rfl⟩ := mkSim_ok.1 h
  have W := (C01_checkNetwork_iff hn).1 hchk
  obtain ⟨n1, n2, n3⟩ := nodup_of_accepted h hb hi I
  have hids : buses.map Bus.id = (List.range (m + 1)).map Int.ofNat := by
    rw [← hm.ids, List.map_map]; rfl
  have hmem : ∀ i, i ∈ buses.map Bus.id ↔ 0 ≤ i ∧ i ≤ m := by
    intro i
    rw [hids, List.mem_map]
    constructor
    · rintro ⟨k, hk, rfl⟩
      rw [List.mem_range] at hk
      exact ⟨Int.natCast_nonneg k, by show (k : ℤ) ≤ m; omega⟩
    · rintro ⟨h1, h2⟩
      exact ⟨i.toNat, List.mem_range.2 (by omega), by show (i.toNat : ℤ) = i; omega⟩
  -- all numbers are integers
  have C : BusCells n := by
    refine ⟨hi.1, ?_, ?_⟩
    · intro r hr
      obtain ⟨l, -, hl⟩ := forall₂_mem_left (mapE_ok.1 I.hbrl) hr
      have L := mkLine_ok hl
      obtain ⟨xf, f1, f2, f3⟩ := L.f
      obtain ⟨xt, t1, t2, t3⟩ := L.t
      exact ⟨_, _, by rw [f1, (inIds_toInt f2 f3).1], by rw [t1, (inIds_toInt t2 t3).1]⟩
    · intro r hr
      obtain ⟨d, -, hd⟩ := forall₂_mem_left (mapE_ok.1 I.hdl) hr
      obtain ⟨x, x1, x2, x3⟩ := (mkDevice_common hd).bus_eq
      exact ⟨_, by rw [x1, (inIds_toInt x2 x3).1]⟩
  -- the buses
  have hbl' : mapE mkBus (n.bus.map (renBusRow f)) = .ok (bl.map (renBus f)) := by
    rw [mapE_units (f := mkBus) (h := renBus f) n.bus fun r hr => ?_, I.hbl]
    · rfl
    · obtain ⟨i, h1⟩ := hi.1 r hr
      exact mkBus_ren h1
  set buses' := (sortDict (dictOf Bus.id (bl.map (renBus f)))).map (·.2) with hbuses'
  have n1' : ((bl.map (renBus f)).map Bus.id).Nodup := by
    have := n1.map hf
    rw [List.map_map] at this ⊢
    exact this
  have hp : (buses.map (renBus f)).Perm buses' := by
    refine ((I.perm_buses n1).map _).trans (List.Perm.symm (((sortDict_perm _).map _).trans ?_))
    rw [dictOf_distinct _ _ n1', List.map_map]
    simp [Function.comp_def]
  have hmem1 : ∀ i, i ∈ buses'.map Bus.id ↔ ∃ j, j ∈ buses.map Bus.id ∧ f j = i := by
    intro i
    rw [← (hp.map Bus.id).mem_iff, List.map_map]
    simp only [List.mem_map, Function.comp, renBus]
    constructor
    · rintro ⟨b, hb, rfl⟩; exact ⟨b.id, ⟨b, hb, rfl⟩, rfl⟩
    · rintro ⟨j, ⟨b, hb, rfl⟩, rfl⟩; exact ⟨b, hb, rfl⟩
  have hstep : ∀ i, f i ∈ buses'.map Bus.id ↔ i ∈ buses.map Bus.id := by
    intro i
    rw [hmem1]
    constructor
    · rintro ⟨j, hj, e⟩; rwa [← hf e]
    · exact fun h => ⟨i, h, rfl⟩
  have hsort' : (buses'.map Bus.id).Pairwise (· < ·) := List.pairwise_map.2 (sortDict_strict _ _ (dictOf_inv _ _))
  have hids' : buses'.map Bus.id = buses.map Bus.id := by
    have hnd : (buses'.map Bus.id).Nodup := hsort'.imp fun h => h.ne
    have hnd0 : (buses.map Bus.id).Nodup := by
      rw [hids]
      exact List.nodup_range.map fun a b h => by simpa using h
    have hsub : buses'.map Bus.id ⊆ buses.map Bus.id := by
      intro i hi
      obtain ⟨j, hj, rfl⟩ := (hmem1 i).1 hi
      rw [hmem] at hj ⊢
      exact hr j hj.1 hj.2
    have hlen : (buses.map Bus.id).length ≤ (buses'.map Bus.id).length := by
      rw [List.length_map, List.length_map, ← hp.length_eq, List.length_map]
    have hperm : (buses'.map Bus.id).Perm (buses.map Bus.id) := (hnd.subperm hsub).perm_of_length_le hlen
    exact hperm.eq_of_pairwise (fun a b _ _ h1 h2 => by omega) hsort' (List.pairwise_map.2 I.buses_sorted)
  -- the branches
  have hbrl' : mapE (fun r => mkLine r n.baseMVA (buses'.map Bus.id)) (n.branch.map (renBranchRow f)) = .ok (brl.map (renLine f)) := by
    rw [mapE_units (f := fun r => mkLine r n.baseMVA (buses.map Bus.id)) (h := renLine f) n.branch fun r hr => ?_, I.hbrl]
    · rfl
    · obtain ⟨i, j, h1, h2⟩ := C.ends r hr
      exact mkLine_ren hstep h1 h2 _
  have n3' : ((brl.map (renLine f)).map fun l => (l.fBus, l.tBus)).Nodup := by
    have := n3.map (f := fun e : ℤ × ℤ => (f e.1, f e.2)) fun a b h => by
      simp only [Prod.mk.injEq] at h
      exact Prod.ext (hf h.1) (hf h.2)
    rw [List.map_map] at this ⊢
    exact this
  -- the devices
  have hdl' : mapE (fun r => mkDevice r (buses'.map Bus.id) n.baseMVA) (n.device.map (renDevRow f)) = .ok (dl.map (renAt f)) := by
    rw [mapE_units (f := fun r => mkDevice r (buses.map Bus.id) n.baseMVA) (h := renAt f) n.device fun r hr => ?_, I.hdl]
    · rfl
    · obtain ⟨i, h1⟩ := C.dev r hr
      exact mkDevice_ren hstep h1 _
  have hdev' : (sortDict (dictOf Device.id (dl.map (renAt f)))).map (·.2) = devices.map (renAt f) := by
    have n2' : ((dl.map (renAt f)).map Device.id).Nodup := by rw [List.map_map]; exact n2
    have hq : (((sortDict (dictOf Device.id (dl.map (renAt f)))).map (·.2))).Perm (devices.map (renAt f)) := by
      refine List.Perm.trans (((sortDict_perm _).map _).trans ?_) ((I.perm_devices n2).symm.map _)
      rw [dictOf_distinct _ _ n2', List.map_map]
      simp [Function.comp_def]
    refine hq.eq_of_pairwise (fun a b _ _ h1 h2 => by omega) (sortDict_strict _ _ (dictOf_inv _ _)) ?_
    exact List.pairwise_map.2 I.devices_sorted
  -- the bounds of the buses
  have hbb : ∀ b, busBounds (devices.map (renAt f)) (renBus f b) = renBus f (busBounds devices b) := by
    intro b
    have e : (devices.map (renAt f)).filter (fun d => decide (d.busId = (renBus f b).id)) = (devices.filter fun d => decide (d.busId = b.id)).map (renAt f) := by
      rw [List.filter_map]
      congr 1
      refine List.filter_congr fun d _ => ?_
      simp only [Function.comp, renAt, renBus, hf.eq_iff]
    unfold busBounds
    rw [e]
    dsimp only
    rw [List.foldl_map, List.foldl_map, List.foldl_map, List.foldl_map]
    rfl
  have hbr' : ((dictOf (fun l : Line ℝ => (l.fBus, l.tBus)) (brl.map (renLine f))).map (·.2)).map (fun l => ({ line := l } : Branch ℝ)) =
      branches.map (renBranch f) := by
    rw [dictOf_distinct _ _ n3', I.eq_branches n3]
    simp only [List.map_map]
    rfl
  set s' : Sim ℝ := { baseMVA := n.baseMVA, deltaT := dt, lamb := lam, buses := buses'.map (busBounds (devices.map (renAt f))),
                      branches := branches.map (renBranch f), devices := devices.map (renAt f) } with hs'
  have hids2 : s'.buses.map Bus.id = buses.map Bus.id := by
    rw [← hids']
    show (buses'.map _).map _ = _
    rw [List.map_map]
    rfl
  have hbp : ((buses.map (busBounds devices)).map (renBus f)).Perm s'.buses := by
    have := hp.map (busBounds (devices.map (renAt f)))
    rw [List.map_map] at this ⊢
    refine (List.Perm.of_eq ?_).trans this
    exact List.map_congr_left fun b _ => (hbb b).symm
  refine ⟨s', ?_, ⟨rfl, rfl, rfl, hbp, rfl, rfl⟩, ?_⟩
  · refine mkSim_ok.2 ⟨⟨(C01_checkNetwork_iff (noNan_ren C hn)).2 (wellFormed_ren hf C W), ?_⟩, buses', branches.map (renBranch f), devices.map (renAt f),
      bl.map (renBus f), brl.map (renLine f), dl.map (renAt f), ⟨hbl', hbrl', hdl', rfl, hbr'.symm, hdev'.symm⟩, rfl⟩
    have hids3 : (buses.map (busBounds devices)).map Bus.id = buses.map Bus.id := by rw [List.map_map]; rfl
    have hyb : ybusCheck ((buses.map (busBounds devices)).map Bus.id) (branches.map fun b => (b.line.fBus, b.line.tBus)) = .ok () := hyb
    rw [hids2]
    rw [hids3] at hyb
    unfold ybusCheck at hyb ⊢
    simp only [bind_ok, guardE_ok] at hyb ⊢
    obtain ⟨_, g1, g2⟩ := hyb
    refine ⟨(), g1, ?_⟩
    have hin : ∀ i, i ∈ buses.map Bus.id → -((buses.map Bus.id).foldl max ((buses.map Bus.id).headD 0) + 1) ≤ i ∧
        i < (buses.map Bus.id).foldl max ((buses.map Bus.id).headD 0) + 1 := by
      intro i hi
      have h1 : i ≤ (buses.map Bus.id).foldl max ((buses.map Bus.id).headD 0) := (top_le (List.ne_nil_of_mem hi)).2 ⟨i, hi, le_rfl⟩
      have h2 := ((hmem i).1 hi).1
      constructor <;> omega
    intro e he
    simp only [hs', List.mem_map] at he
    obtain ⟨b', ⟨b, hb, rfl⟩, rfl⟩ := he
    have hbe : b.line.fBus ∈ buses.map Bus.id ∧ b.line.tBus ∈ buses.map Bus.id := by
      rw [I.eq_branches n3] at hb
      obtain ⟨l, hl, rfl⟩ := List.mem_map.1 hb
      obtain ⟨r, -, hl⟩ := forall₂_mem_right (mapE_ok.1 I.hbrl) hl
      have L := mkLine_ok hl
      obtain ⟨xf, f1, f2, f3⟩ := L.f
      obtain ⟨xt, t1, t2, t3⟩ := L.t
      exact ⟨(inIds_toInt f2 f3).2, (inIds_toInt t2 t3).2⟩
    constructor
    · exact hin _ (by rw [← hids']; exact (hstep _).2 hbe.1)
    · exact hin _ (by rw [← hids']; exact (hstep _).2 hbe.2)
  · refine ⟨hids2.trans hids, hm.pos, ?_⟩
    intro b hb
    obtain ⟨b0, hb0, rfl⟩ := List.mem_map.1 (hbp.mem_iff.2 hb)
    have := hm.slack b0 hb0
    show b0.isSlack = true ↔ f b0.id = 0
    rw [this]
    constructor
    · intro h; rw [h, h0]
    · intro h; rw [← h0] at h; exact hf h

end

/-! ### A case that meets the hypotheses -/

theorem anm6_integral : IntegralIds (anm6Net : Network ℝ) := by
  constructor
  · intro r hr
    simp only [anm6Net, Network.ofLists, List.map_cons, List.map_nil, List.mem_cons, List.not_mem_nil, or_false] at hr
    rcases hr with rfl | rfl | rfl | rfl | rfl | rfl
    exacts [⟨0, by simp [rowOf, headersBus, cel, List.idxOf, List.findIdx, List.findIdx.go]⟩, ⟨1, by simp [rowOf, headersBus, cel, List.idxOf, List.findIdx, List.findIdx.go]⟩, ⟨2, by simp [rowOf, headersBus, cel, List.idxOf, List.findIdx, List.findIdx.go]⟩,
      ⟨3, by simp [rowOf, headersBus, cel, List.idxOf, List.findIdx, List.findIdx.go]⟩, ⟨4, by simp [rowOf, headersBus, cel, List.idxOf, List.findIdx, List.findIdx.go]⟩, ⟨5, by simp [rowOf, headersBus, cel, List.idxOf, List.findIdx, List.findIdx.go]⟩]
  · intro r hr
    simp only [anm6Net, Network.ofLists, List.map_cons, List.map_nil, List.mem_cons, List.not_mem_nil, or_false] at hr
    rcases hr with rfl | rfl | rfl | rfl | rfl | rfl | rfl
    exacts [⟨0, by simp [rowOf, headersDev, cel, List.idxOf, List.findIdx, List.findIdx.go]⟩, ⟨1, by simp [rowOf, headersDev, cel, List.idxOf, List.findIdx, List.findIdx.go]⟩, ⟨2, by simp [rowOf, headersDev, cel, List.idxOf, List.findIdx, List.findIdx.go]⟩,
      ⟨3, by simp [rowOf, headersDev, cel, List.idxOf, List.findIdx, List.findIdx.go]⟩, ⟨4, by simp [rowOf, headersDev, cel, List.idxOf, List.findIdx, List.findIdx.go]⟩, ⟨5, by simp [rowOf, headersDev, cel, List.idxOf, List.findIdx, List.findIdx.go]⟩,
      ⟨6, by simp [rowOf, headersDev, cel, List.idxOf, List.findIdx, List.findIdx.go]⟩]

/-- The network of ANM6 with buses 4 and 5 exchanged: the file is accepted, and with exactly solved linear systems a reset to an initial state of
ANM6Easy converges for both numberings, to states that differ by the numbers of the buses only. -/
example : ∃ (s' t t' : Sim ℝ) (v : List (X ℝ)) (st st' : SimState ℝ),
    mkSim (renumbered (Equiv.swap (4 : ℤ) 5) anm6Net) (.fin (1/4)) (.fin 100) = .ok s' ∧
    (easySim : Sim ℝ).reset ⟨exactQP, realPF exactOracle, Real.pi⟩ v = .ok (t, true) ∧
    s'.reset ⟨exactQP, realPF exactOracle, Real.pi⟩ v = .ok (t', true) ∧
    t.state = some st ∧ t'.state = some st' ∧ StateBusesRenamed (Equiv.swap (4 : ℤ) 5) st st' := by
  obtain ⟨s', h1, h2, h3⟩ := C144_construct (Equiv.swap (4 : ℤ) 5).injective (anm6_mk (.fin (1/4)) (.fin 100)) (by simp [anm6Net, Network.ofLists])
    anm6_integral easy_numbered (Equiv.swap_apply_of_ne_of_ne (by norm_num) (by norm_num)) (by
      intro i i0 i1
      rcases eq_or_ne i 4 with rfl | h4
      · rw [Equiv.swap_apply_left]; norm_num
      rcases eq_or_ne i 5 with rfl | h5
      · rw [Equiv.swap_apply_right]; norm_num
      rw [Equiv.swap_apply_of_ne_of_ne h4 h5]
      exact ⟨i0, i1⟩)
  obtain ⟨a, hmk, ha⟩ := C83_made (w := exactWorld exactOracle 52) fun _ _ => rfl
  obtain ⟨a', obs, v, r, -, -, k⟩ := C116_reset exactOracle_exact rfl ha (fair_play 52) (C83_solvers _ _) (some 7) none (by simp)
  have hsim : a.env.sim = easySim := by
    obtain ⟨e, m, n, h3, _, h4, rfl⟩ := mkAnm6_ok hmk
    have h5 : mkSim anm6Net (.fin (1/4)) (.fin 100) = .ok e.sim := (mkEnv_ok h3).sim
    rw [anm6_mk] at h5
    exact (Except.ok.inj h5).symm
  rw [hsim] at k
  obtain ⟨t', st, st', e1, -, e2, e3, e4⟩ := C144_reset exactOracle_blind (Equiv.swap (4 : ℤ) 5).injective easy_numbered h3 easy_finiteLines
    easyLines_good.2 h2 k
  exact ⟨s', _, t', v, st, st', h1, k, e1, e2, e3, e4⟩

end
end Anm
