import Mathlib.Tactic.Ring
import Mathlib.Tactic.FieldSimp
import Verif.Spec.LoadFlow
import Verif.NumLemmas

/-! # Lemmas about the load-flow model -/

set_option linter.unusedSectionVars false

namespace Anm

open Spec Complex ComplexConjugate

/-! ### Admittance matrix -/

/-- Contribution of a line to an entry of the admittance matrix. -/
noncomputable def contrib (l : LineC) (a b : ℤ) : ℂ :=
  (if a = l.fBus ∧ b = l.tBus then -l.series / conj l.tap else 0) +
  (if a = l.tBus ∧ b = l.fBus then -l.series / l.tap else 0) +
  (if a = l.fBus ∧ b = l.fBus then (l.series + l.shunt) / (‖l.tap‖ : ℂ) ^ 2 else 0) +
  (if a = l.tBus ∧ b = l.tBus then l.series + l.shunt else 0)

theorem ybus_append (ls : List LineC) (l : LineC) : ybus (ls ++ [l]) = ybusStep (ybus ls) l := by
  simp [ybus]

theorem sum_contrib_zero {ls : List LineC} {f t : ℤ} (hft : f ≠ t)
    (h : ∀ l ∈ ls, ¬ (l.fBus = f ∧ l.tBus = t) ∧ ¬ (l.fBus = t ∧ l.tBus = f)) :
    (ls.map fun l => contrib l f t).sum = 0 := by
  induction ls with
  | nil => rfl
  | cons a ls ih =>
    rw [List.map_cons, List.sum_cons, ih fun l hl => h l (by simp [hl]), add_zero]
    obtain ⟨h1, h2⟩ := h a (by simp)
    unfold contrib
    rw [if_neg (by rintro ⟨e1, e2⟩; exact h1 ⟨e1.symm, e2.symm⟩),
      if_neg (by rintro ⟨e1, e2⟩; exact h2 ⟨e2.symm, e1.symm⟩),
      if_neg (by rintro ⟨e1, e2⟩; exact hft (e1.trans e2.symm)),
      if_neg (by rintro ⟨e1, e2⟩; exact hft (e1.trans e2.symm))]
    simp

/-- The admittance matrix is the sum of the contributions of the lines. -/
theorem ybus_eq {ls : List LineC} (h : SimpleLines ls) (a b : ℤ) :
    ybus ls a b = (ls.map fun l => contrib l a b).sum := by
  induction ls using List.reverseRecOn generalizing a b with
  | nil => rfl
  | append_singleton ls l ih =>
    have hs : SimpleLines ls := ⟨fun x hx => h.1 x (by simp [hx]), (List.pairwise_append.1 h.2).1⟩
    have hl : l.fBus ≠ l.tBus := h.1 l (by simp)
    have hd : ∀ x ∈ ls, ¬ (x.fBus = l.fBus ∧ x.tBus = l.tBus) ∧ ¬ (x.fBus = l.tBus ∧ x.tBus = l.fBus) :=
      fun x hx => (List.pairwise_append.1 h.2).2.2 x hx l (by simp)
    have z1 : ybus ls l.fBus l.tBus = 0 := by rw [ih hs]; exact sum_contrib_zero hl hd
    have z2 : ybus ls l.tBus l.fBus = 0 := by
      rw [ih hs]; exact sum_contrib_zero hl.symm fun x hx => ⟨(hd x hx).2, (hd x hx).1⟩
    rw [ybus_append, List.map_append, List.sum_append, ← ih hs a b]
    simp only [List.map_cons, List.map_nil, List.sum_cons, List.sum_nil, add_zero, ybusStep, setAt,
      contrib]
    clear ih hs hd h
    generalize ybus ls = Y at *
    generalize l.fBus = f at *
    generalize l.tBus = t at *
    have hl' := hl.symm
    by_cases h1 : a = f
    · subst h1
      by_cases h2 : b = a
      · subst h2; simp [hl, hl']
      · by_cases h3 : b = t
        · subst h3; simp [hl, hl', z1]
        · simp [hl, hl', h2, h3]
    · by_cases h4 : a = t
      · subst h4
        by_cases h2 : b = a
        · subst h2; simp [hl, hl']
        · by_cases h3 : b = f
          · subst h3; simp [hl, hl', z2]
          · simp [hl, hl', h2, h3]
      · simp [h1, h4]

/-- Voltages by bus ID. -/
theorem atId_nat {m : ℕ} (v : Fin (m + 1) → ℂ) (k : Fin (m + 1)) : atId v ((k : ℕ) : ℤ) = v k := by
  have := k.isLt
  simp [atId]
  omega

theorem sum_atId {m : ℕ} (v : Fin (m + 1) → ℂ) {i : ℤ} (h : 0 ≤ i ∧ i < (m + 1 : ℕ)) (c : ℂ) :
    ∑ j : Fin (m + 1), (if ((j : ℕ) : ℤ) = i then c else 0) * v j = c * atId v i := by
  obtain ⟨k, rfl⟩ : ∃ k : Fin (m + 1), ((k : ℕ) : ℤ) = i :=
    ⟨⟨i.toNat, by omega⟩, by simp [h.1]⟩
  rw [atId_nat]
  rw [Finset.sum_eq_single k]
  · simp
  · intro j _ hj
    rw [if_neg, zero_mul]
    intro e
    exact hj (Fin.ext (by exact_mod_cast e))
  · simp

/-- Current drawn by one line at bus `i`. -/
theorem sum_contrib {m : ℕ} (v : Fin (m + 1) → ℂ) (l : LineC) (i : ℤ)
    (h1 : 0 ≤ l.fBus ∧ l.fBus < (m + 1 : ℕ)) (h2 : 0 ≤ l.tBus ∧ l.tBus < (m + 1 : ℕ)) :
    ∑ j : Fin (m + 1), contrib l i ((j : ℕ) : ℤ) * v j =
      (if l.fBus = i then l.iFrom (atId v l.fBus) (atId v l.tBus) else 0) +
      (if l.tBus = i then l.iTo (atId v l.fBus) (atId v l.tBus) else 0) := by
  have key : ∀ (P : Prop) [Decidable P] (t : ℤ) (ht : 0 ≤ t ∧ t < (m + 1 : ℕ)) (c : ℂ),
      ∑ j : Fin (m + 1), (if P ∧ ((j : ℕ) : ℤ) = t then c else 0) * v j =
        if P then c * atId v t else 0 := by
    intro P _ t ht c
    by_cases hP : P
    · simp only [hP, true_and, if_true]
      exact sum_atId v ht c
    · simp [hP]
  simp only [contrib, add_mul, Finset.sum_add_distrib, key _ _ h1, key _ _ h2, eq_comm (a := i)]
  unfold LineC.iFrom LineC.iTo
  split_ifs <;> ring

/-- **Kirchhoff's current law** for the model of the admittance matrix. -/
theorem curr_eq_leaving {m : ℕ} {ls : List LineC} (hs : SimpleLines ls) (he : EndsIn m ls)
    (v : Fin (m + 1) → ℂ) (i : Fin (m + 1)) :
    NR.curr (ymat m ls) v i = leaving ls (atId v) ((i : ℕ) : ℤ) := by
  unfold NR.curr ymat leaving
  simp only [ybus_eq hs]
  clear hs
  induction ls with
  | nil => simp
  | cons l ls ih =>
    simp only [List.map_cons, List.sum_cons, add_mul, Finset.sum_add_distrib]
    rw [ih fun x hx => he x (by simp [hx])]
    obtain ⟨h1, h2⟩ := he l (by simp)
    rw [sum_contrib v l _ h1 h2]

/-! ### The norm -/

theorem X.maximum_le_iff {a b c : X ℝ} : X.maximum a b ≤ c ↔ a ≤ c ∧ b ≤ c := by
  unfold X.maximum
  by_cases ha : a = .nan
  · subst ha
    simp only [if_true]
    constructor
    · intro h; exact absurd h (X.not_nan_le _)
    · rintro ⟨h, _⟩; exact absurd h (X.not_nan_le _)
  · rw [if_neg ha]
    by_cases hb : b = .nan
    · subst hb
      simp only [if_true]
      constructor
      · intro h; exact absurd h (X.not_nan_le _)
      · rintro ⟨_, h⟩; exact absurd h (X.not_nan_le _)
    · rw [if_neg hb]
      split
      · rename_i h
        exact ⟨fun h' => ⟨h', X.le_trans' h h'⟩, fun h' => h'.1⟩
      · rename_i h
        have : a ≤ b := by
          exact X.le_of_lt' ((X.not_le_iff (X.notNan_iff.2 hb) (X.notNan_iff.2 ha)).1 h)
        exact ⟨fun h' => ⟨X.le_trans' this h', h'⟩, fun h' => h'.2⟩

theorem foldl_max_le {l : List (X ℝ)} {a c : X ℝ} :
    l.foldl (fun a x => X.maximum a (X.abs x)) a ≤ c ↔ a ≤ c ∧ ∀ x ∈ l, X.abs x ≤ c := by
  induction l generalizing a with
  | nil => simp
  | cons b l ih =>
    rw [List.foldl_cons, ih, X.maximum_le_iff]
    simp [and_assoc]

theorem norm_le {m : ℕ} {F : Ix m → X ℝ} {c : ℝ} (hc : 0 ≤ c) :
    NR.norm F ≤ .fin c ↔ ∀ k, X.abs (F k) ≤ .fin c := by
  unfold NR.norm
  rw [foldl_max_le]
  simp only [List.mem_append, List.mem_ofFn, Sum.forall]
  constructor
  · rintro ⟨_, h⟩
    exact ⟨fun k => h _ (Or.inl ⟨k, rfl⟩), fun k => h _ (Or.inr ⟨k, rfl⟩)⟩
  · rintro ⟨h1, h2⟩
    refine ⟨hc, ?_⟩
    rintro x (⟨k, rfl⟩ | ⟨k, rfl⟩)
    · exact h1 k
    · exact h2 k

/-- A residual bounded by a finite number comes from finite injections. -/
theorem residual_fin {a c : ℝ} {x : X ℝ} (h : X.abs (.fin a - x) ≤ .fin c) :
    ∃ y, x = .fin y ∧ |a - y| ≤ c := by
  cases x with
  | fin y =>
    refine ⟨y, rfl, ?_⟩
    have e : (X.fin a - X.fin y : X ℝ) = .fin (a - y) := by rw [X.fin_sub_fin]
    rw [e] at h
    exact h
  | nan => exact absurd h id
  | ninf => exact absurd h id
  | pinf => exact absurd h id

theorem f_bounded {m : ℕ} {Y : Matrix (Fin (m + 1)) (Fin (m + 1)) ℂ} {p q : Fin m → X ℝ} {g : Guess m}
    {c : ℝ} (hc : 0 ≤ c) (h : NR.norm (NR.f Y p q g) ≤ .fin c) (k : Fin m) :
    ∃ a b, p k = .fin a ∧ q k = .fin b ∧ |(NR.power Y g k).re - a| ≤ c ∧
      |(NR.power Y g k).im - b| ≤ c := by
  rw [norm_le hc] at h
  obtain ⟨b, hb, hb'⟩ := residual_fin (h (.inr k))
  obtain ⟨a, ha, ha'⟩ := residual_fin (h (.inl k))
  rw [hb] at ha
  cases hp : p k with
  | fin a' =>
    rw [hp, X.fin_mul_fin, X.fin_add_fin, zero_mul, add_zero] at ha
    injection ha with ha
    exact ⟨a', b, rfl, hb, ha ▸ ha', hb'⟩
  | _ => rw [hp] at ha; exact absurd ha (by simp [HAdd.hAdd, Add.add, HMul.hMul, Mul.mul, X.mul, X.add])

/-! ### The loop -/

namespace NR
variable {m : ℕ} {o : LFOracle} {Y : Matrix (Fin (m + 1)) (Fin (m + 1)) ℂ} {p q : Fin m → X ℝ}
  {xtol : ℝ}

/-- Invariant: the residual is that of the guess. -/
def Inv (o : LFOracle) (Y : Matrix (Fin (m + 1)) (Fin (m + 1)) ℂ) (p q : Fin m → X ℝ) (s : St m) : Prop :=
  s.F = evalF o Y p q s.nIter s.guess

theorem inv_init : Inv o Y p q (init Y p q) := rfl

theorem inv_body (s : St m) : Inv o Y p q (body o Y p q s) := rfl

theorem loop_run (n : ℕ) (s : St m) (h : 100 ≤ s.nIter + n) :
    ∃ k, k ≤ n ∧ WhileRun (cond xtol) (body o Y p q) s k (loop o Y p q xtol n s) := by
  induction n generalizing s with
  | zero =>
    refine ⟨0, le_refl _, .stop fun hc => ?_⟩
    have := hc.2
    omega
  | succ n ih =>
    by_cases hc : cond xtol s
    · obtain ⟨k, hk, hr⟩ := ih (body o Y p q s) (by simp only [body]; omega)
      refine ⟨k + 1, by omega, ?_⟩
      rw [loop, if_pos hc]
      exact .pass hc hr
    · exact ⟨0, by omega, by rw [loop, if_neg hc]; exact .stop hc⟩

theorem whileRun_unique {σ : Type} {cond : σ → Prop} {body : σ → σ} {s s1 s2 : σ} {k1 k2 : ℕ}
    (h1 : WhileRun cond body s k1 s1) (h2 : WhileRun cond body s k2 s2) : k1 = k2 ∧ s1 = s2 := by
  induction h1 generalizing k2 with
  | stop hc => cases h2 with
    | stop => exact ⟨rfl, rfl⟩
    | pass hc' => exact absurd hc' hc
  | pass hc _ ih => cases h2 with
    | stop hc' => exact absurd hc hc'
    | pass _ h => exact ⟨congrArg (· + 1) (ih h).1, (ih h).2⟩

theorem whileRun_inv {σ : Type} {cond : σ → Prop} {body : σ → σ} {P : σ → Prop}
    (hb : ∀ s, P s → cond s → P (body s)) {s s' : σ} {k : ℕ} (h : WhileRun cond body s k s') (h0 : P s) :
    P s' ∧ ¬ cond s' := by
  induction h with
  | stop hc => exact ⟨h0, hc⟩
  | pass hc _ ih => exact ih (hb _ h0 hc)

theorem inv_run : Inv o Y p q (run o Y p q xtol) := by
  obtain ⟨k, _, hr⟩ := loop_run (o := o) (Y := Y) (p := p) (q := q) (xtol := xtol) 100 (init Y p q)
    (by simp [init])
  exact (whileRun_inv (fun s _ _ => inv_body s) hr inv_init).1

theorem norm_none {n : ℕ} {c : ℝ} (hm : 1 ≤ m) : ¬ norm (evalF o Y p q n none) ≤ .fin c := by
  intro h
  have : ∀ k, X.abs (evalF o Y p q n none k) ≤ .fin c := by
    unfold norm at h
    rw [foldl_max_le] at h
    intro k
    cases k with
    | inl k => exact h.2 _ (by simp)
    | inr k => exact h.2 _ (by simp)
  have h2 := this (.inl ⟨0, hm⟩)
  simp only [evalF] at h2
  split at h2 <;> exact absurd h2 id

/-- A reported convergence certifies the power-flow equations. -/
theorem stable_spec (hx : 0 ≤ xtol) (hm : 1 ≤ m) (h : stable xtol (run o Y p q xtol) = true) :
    ∃ g, (run o Y p q xtol).guess = some g ∧ ∀ k, ∃ a b, p k = .fin a ∧ q k = .fin b ∧
      |(power Y g k).re - a| ≤ xtol ∧ |(power Y g k).im - b| ≤ xtol := by
  simp only [stable, decide_eq_true_eq] at h
  have hi : (run o Y p q xtol).F = _ := inv_run
  cases hg : (run o Y p q xtol).guess with
  | none =>
    rw [hi, hg] at h
    exact absurd h.2 (norm_none hm)
  | some g =>
    refine ⟨g, rfl, fun k => ?_⟩
    rw [hi, hg] at h
    exact f_bounded hx h.2 k

end NR

end Anm
