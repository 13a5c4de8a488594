import Verif.Props.Calendar
import Verif.Props.Env
import Mathlib.Tactic.FieldSimp
import Mathlib.Algebra.Order.Field.Rat

/-! # C56, C58, C59, C77: the clock, the initial state and the calendar of ANM6Easy -/

set_option linter.unusedSectionVars false

namespace Anm

open Spec

section
variable {K ρ : Type} [Field K] [LinearOrder K] [IsStrictOrderedRing K] [FloorRing K]

/-! ### Arithmetic of the clock -/

theorem dayLength_eq : (dayLength : X K) = .fin 96 := by
  unfold dayLength
  rw [X.fin_div_fin (by norm_num)]
  norm_num

theorem toInt_nat (n : ℕ) : (X.fin (n : K)).toInt = .ok (n : ℤ) := by
  simp [X.toInt]

theorem fmod_nat (n m : ℕ) (hm : 0 < m) : X.fmod (.fin (n : K)) (.fin (m : K)) = .fin ((n % m : ℕ) : K) := by
  have hm' : (m : K) ≠ 0 := by exact_mod_cast hm.ne'
  have hf : ⌊(n : K) / m⌋ = ((n / m : ℕ) : ℤ) := by
    have h1 := Nat.div_add_mod n m
    have h2 := Nat.mod_lt n hm
    have hpos : (0 : K) < m := by exact_mod_cast hm
    rw [Int.floor_eq_iff]
    constructor
    · rw [le_div_iff₀ hpos]
      have : (n / m) * m ≤ n := by rw [Nat.mul_comm]; omega
      exact_mod_cast this
    · rw [div_lt_iff₀ hpos]
      have : n < (n / m + 1) * m := by rw [Nat.add_mul, Nat.mul_comm]; omega
      exact_mod_cast this
  simp only [X.fmod, hm', if_false, hf]
  have h1 := Nat.div_add_mod n m
  have : (n : K) = (m : K) * ((n / m : ℕ) : K) + ((n % m : ℕ) : K) := by exact_mod_cast h1.symm
  congr 1
  rw [show ((((n / m : ℕ) : ℤ)) : K) = ((n / m : ℕ) : K) by norm_cast]
  linear_combination this

theorem pyGet_last {α : Type} (v : List α) (x : α) : pyGet v (-1) = .ok x ↔ v.getLast? = some x := by
  unfold pyGet
  rw [if_neg (by omega)]
  cases v with
  | nil => simp
  | cons a l =>
    rw [if_pos (by simp), List.getLast?_eq_getElem?]
    have : ((-1 : ℤ) + ((a :: l).length : ℤ)).toNat = (a :: l).length - 1 := by simp
    rw [this]
    rw [List.getElem?_eq_getElem (by simp)]
    simp

theorem pyGet_nat {α : Type} {v : List α} {n : ℕ} {x : α} : pyGet v (n : ℤ) = .ok x ↔ v[n]? = some x := by
  unfold pyGet
  rw [if_pos (by omega), Int.toNat_natCast]
  cases v[n]? <;> simp

theorem series_length : ∀ s ∈ loadSeries ++ genSeries, s.length = 96 := C57_series_partial.1

/-- Reading all series at one time of day. -/
theorem read_series {l : List (List ℚ)} (hl : ∀ s ∈ l, s.length = 96) {n : ℕ} (hn : n < 96) :
    ∃ xs, mapE (fun s => pyGet s (n : ℤ)) (l.map (floats (K := K))) = .ok xs ∧
      List.Forall₂ (fun s x => ∃ q : ℚ, s[n]? = some q ∧ x = .fin (q : K)) l xs := by
  induction l with
  | nil => exact ⟨[], rfl, .nil⟩
  | cons s l ih =>
    obtain ⟨xs, h1, h2⟩ := ih fun s hs => hl s (by simp [hs])
    have hs := hl s (by simp)
    refine ⟨.fin ((s[n]'(by omega) : ℚ) : K) :: xs, ?_, .cons ⟨_, List.getElem?_eq_getElem (by omega), rfl⟩ h2⟩
    simp only [List.map_cons, mapE, bind_ok, pure_ok]
    refine ⟨_, pyGet_nat.2 ?_, xs, h1, rfl⟩
    rw [floats, List.getElem?_map, List.getElem?_eq_getElem (by omega)]
    rfl

/-- What `next_vars` returns at the time of day `t`. -/
theorem easyNext_clock {st : List (X K)} {t : ℕ} (h : st.getLast? = some (.fin (t : K))) :
    ∃ v, easyNext st = .ok v ∧ Exogenous ((t + 1) % 96) v := by
  have hlt : (t + 1) % 96 < 96 := Nat.mod_lt _ (by norm_num)
  obtain ⟨l, h1, h2⟩ := read_series (K := K) (l := loadSeries) (fun s hs => series_length s (by simp [hs])) hlt
  obtain ⟨m, h3, h4⟩ := read_series (K := K) (l := genSeries) (fun s hs => series_length s (by simp [hs])) hlt
  refine ⟨l ++ m ++ [.fin (((t + 1) % 96 : ℕ) : K)], ?_, l ++ m, rfl, List.rel_append h2 h4⟩
  simp only [easyNext, bind_ok, pure_ok]
  refine ⟨_, (pyGet_last _ _).2 h, (((t + 1) % 96 : ℕ) : ℤ), ?_, l, h1, m, h3, ?_⟩
  · rw [X.fin_add_fin, dayLength_eq]
    have := fmod_nat (K := K) (t + 1) 96 (by norm_num)
    push_cast at this
    rw [this]
    exact_mod_cast toInt_nat (K := K) ((t + 1) % 96)
  · rw [Int.cast_natCast]

theorem exogenous_last {n : ℕ} {v : List (X K)} (h : Exogenous n v) : v.getLast? = some (.fin (n : K)) := by
  obtain ⟨xs, rfl, _⟩ := h
  simp

theorem exogenous_unique {n : ℕ} {v w : List (X K)} (h : Exogenous n v) (h' : Exogenous n w) : v = w := by
  obtain ⟨xs, rfl, hx⟩ := h
  obtain ⟨ys, rfl, hy⟩ := h'
  congr 1
  generalize loadSeries ++ genSeries = l at hx hy
  induction hx generalizing ys with
  | nil => cases hy; rfl
  | cons h _ ih =>
    cases hy with
    | cons h' hy =>
      obtain ⟨q, h1, rfl⟩ := h
      obtain ⟨q', h2, rfl⟩ := h'
      rw [h1] at h2
      cases h2
      rw [ih _ hy]

/-! ### The initial state -/

theorem pyPut_nat {α : Type} {v w : List α} {i : ℕ} {x : α} (h : pyPut v (i : ℤ) x = .ok w) : w = v.set i x := by
  obtain ⟨j, h1, _, h3⟩ := pyPut_ok h
  rw [if_pos (by omega)] at h1
  have : j = i := by omega
  rw [h3, this]

theorem deviceOf_ok {s : Sim K} {i : ℤ} {d : Device K} (h : deviceOf s i = .ok d) : d ∈ s.devices ∧ d.id = i := by
  unfold deviceOf at h
  split at h
  · rename_i d' hd
    cases h
    exact ⟨List.mem_of_find?_eq_some hd, by simpa using List.find?_some hd⟩
  · cases h

/-- All components of the initial state. -/
theorem easyInit_ok {g : Rng K ρ} {s : Sim K} {r r' : ρ} {v : List (X K)} (h : easyInit g s r = .ok (v, r')) :
    ∃ (t : ℤ) (d1 d3 d5 d2 d4 d6 : Device K) (x1 x3 x5 x2 x4 : X K) (r2 r4 r6 : ρ),
      t = (g.integers r 0 96).1 ∧ deviceOf s 1 = .ok d1 ∧ deviceOf s 3 = .ok d3 ∧ deviceOf s 5 = .ok d5 ∧
      deviceOf s 2 = .ok d2 ∧ deviceOf s 4 = .ok d4 ∧ deviceOf s 6 = .ok d6 ∧
      mapE (fun se => pyGet se t) (pLoads ++ pMaxs) = .ok [x1, x3, x5, x2, x4] ∧
      v = [0, x1, x2, x3, x4, x5, 0, 0, x1 * d1.qpRatio, (g.uniform r2 d2.qMin d2.qMax).1, x3 * d3.qpRatio,
           (g.uniform r4 d4.qMin d4.qMax).1, x5 * d5.qpRatio, 0, (g.uniform r6 d6.socMin d6.socMax).1, x2, x4,
           .fin (t : K)] := by
  simp only [easyInit, bind_ok, dayLength_eq] at h
  obtain ⟨n, hn, h⟩ := h
  have : n = 96 := by
    have := toInt_nat (K := K) 96
    push_cast at this
    rw [this] at hn
    cases hn
    rfl
  subst this
  obtain ⟨v1, h1, v2, h2, ⟨v3, r3⟩, h3, h4⟩ := h
  simp only [pLoads, pMaxs, loadSeries, genSeries, List.map_cons, List.map_nil, List.zip, List.zipWith, initLoads,
    initGens, initDes, bind_ok] at h2 h3 h4
  obtain ⟨x1, a1, w1, b1, d1, c1, u1, e1, x3, a3, w3, b3, d3, c3, u3, e3, x5, a5, w5, b5, d5, c5, u5, e5, h2⟩ := h2
  obtain ⟨x2, a2, m2, k2, w2, b2, d2, c2, u2, e2, x4, a4, m4, k4, w4, b4, d4, c4, u4, e4, h3⟩ := h3
  obtain ⟨d6, c6, u6, e6, h4⟩ := h4
  simp only [Except.ok.injEq, Prod.mk.injEq] at h2 h3 h4
  obtain ⟨rfl, rfl⟩ := h4
  obtain ⟨rfl, rfl⟩ := h3
  subst h2
  refine ⟨_, d1, d3, d5, d2, d4, d6, x1, x3, x5, x2, x4, (g.integers r 0 96).2,
    (g.uniform (g.integers r 0 96).2 d2.qMin d2.qMax).2,
    (g.uniform (g.uniform (g.integers r 0 96).2 d2.qMin d2.qMax).2 d4.qMin d4.qMax).2, rfl, c1, c3, c5, c2, c4, c6, ?_, ?_⟩
  · simp only [pLoads, pMaxs, loadSeries, genSeries, List.map_cons, List.map_nil, List.cons_append, List.nil_append,
      mapE, bind_ok, pure_ok]
    exact ⟨x1, a1, _, ⟨x3, a3, _, ⟨x5, a5, _, ⟨x2, a2, _, ⟨x4, a4, _, rfl, rfl⟩, rfl⟩, rfl⟩, rfl⟩, rfl⟩
  · have hv1 : v1 = [0, 0, 0, 0, 0, 0, 0, 0, 0, 0, 0, 0, 0, 0, 0, 0, 0, X.fin ((g.integers r 0 96).1 : K)] := by
      obtain ⟨j, g1, _, g3⟩ := pyPut_ok h1
      have : j = 17 := by
        have : ((Env.zeros (2 * 7 + 1 + 2 + 1) : List (X K)).length : ℤ) = 18 := by simp [Env.zeros]
        rw [this] at g1
        rw [if_neg (by omega)] at g1
        omega
      rw [g3, this]
      rfl
    have q1 := pyPut_nat (i := 1) b1
    have q2 := pyPut_nat (i := 8) e1
    have q3 := pyPut_nat (i := 3) b3
    have q4 := pyPut_nat (i := 10) e3
    have q5 := pyPut_nat (i := 5) b5
    have q6 := pyPut_nat (i := 12) e5
    have q7 := pyPut_nat (i := 15) k2
    have q8 := pyPut_nat (i := 2) b2
    have q9 := pyPut_nat (i := 9) e2
    have q10 := pyPut_nat (i := 16) k4
    have q11 := pyPut_nat (i := 4) b4
    have q12 := pyPut_nat (i := 11) e4
    have q13 := pyPut_nat (i := 14) e6
    subst hv1 q1 q2 q3 q4 q5 q6 q7 q8 q9 q10 q11 q12 q13
    rfl

/-- The devices of ANM6 that the initial state depends on, with their limits in per-unit. -/
theorem easy_device {dt lam : X K} {s : Sim K} (hs : SimOf anm6Net dt lam s) {i : ℤ} {d : Device K}
    (h : deviceOf s i = .ok d) :
    ((i = 1 ∨ i = 3 ∨ i = 5) → d.qpRatio = .fin (1/5)) ∧
    (i = 2 → d.qMin = .fin (-3/10) ∧ d.qMax = .fin (3/10)) ∧
    (i = 4 → d.qMin = .fin (-1/2) ∧ d.qMax = .fin (1/2)) ∧
    (i = 6 → d.socMin = .fin 0 ∧ d.socMax = .fin 1) := by
  obtain ⟨hd, hid⟩ := deviceOf_ok h
  obtain ⟨r, hr, ids, d0, hm, hsame⟩ := simOf_device hs hd
  have e1 : d.id = d0.id := by rw [hsame]
  have e2 : d.qpRatio = d0.qpRatio := by rw [hsame]
  have e3 : d.qMin = d0.qMin := by rw [hsame]
  have e4 : d.qMax = d0.qMax := by rw [hsame]
  have e5 : d.socMin = d0.socMin := by rw [hsame]
  have e6 : d.socMax = d0.socMax := by rw [hsame]
  rw [e2, e3, e4, e5, e6]
  rw [e1] at hid
  have hb : (anm6Net (K := K)).baseMVA = .fin 100 := rfl
  rw [hb] at hm
  have hint : ∀ (q : ℚ) (z j : ℤ), q = z → (X.fin (q : K)).toInt = .ok j → j = z := by
    rintro q z j rfl hq
    simp [X.toInt] at hq
    rw [← hq]
    split
    · rfl
    · have : (-(z : K)) = ((-z : ℤ) : K) := by push_cast; rfl
      rw [this, Int.floor_intCast, neg_neg]
  have hload : ∀ {z : ℤ} {q : ℚ}, r .devType = some (.fin ((-1 : ℚ) : K)) → r .devId = some (.fin (q : K)) →
      q = z → r .qp = some (.fin ((2/10 : ℚ) : K)) → i = z ∧ d0.qpRatio = .fin (1/5) := by
    intro z q ht hi hq hqp
    have hm' : mkLoad r ids (.fin 100) = .ok d0 := by
      simpa [mkDevice, cellInt, ht, bind_ok, X.toInt] using hm
    have I := mkLoad_ok hm'
    obtain ⟨x, hx, hx'⟩ := I.common.id_eq
    rw [hi] at hx
    cases hx
    have := hint q z _ hq hx'
    refine ⟨by omega, ?_⟩
    have hq := I.qp
    rw [hqp] at hq
    rw [← Option.some.inj hq]
    norm_num
  have hgen : ∀ {z : ℤ} {q a b : ℚ}, r .devType = some (.fin ((2 : ℚ) : K)) → r .devId = some (.fin (q : K)) →
      q = z → r .qmax = some (.fin (a : K)) → r .qmin = some (.fin (b : K)) →
      i = z ∧ d0.qMin = .fin ((b : K) / 100) ∧ d0.qMax = .fin ((a : K) / 100) := by
    intro z q a b ht hi hq ha hb
    have hm' : mkGen .renewable r ids (.fin 100) = .ok d0 := by
      have h2 : ⌊(2 : K)⌋ = 2 := by exact_mod_cast Int.floor_natCast (R := K) 2
      simpa [mkDevice, cellInt, ht, bind_ok, X.toInt, h2] using hm
    have I := mkGen_ok hm'
    obtain ⟨x, hx, hx'⟩ := I.common.id_eq
    rw [hi] at hx
    cases hx
    have := hint q z _ hq hx'
    have h100 : (100 : K) ≠ 0 := by norm_num
    exact ⟨by omega, by rw [I.qMin, hb, toPu, X.fin_div_fin h100], by rw [I.qMax, ha, toPu, X.fin_div_fin h100]⟩
  have hdes : ∀ {z : ℤ} {q a b : ℚ}, r .devType = some (.fin ((3 : ℚ) : K)) → r .devId = some (.fin (q : K)) →
      q = z → r .socMax = some (.fin (a : K)) → r .socMin = some (.fin (b : K)) →
      i = z ∧ d0.socMin = .fin ((b : K) / 100) ∧ d0.socMax = .fin ((a : K) / 100) := by
    intro z q a b ht hi hq ha hb
    have hm' : mkStorage r ids (.fin 100) = .ok d0 := by
      have h2 : ⌊(3 : K)⌋ = 3 := by exact_mod_cast Int.floor_natCast (R := K) 3
      simpa [mkDevice, cellInt, ht, bind_ok, X.toInt, h2] using hm
    have I := mkStorage_ok hm'
    obtain ⟨x, hx, hx'⟩ := I.common.id_eq
    rw [hi] at hx
    cases hx
    have := hint q z _ hq hx'
    have h100 : (100 : K) ≠ 0 := by norm_num
    refine ⟨by omega, ?_, ?_⟩
    · rcases I.socMin with ⟨h, _⟩ | ⟨x, h, _, h'⟩
      · rw [hb] at h; cases h
      · rw [hb] at h
        rw [h', ← Option.some.inj h, X.fin_div_fin h100]
    · obtain ⟨x, h, _, h'⟩ := I.socMax
      rw [ha] at h
      rw [h', ← Option.some.inj h, X.fin_div_fin h100]
  have hslack : r .devType = some (.fin ((0 : ℚ) : K)) → r .devId = some (.fin ((0 : ℚ) : K)) → i = 0 := by
    intro ht hi
    have hm' : mkGen .classical r ids (.fin 100) = .ok d0 := by
      simpa [mkDevice, cellInt, ht, bind_ok, X.toInt] using hm
    have I := mkGen_ok hm'
    obtain ⟨x, hx, hx'⟩ := I.common.id_eq
    rw [hi] at hx
    cases hx
    have := hint 0 0 _ (by norm_num) hx'
    omega
  simp only [anm6Net, Network.ofLists, List.map_cons, List.map_nil, List.mem_cons, List.not_mem_nil, or_false] at hr
  rcases hr with hr | hr | hr | hr | hr | hr | hr
  · have := hslack (by rw [hr]; rfl) (by rw [hr]; rfl)
    omega
  · have := hload (z := 1) (by rw [hr]; rfl) (by rw [hr]; rfl) (by norm_num) (by rw [hr]; rfl)
    exact ⟨fun _ => this.2, by omega, by omega, by omega⟩
  · have := hgen (z := 2) (by rw [hr]; rfl) (by rw [hr]; rfl) (by norm_num) (by rw [hr]; rfl) (by rw [hr]; rfl)
    refine ⟨by omega, fun _ => ?_, by omega, by omega⟩
    rw [this.2.1, this.2.2]
    norm_num
  · have := hload (z := 3) (by rw [hr]; rfl) (by rw [hr]; rfl) (by norm_num) (by rw [hr]; rfl)
    exact ⟨fun _ => this.2, by omega, by omega, by omega⟩
  · have := hgen (z := 4) (by rw [hr]; rfl) (by rw [hr]; rfl) (by norm_num) (by rw [hr]; rfl) (by rw [hr]; rfl)
    refine ⟨by omega, by omega, fun _ => ?_, by omega⟩
    rw [this.2.1, this.2.2]
    norm_num
  · have := hload (z := 5) (by rw [hr]; rfl) (by rw [hr]; rfl) (by norm_num) (by rw [hr]; rfl)
    exact ⟨fun _ => this.2, by omega, by omega, by omega⟩
  · have := hdes (z := 6) (by rw [hr]; rfl) (by rw [hr]; rfl) (by norm_num) (by rw [hr]; rfl) (by rw [hr]; rfl)
    refine ⟨by omega, by omega, by omega, fun _ => ?_⟩
    rw [this.2.1, this.2.2]
    norm_num

/-- Reading the five series at a time of day that a generator may draw. -/
theorem read_all {t : ℤ} (h0 : 0 ≤ t) (h1 : t < 96) {xs : List (X K)}
    (h : mapE (fun se => pyGet se t) (pLoads ++ pMaxs) = .ok xs) :
    List.Forall₂ (fun s x => ∃ q : ℚ, s[t.toNat]? = some q ∧ x = .fin (q : K)) (loadSeries ++ genSeries) xs := by
  obtain ⟨ys, h2, h3⟩ := read_series (K := K) series_length (n := t.toNat) (by omega)
  rw [Int.toNat_of_nonneg h0, List.map_append] at h2
  rw [show pLoads ++ pMaxs = loadSeries.map (floats (K := K)) ++ genSeries.map floats from rfl, h2] at h
  cases h
  exact h3

/-! ### C58: the initial state -/

/-- What a state vector of ANM6Easy consists of at the time of day `t` of a new episode, apart from the
random components: the loads and the maximum generations follow the time series, both generators produce
their maximum, reactive loads are a fifth of the active ones, and the storage unit is idle. -/
def InitialState (t : ℕ) (q2 q4 soc : K) (v : List (X K)) : Prop :=
  ∃ p1 p3 p5 p2 p4 : ℚ, loadSeries.map (·[t]?) = [some p1, some p3, some p5] ∧
    genSeries.map (·[t]?) = [some p2, some p4] ∧
    v = [0, (p1 : K), p2, p3, p4, p5, 0, 0, p1 / 5, q2, p3 / 5, q4, p5 / 5, 0, soc, p2, p4, t].map .fin

theorem C58_aux {dt lam : X K} {s : Sim K} {g : Rng K ρ} {r r' : ρ} {v : List (X K)}
    (hs : SimOf anm6Net dt lam s) (hg : Fair g) (h : easyInit g s r = .ok (v, r')) :
    ∃ (t : ℕ) (q2 q4 soc : K), t < 96 ∧ InitialState t q2 q4 soc v ∧
      -3/10 ≤ q2 ∧ q2 ≤ 3/10 ∧ -1/2 ≤ q4 ∧ q4 ≤ 1/2 ∧ 0 ≤ soc ∧ soc ≤ 1 := by
  obtain ⟨t, d1, d3, d5, d2, d4, d6, x1, x3, x5, x2, x4, r2, r4, r6, ht, h1, h3, h5, h2, h4, h6, hx, rfl⟩ :=
    easyInit_ok h
  obtain ⟨ht0, ht1⟩ := hg.integers r 0 96 (by norm_num)
  rw [← ht] at ht0 ht1
  have hr := read_all ht0 ht1 hx
  rw [(easy_device hs h1).1 (by simp), (easy_device hs h3).1 (by simp), (easy_device hs h5).1 (by simp)]
  obtain ⟨e1, e2⟩ := (easy_device hs h2).2.1 rfl
  obtain ⟨e3, e4⟩ := (easy_device hs h4).2.2.1 rfl
  obtain ⟨e5, e6⟩ := (easy_device hs h6).2.2.2 rfl
  rw [e1, e2, e3, e4, e5, e6]
  obtain ⟨a2, b2, c2⟩ := hg.uniform r2 (-3/10) (3/10) (by norm_num)
  obtain ⟨a4, b4, c4⟩ := hg.uniform r4 (-1/2) (1/2) (by norm_num)
  obtain ⟨a6, b6, c6⟩ := hg.uniform r6 0 1 (by norm_num)
  rw [b2, b4, b6]
  refine ⟨t.toNat, a2, a4, a6, by omega, ?_, c2.1, c2.2, c4.1, c4.2, c6.1, c6.2⟩
  simp only [loadSeries, genSeries, List.cons_append, List.nil_append, List.forall₂_cons] at hr
  obtain ⟨⟨p1, f1, rfl⟩, ⟨p3, f3, rfl⟩, ⟨p5, f5, rfl⟩, ⟨p2, f2, rfl⟩, ⟨p4, f4, rfl⟩, _⟩ := hr
  refine ⟨p1, p3, p5, p2, p4, ?_, ?_, ?_⟩
  · simp only [loadSeries, List.map_cons, List.map_nil, f1, f3, f5]
  · simp only [genSeries, List.map_cons, List.map_nil, f2, f4]
  · have : ((t.toNat : ℕ) : K) = (t : K) := by
      rw [← Int.cast_natCast, Int.toNat_of_nonneg ht0]
    simp [this, X.zero_def, X.fin_mul_fin, div_eq_mul_inv]

/-- **C58, partial.** The initial state of ANM6Easy is within the limits of the devices: the reactive
powers are between -30 and 30 MVAr and between -50 and 50 MVAr, the stored energy is between 0 and
100 MWh.  Missing: that these intervals are exhausted, see `C58_counterexample`. -/
theorem C58_initial_state_partial {dt lam : X K} {s : Sim K} {g : Rng K ρ} {r r' : ρ} {v : List (X K)}
    (hs : SimOf anm6Net dt lam s) (hg : Fair g) (h : easyInit g s r = .ok (v, r')) :
    ∃ (t : ℕ) (q2 q4 soc : K), t < 96 ∧ InitialState t q2 q4 soc v ∧
      -30 ≤ q2 ∧ q2 ≤ 30 ∧ -50 ≤ q4 ∧ q4 ≤ 50 ∧ 0 ≤ soc ∧ soc ≤ 100 := by
  obtain ⟨t, q2, q4, soc, h0, h1, h2, h3, h4, h5, h6, h7⟩ := C58_aux hs hg h
  refine ⟨t, q2, q4, soc, h0, h1, ?_, ?_, ?_, ?_, h6, ?_⟩ <;> linarith

/-- **C58, counterexample.** Whatever is drawn, the storage unit, whose capacity is 100 MWh, starts with at
most 1 MWh, and the reactive powers do not exceed 0.3 and 0.5 MVAr, although the limits are 30 and 50 MVAr:
the numbers are drawn between the limits in per-unit. -/
theorem C58_counterexample {dt lam : X K} {s : Sim K} {g : Rng K ρ} {r r' : ρ} {v : List (X K)}
    (hs : SimOf anm6Net dt lam s) (hg : Fair g) (h : easyInit g s r = .ok (v, r')) :
    ∃ q2 q4 soc : K, v[9]? = some (.fin q2) ∧ v[11]? = some (.fin q4) ∧ v[14]? = some (.fin soc) ∧
      |q2| ≤ 3/10 ∧ |q4| ≤ 1/2 ∧ soc ≤ 1 := by
  obtain ⟨t, q2, q4, soc, h0, ⟨_, _, _, _, _, _, _, rfl⟩, h2, h3, h4, h5, h6, h7⟩ := C58_aux hs hg h
  refine ⟨q2, q4, soc, rfl, rfl, rfl, ?_, ?_, h7⟩ <;> rw [abs_le] <;> constructor <;> linarith

/-! ### What the methods of ANM6 objects do -/

theorem anm6_step_ok {c : EnvCtx K ρ} {a a' : Anm6 K ρ} {u : List (X K)} {o : Env.StepOut K}
    (h : a.step c u = .ok (a', o)) : ∃ e d d0, a.env.step c u = .ok (e, o) ∧ a.date = some d ∧
      a.dateInit = some d0 ∧ a' = { a with env := e, date := some (d + a.tick)
                                           yearCount := days (d + a.tick - d0) / 365 } := by
  simp only [Anm6.step, bind_ok] at h
  obtain ⟨⟨e, o'⟩, h1, h2⟩ := h
  dsimp only at h2
  split at h2
  · rename_i d d0 hd hd0
    simp only [dateAdd, bind_ok, guardE_ok, pure_ok, Prod.mk.injEq] at h2
    obtain ⟨_, ⟨_, _, rfl⟩, rfl, rfl⟩ := h2
    exact ⟨e, d, d0, h1, hd, hd0, rfl⟩
  · cases h2

theorem anm6_reset_ok {c : EnvCtx K ρ} {g : Rng K ρ} {a a' : Anm6 K ρ} {seed date : Option ℤ} {obs : List (X K)}
    (h : a.reset c g seed date = .ok (a', obs)) : ∃ e d r, a.env.reset c seed = .ok (e, obs) ∧
      Anm6.startDate g e.rng date = .ok (d, r) ∧
      a' = { a with env := { e with rng := r }, screen := a.screen.reset false
                    yearCount := 0, dateInit := some d, date := some d } := by
  simp only [Anm6.reset, bind_ok, pure_ok, Prod.mk.injEq] at h
  obtain ⟨⟨e, o⟩, h1, ⟨d, r⟩, h2, rfl, rfl⟩ := h
  exact ⟨e, d, r, h1, h2, rfl⟩

theorem easyReset_ok {c : EnvCtx K ρ} {g : Rng K ρ} {a a' : Anm6 K ρ} {seed date : Option ℤ} {obs : List (X K)}
    (h : a.easyReset c g seed date = .ok (a', obs)) : ∃ e d r y x t, a.env.reset c seed = .ok (e, obs) ∧
      Anm6.startDate g e.rng date = .ok (d, r) ∧ e.dyn = some y ∧ y.state.getLast? = some x ∧
      timesDelta x a.tick = .ok t ∧
      a' = { a with env := { e with rng := r }, screen := a.screen.reset false
                    yearCount := 0, dateInit := some (d + t), date := some (d + t) } := by
  simp only [Anm6.easyReset, bind_ok] at h
  obtain ⟨⟨a1, o⟩, h1, h2⟩ := h
  obtain ⟨e, d, r, h3, h4, rfl⟩ := anm6_reset_ok h1
  dsimp only at h2
  split at h2
  · rename_i d' y hd hy
    cases hd
    simp only [dateAdd, bind_ok, guardE_ok, pure_ok, Prod.mk.injEq] at h2
    obtain ⟨x, h5, t, h6, _, ⟨_, _, rfl⟩, rfl, rfl⟩ := h2
    exact ⟨e, d, r, y, x, t, h3, h4, hy, (pyGet_last _ _).1 h5, h6, rfl⟩
  · cases h2

theorem mkAnm6_ok {c : EnvCtx K ρ} {args : EnvArgs K} {a : Anm6 K ρ} (h : mkAnm6 c args = .ok a) :
    ∃ e m n, mkEnv c { args with network := anm6Net } = .ok e ∧ (.fin 60 * args.deltaT : X K).toInt = .ok m ∧
      e.sim.renderingSpecs c.sim.pi = .ok n ∧ a = { env := e, specs := n, tick := m * (60 * 1000000) } := by
  simp only [mkAnm6, bind_ok, pure_ok] at h
  obtain ⟨e, h1, n, h3, m, h2, rfl⟩ := h
  exact ⟨e, m, n, h1, h2, h3, rfl⟩

/-- The step of ANM6Easy is 15 minutes. -/
theorem easy_tick {w : EasyWorld K ρ} {s0 : Sim K} {a : Anm6 K ρ} (h : EasyOf w s0 a) :
    a.tick = 15 * (60 * 1000000) := by
  induction h with
  | make _ h =>
    obtain ⟨e, m, n, _, h2, _, rfl⟩ := mkAnm6_ok h
    have : (X.fin 60 * .fin (1/4) : X K) = .fin ((15 : ℕ) : K) := by rw [X.fin_mul_fin]; norm_num
    rw [show (easyArgs (K := K)).deltaT = .fin (1/4) from rfl, this, toInt_nat] at h2
    cases h2
    rfl
  | reset _ h ih =>
    obtain ⟨e, d, r, y, x, t, _, _, _, _, _, rfl⟩ := easyReset_ok h
    exact ih
  | step _ h ih =>
    obtain ⟨e, d, d0, _, _, _, rfl⟩ := anm6_step_ok h
    exact ih

theorem easy_env {w : EasyWorld K ρ} {s0 : Sim K} {a : Anm6 K ρ} (h : EasyOf w s0 a) :
    EnvOf (easyCtx w s0) easyArgs a.env := by
  induction h with
  | make _ h =>
    obtain ⟨e, m, n, h1, _, _, rfl⟩ := mkAnm6_ok h
    exact ⟨e, h1, .refl⟩
  | reset _ h ih =>
    obtain ⟨e, d, r, y, x, t, h1, _, _, _, _, rfl⟩ := easyReset_ok h
    exact envOf_call (envOf_call ih (.inl ⟨_, _, h1⟩)) (.inr (.inr ⟨r, rfl⟩))
  | step _ h ih =>
    obtain ⟨e, d, d0, h1, _, _, rfl⟩ := anm6_step_ok h
    exact envOf_call ih (.inr (.inl ⟨_, _, h1⟩))

theorem easy_sim {w : EasyWorld K ρ} {s0 : Sim K} {a : Anm6 K ρ} (h : EasyOf w s0 a) :
    mkSim anm6Net (.fin (1/4)) (.fin 100) = .ok s0 := by
  induction h with
  | make h _ => exact h
  | reset _ _ ih => exact ih
  | step _ _ ih => exact ih

theorem easy_episode {w : EasyWorld K ρ} {s0 : Sim K} {a a' : Anm6 K ρ} {us : List (List (X K))}
    {os : List (Env.StepOut K)} (h : EasyOf w s0 a) (he : Anm6Episode (easyCtx w s0) a us os a') :
    EasyOf w s0 a' := by
  induction he with
  | nil => exact h
  | cons h1 _ ih => exact ih (h.step h1)

/-! ### C56: the clock -/

theorem lastN_one {α : Type} (v : List α) : lastN 1 v = v.getLast?.toList := by
  rw [lastN]
  induction v using List.reverseRecOn with
  | nil => rfl
  | append_singleton l x _ => simp

theorem easy_nAux {w : EasyWorld K ρ} {s0 : Sim K} {a : Anm6 K ρ} (h : EasyOf w s0 a) : a.env.nAux = 1 := by
  obtain ⟨e0, I, hs, -, -⟩ := envOf_inv (easy_env h)
  rw [hs.nAux, I.nAux]
  rfl

/-- After a reset, the auxiliary variable is an integer in `[0, 96)`. -/
theorem C56_reset {w : EasyWorld K ρ} {s0 : Sim K} {a a1 : Anm6 K ρ} {seed date : Option ℤ} {obs : List (X K)}
    (hg : Fair w.rng) (ha : EasyOf w s0 a) (h : a.easyReset (easyCtx w s0) w.rng seed date = .ok (a1, obs)) :
    ∃ t : ℕ, t < 96 ∧ Clock a1.env t := by
  obtain ⟨e, d, r, y, x, t, h1, _, h3, h4, _, rfl⟩ := easyReset_ok h
  obtain ⟨y', v, r', h6, h7, _, h9⟩ := (C50_aux_flow (easy_env ha)).1 _ _ h1
  rw [h3] at h6
  cases h6
  rw [easy_nAux ha, lastN_one, lastN_one, h4] at h9
  obtain ⟨n, q2, q4, soc, hn, ⟨_, _, _, _, _, _, _, rfl⟩, -⟩ := C58_aux (simOf_mk (easy_sim ha)) hg h7
  refine ⟨n, hn, y, h3, ?_⟩
  rw [h4]
  simpa using h9

theorem easy_next_step {w : EasyWorld K ρ} {s0 : Sim K} {a a' : Anm6 K ρ} {u : List (X K)} {o : Env.StepOut K}
    {t : ℕ} (ha : EasyOf w s0 a) (hc : Clock a.env t) (h : a.step (easyCtx w s0) u = .ok (a', o))
    (ho : o.terminated = false) : Clock a'.env ((t + 1) % 96) := by
  obtain ⟨e, d, d0, h1, _, _, rfl⟩ := anm6_step_ok h
  obtain ⟨y, y', v, hy, hy', hv, hl, hlast⟩ := (C50_aux_flow (easy_env ha)).2 _ _ h1 ho
  obtain ⟨y'', hy'', ht⟩ := hc
  rw [hy] at hy''
  cases hy''
  obtain ⟨v', hv', hex⟩ := easyNext_clock ht
  have : v = v' := by
    simp only [easyCtx, hv', Except.map] at hv
    exact (Prod.mk.inj (Except.ok.inj hv)).1.symm
  subst this
  rw [easy_nAux ha, lastN_one, lastN_one, exogenous_last hex] at hlast
  refine ⟨y', hy', ?_⟩
  cases hx : y'.state.getLast? with
  | none => rw [hx] at hlast; cases hlast
  | some x => rw [hx] at hlast; simpa using hlast

theorem easy_clock {w : EasyWorld K ρ} {s0 : Sim K} {a a' : Anm6 K ρ} {us : List (List (X K))}
    {os : List (Env.StepOut K)} (he : Anm6Episode (easyCtx w s0) a us os a') :
    ∀ {t : ℕ}, EasyOf w s0 a → Clock a.env t → t < 96 → (∀ o ∈ os, o.terminated = false) →
      Clock a'.env ((t + us.length) % 96) := by
  induction he with
  | nil =>
    intro t _ hc ht _
    rw [List.length_nil, Nat.add_zero, Nat.mod_eq_of_lt ht]
    exact hc
  | @cons a a1 a' u us o os h1 _ ih =>
    intro t ha hc _ ho
    have := ih (ha.step h1) (easy_next_step ha hc h1 (ho o (by simp))) (Nat.mod_lt _ (by norm_num))
      fun o' h' => ho o' (by simp [h'])
    rwa [Nat.mod_add_mod, show t + 1 + us.length = t + (u :: us).length by simp; omega] at this

/-- **C56.** After a reset the auxiliary variable of ANM6Easy is an integer `t` in `[0, 96)`; after `n`
steps without termination it is `(t + n) mod 96`, and the loads and maximum generations of the next step,
with the next value of the auxiliary variable, are those of the time of day `(t + n + 1) mod 96`; no look-up
fails. -/
theorem C56_clock {w : EasyWorld K ρ} {s0 : Sim K} {a a1 : Anm6 K ρ} {seed date : Option ℤ} {obs : List (X K)}
    (hg : Fair w.rng) (ha : EasyOf w s0 a) (h : a.easyReset (easyCtx w s0) w.rng seed date = .ok (a1, obs)) :
    ∃ t : ℕ, t < 96 ∧ Clock a1.env t ∧ ∀ us os a', Anm6Episode (easyCtx w s0) a1 us os a' →
      (∀ o ∈ os, o.terminated = false) → Clock a'.env ((t + us.length) % 96) ∧
        ∀ y, a'.env.dyn = some y → ∃ v, easyNext y.state = .ok v ∧ Exogenous ((t + us.length + 1) % 96) v := by
  obtain ⟨t, ht, hc⟩ := C56_reset hg ha h
  refine ⟨t, ht, hc, fun us os a' he ho => ?_⟩
  have := easy_clock he (ha.reset h) hc ht ho
  refine ⟨this, fun y hy => ?_⟩
  obtain ⟨y', hy', hl⟩ := this
  rw [hy] at hy'
  cases hy'
  obtain ⟨v, h1, h2⟩ := easyNext_clock hl
  rw [Nat.mod_add_mod] at h2
  exact ⟨v, h1, h2⟩

/-- **C56, period.** 96 steps (one day) after any moment of an episode, the inputs of the next step are the
same again. -/
theorem C56_period {w : EasyWorld K ρ} {s0 : Sim K} {a a1 a2 a3 : Anm6 K ρ} {seed date : Option ℤ}
    {obs : List (X K)} {us vs : List (List (X K))} {os ps : List (Env.StepOut K)} {y y' : EnvDyn K}
    (hg : Fair w.rng) (ha : EasyOf w s0 a) (h : a.easyReset (easyCtx w s0) w.rng seed date = .ok (a1, obs))
    (h1 : Anm6Episode (easyCtx w s0) a1 us os a2) (h2 : Anm6Episode (easyCtx w s0) a2 vs ps a3)
    (ho : ∀ o ∈ os ++ ps, o.terminated = false) (hv : vs.length = 96) (hy : a2.env.dyn = some y)
    (hy' : a3.env.dyn = some y') : ∃ v, easyNext y.state = .ok v ∧ easyNext y'.state = .ok v := by
  obtain ⟨t, ht, hc, hall⟩ := C56_clock hg ha h
  obtain ⟨c2, n2⟩ := hall us os a2 h1 fun o h => ho o (by simp [h])
  have c3 := easy_clock h2 (easy_episode (ha.reset h) h1) c2 (Nat.mod_lt _ (by norm_num))
    fun o h => ho o (by simp [h])
  obtain ⟨v, e1, x1⟩ := n2 y hy
  obtain ⟨y3, hy3, hl⟩ := c3
  rw [hy'] at hy3
  cases hy3
  obtain ⟨v', e2, x2⟩ := easyNext_clock hl
  rw [hv, show (((t + us.length) % 96 + 96) % 96 + 1) % 96 = (t + us.length + 1) % 96 by omega] at x2
  exact ⟨v, e1, by rw [e2, exogenous_unique x2 x1]⟩

/-! ### C59: the calendar -/

theorem calendar_episode {c : EnvCtx K ρ} {a a' : Anm6 K ρ} {us : List (List (X K))} {os : List (Env.StepOut K)}
    (he : Anm6Episode c a us os a') : ∀ {d0 d : ℤ}, a.dateInit = some d0 → a.date = some d →
      a'.dateInit = some d0 ∧ a'.date = some (d + us.length * a.tick) ∧ a'.tick = a.tick ∧
      (us ≠ [] → a'.yearCount = (d + us.length * a.tick - d0) / (24 * 3600 * 1000000) / 365) ∧
      (us = [] → a'.yearCount = a.yearCount) := by
  induction he with
  | nil => intro d0 d h0 h; simp [h0, h]
  | @cons a a1 a' u us o os h1 h2 ih =>
    intro d0 d hd0 hd
    obtain ⟨e, d', d0', _, hd', hd0', rfl⟩ := anm6_step_ok h1
    rw [hd] at hd'
    rw [hd0] at hd0'
    cases hd'
    cases hd0'
    obtain ⟨i1, i2, i3, i4, i5⟩ := ih (d0 := d0) (d := d + a.tick) hd0 rfl
    have hlen : d + a.tick + us.length * a.tick = d + ((u :: us).length : ℕ) * a.tick := by
      push_cast [List.length_cons]; ring
    refine ⟨i1, i2.trans (by rw [← hlen]), i3, fun _ => ?_, by simp⟩
    rw [← hlen]
    by_cases hus : us = []
    · rw [i5 hus, hus]
      simp only [List.length_nil, Nat.cast_zero, zero_mul, add_zero]
      rfl
    · exact i4 hus

/-- **C59.** After a reset of an ANM6 environment and `n` steps, whether or not the episode has ended, the
date is the initial date plus `n` times the length of a step; the year count is the number of whole days
since the initial date, divided by 365. -/
theorem C59_calendar {c : EnvCtx K ρ} {g : Rng K ρ} {a a1 a' : Anm6 K ρ} {seed date : Option ℤ}
    {obs : List (X K)} {us : List (List (X K))} {os : List (Env.StepOut K)}
    (h : a.reset c g seed date = .ok (a1, obs)) (he : Anm6Episode c a1 us os a') :
    ∃ d : ℤ, a1.dateInit = some d ∧ (∀ x, date = some x → d = x) ∧ a'.dateInit = some d ∧
      a'.date = some (d + us.length * a.tick) ∧
      a'.yearCount = (us.length * a.tick) / (24 * 3600 * 1000000) / 365 := by
  obtain ⟨e, d, r, _, h2, rfl⟩ := anm6_reset_ok h
  obtain ⟨h3, h4, h5, h6, h7⟩ := calendar_episode he (d0 := d) (d := d) rfl rfl
  refine ⟨d, rfl, ?_, h3, h4, ?_⟩
  · rintro x rfl
    cases h2
    rfl
  · by_cases hus : us = []
    · rw [h7 hus, hus]
      simp
    · rw [h6 hus]
      congr 2
      dsimp only
      ring

theorem roundEven_int (n : ℤ) : roundEven ((n : K)) = n := by
  simp [roundEven]

/-- The initial date of ANM6Easy: midnight plus the time of day. -/
theorem easy_start {w : EasyWorld K ρ} {s0 : Sim K} {a a1 : Anm6 K ρ} {seed date : Option ℤ} {obs : List (X K)}
    {t : ℕ} (h : a.easyReset (easyCtx w s0) w.rng seed date = .ok (a1, obs)) (hc : Clock a1.env t) :
    ∃ d r r', Anm6.startDate w.rng r date = .ok (d, r') ∧ a1.dateInit = some (d + t * a.tick) ∧
      a1.date = some (d + t * a.tick) ∧ a1.yearCount = 0 ∧ a1.tick = a.tick := by
  obtain ⟨e, d, r, y, x, n, h1, h2, h3, h4, h5, rfl⟩ := easyReset_ok h
  obtain ⟨y', h6, h7⟩ := hc
  have hyy : y' = y := Option.some.inj (h6.symm.trans h3)
  subst hyy
  rw [h4] at h7
  cases h7
  have : n = t * a.tick := by
    have : ((t : K) * (a.tick : K)) = ((t * a.tick : ℤ) : K) := by push_cast; rfl
    rw [timesDelta, this, roundEven_int] at h5
    exact (Except.ok.inj h5).symm
  subst this
  exact ⟨d, e.rng, r, h2, rfl, rfl, rfl, rfl⟩

/-- **C59 for ANM6Easy**, whose initial date is the requested (or a random) date plus the time of day. -/
theorem C59_calendar_easy {w : EasyWorld K ρ} {s0 : Sim K} {a a1 a' : Anm6 K ρ} {seed date : Option ℤ}
    {obs : List (X K)} {t : ℕ} {us : List (List (X K))} {os : List (Env.StepOut K)} (ha : EasyOf w s0 a)
    (h : a.easyReset (easyCtx w s0) w.rng seed date = .ok (a1, obs)) (hc : Clock a1.env t)
    (he : Anm6Episode (easyCtx w s0) a1 us os a') :
    ∃ d : ℤ, a1.dateInit = some d ∧ (∀ x, date = some x → d = x + t * (15 * 60 * 1000000)) ∧
      a'.dateInit = some d ∧ a'.date = some (d + us.length * (15 * 60 * 1000000)) ∧
      a'.yearCount = us.length / 96 / 365 := by
  have htick := easy_tick ha
  obtain ⟨d, r, r', h1, h2, h3, h4, h5⟩ := easy_start h hc
  obtain ⟨i1, i2, i3, i4, i5⟩ := calendar_episode he h2 h3
  rw [h5, htick] at i2 i4
  refine ⟨d + t * a.tick, h2, ?_, i1, by rw [i2, htick]; ring_nf, ?_⟩
  · rintro x rfl
    cases h1
    rw [htick]
    ring
  · by_cases hus : us = []
    · rw [i5 hus, h4, hus]
      simp
    · rw [i4 hus]
      congr 1
      omega

/-- **C77.** In ANM6Easy the date shown agrees with the auxiliary variable: as long as the episode has not
ended, and if it was started on a day (rather than at a time of day), the time of day of the date is the
auxiliary variable times 15 minutes. -/
theorem C77_time_of_day {w : EasyWorld K ρ} {s0 : Sim K} {a a1 a' : Anm6 K ρ} {seed date : Option ℤ}
    {obs : List (X K)} {us : List (List (X K))} {os : List (Env.StepOut K)} (hg : Fair w.rng)
    (ha : EasyOf w s0 a) (h : a.easyReset (easyCtx w s0) w.rng seed date = .ok (a1, obs))
    (hday : ∀ x, date = some x → x % (24 * 3600 * 1000000) = 0)
    (he : Anm6Episode (easyCtx w s0) a1 us os a') (ho : ∀ o ∈ os, o.terminated = false) :
    ∃ (t : ℕ) (d : ℤ), t < 96 ∧ Clock a'.env t ∧ a'.date = some d ∧
      d % (24 * 3600 * 1000000) = t * (15 * 60 * 1000000) := by
  obtain ⟨t, ht, hc, hall⟩ := C56_clock hg ha h
  obtain ⟨d, r, r', h1, h2, h3, h4, h5⟩ := easy_start h hc
  have hd : d % (24 * 3600 * 1000000) = 0 := by
    cases date with
    | some x => cases h1; exact hday _ rfl
    | none =>
      obtain ⟨d', r'', n, h6, h7, h8⟩ := C60_random_date hg r (y := 2020) (by norm_num) (by norm_num)
      have h1 : randomDate w.rng r ((2020 : ℕ) : ℤ) = .ok (d, r') := h1
      rw [h6] at h1
      cases h1
      rw [h8]
      exact Int.mul_emod_left _ _
  obtain ⟨i1, i2, i3, i4, i5⟩ := calendar_episode he h2 h3
  rw [h5, easy_tick ha] at i2
  refine ⟨_, _, Nat.mod_lt _ (by norm_num), (hall us os a' he ho).1, i2, ?_⟩
  push_cast
  omega

end

end Anm
