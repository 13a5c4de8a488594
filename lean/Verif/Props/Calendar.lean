import Verif.Spec.Anm6
import Mathlib.Tactic.NormNum
import Mathlib.Tactic.IntervalCases
import Mathlib.Data.Rat.Cast.CharZero

/-! # C57, C60, C61, C62: time series, random dates and rendering of the ANM6 environments -/

namespace Anm

open Spec

/-! ### C57: the time series -/

/-- **C57** (partial: false for the maximum generations, see `C57_counterexample`).  All five series have
96 values.  The loads are between PMIN of their device and 0, the maximum generations of the wind farm are
between 0 and its PMAX, and those of the solar panels are not negative.  The loads move linearly over each
of the four transitions, and the maximum generations over the first and the last one. -/
theorem C57_series_partial :
    (∀ s ∈ loadSeries ++ genSeries, s.length = 96) ∧
    List.Forall₂ (fun i s => ∃ r lo, Row i r ∧ r .pmin = some (.fin lo) ∧ ∀ x ∈ s, lo ≤ x ∧ x ≤ 0) [1, 3, 5] loadSeries ∧
    (∃ r hi s, Row 4 r ∧ r .pmax = some (.fin hi) ∧ genSeries[1]? = some s ∧ ∀ x ∈ s, 0 ≤ x ∧ x ≤ hi) ∧
    (∃ s, genSeries[0]? = some s ∧ ∀ x ∈ s, 0 ≤ x) ∧
    (∀ s ∈ loadSeries, ∀ a ∈ [24, 44, 64, 84], Ramp s a) ∧
    (∀ s ∈ genSeries, ∀ a ∈ [24, 84], Ramp s a) := by
  refine ⟨by decide +kernel, ?_, ?_, ?_, ?_, ?_⟩
  · refine .cons ⟨_, -10, ⟨List.mem_of_getElem? (i := 1) rfl, ?_⟩, ?_, ?_⟩
      (.cons ⟨_, -30, ⟨List.mem_of_getElem? (i := 3) rfl, ?_⟩, ?_, ?_⟩
      (.cons ⟨_, -30, ⟨List.mem_of_getElem? (i := 5) rfl, ?_⟩, ?_, ?_⟩ .nil))
    all_goals decide +kernel
  · refine ⟨_, 50, _, ⟨List.mem_of_getElem? (i := 4) rfl, ?_⟩, ?_, rfl, ?_⟩
    all_goals decide +kernel
  · exact ⟨_, rfl, by decide +kernel⟩
  · unfold Ramp; decide +kernel
  · unfold Ramp; decide +kernel

/-- **C57, counterexample.** The maximum generation of the solar panels exceeds PMAX of their device
before and after noon, and the transitions of both generators to and from the third level are not linear. -/
theorem C57_counterexample :
    (∃ r hi s x, Row 2 r ∧ r .pmax = some (.fin hi) ∧ genSeries[0]? = some s ∧ x ∈ s ∧ hi < x) ∧
    (∀ s ∈ genSeries, ∀ a ∈ [44, 64], ¬ Ramp s a) := by
  refine ⟨⟨_, 30, _, at' (genSeries.getD 0 []) 51, ⟨List.mem_of_getElem? (i := 2) rfl, ?_⟩, ?_, rfl, ?_⟩, ?_⟩
  · decide +kernel
  · decide +kernel
  · decide +kernel
  · unfold Ramp; decide +kernel

/-! ### C60: random dates -/

theorem daysBefore_succ (y : ℕ) (hy : 1 ≤ y) : daysBefore (y + 1) = daysBefore y + yearDays y := by
  obtain ⟨n, rfl⟩ := Nat.exists_eq_add_of_le' hy
  simp only [daysBefore, Nat.add_sub_cancel]
  rw [List.range'_concat]
  simp [Nat.add_comm]

/-- The closed formula for the number of days before a year. -/
theorem daysBefore_formula (n : ℕ) : daysBefore (n + 1) = n * 365 + n / 4 - n / 100 + n / 400 := by
  induction n with
  | zero => rfl
  | succ n ih =>
    rw [daysBefore_succ (n + 1) (by omega), ih, yearDays]
    split <;> rename_i h <;> unfold Leap at h <;> omega

/-- **C60.** For every generator and every year from 1 to 9999, `random_date` raises no exception and
returns midnight of a day of that year. -/
theorem C60_random_date {K ρ : Type} [Field K] [LinearOrder K] {g : Rng K ρ} (hg : Fair g) (r : ρ) {y : ℕ}
    (h1 : 1 ≤ y) (h2 : y ≤ 9999) : ∃ d r' n, randomDate g r y = .ok (d, r') ∧ DayOf y n d := by
  obtain ⟨k, hk⟩ : ∃ k : ℕ, (g.integers r 1 365).1 = k := by
    have := hg.integers r 1 365 (by norm_num)
    exact ⟨(g.integers r 1 365).1.toNat, by omega⟩
  have hr := hg.integers r 1 365 (by norm_num)
  obtain ⟨n, rfl⟩ := Nat.exists_eq_add_of_le' h1
  have hyear : 365 ≤ yearDays (n + 1) := by unfold yearDays; split <;> omega
  have hf := daysBefore_formula n
  refine ⟨((daysBefore (n + 1) + k : ℕ) : ℤ) * (24 * 3600 * 1000000), (g.integers r 1 365).2, k, ?_, ?_, rfl⟩
  · simp only [randomDate, bind_ok, pure_ok, newYear, dateAdd, guardE_ok, hk]
    refine ⟨_, ⟨(), by omega, rfl⟩, _, ⟨(), ?_, rfl⟩, ?_⟩
    · unfold dayMicros; omega
    · unfold dayMicros
      simp only [Prod.mk.injEq, and_true]
      omega
  · omega

/-- The first day of the year is never chosen, nor is the last day of a leap year. -/
theorem C60_excluded {K ρ : Type} [Field K] [LinearOrder K] {g : Rng K ρ} (hg : Fair g) (r r' : ρ) {y n : ℕ} {d : ℤ}
    (h : randomDate g r y = .ok (d, r')) (hd : DayOf y n d) : n ≠ 0 ∧ (Leap y → n ≠ 365) := by
  have hr := hg.integers r 1 365 (by norm_num)
  simp only [randomDate, bind_ok, pure_ok, newYear, dateAdd, guardE_ok] at h
  obtain ⟨_, ⟨_, hy, rfl⟩, _, ⟨_, h4, rfl⟩, h5⟩ := h
  simp only [Prod.mk.injEq] at h5
  obtain ⟨h5, -⟩ := h5
  obtain ⟨m, rfl⟩ := Nat.exists_eq_add_of_le' (show 1 ≤ y by omega)
  obtain ⟨hn, rfl⟩ := hd
  have hf := daysBefore_formula m
  unfold dayMicros at h5
  change 1 ≤ (g.1 r 1 365).1 ∧ _ at hr
  generalize (g.1 r 1 365).1 = k at *
  have h6 : ((m + 1 : ℕ) : ℤ) - 1 = m := by omega
  rw [h6] at h5
  constructor
  · rintro rfl; omega
  · rintro - rfl; omega

/-- A generator that always returns the lower limit. -/
def lowRng : Rng ℚ Unit where
  integers := fun r lo _ => (lo, r)
  uniform := fun r lo _ => (lo, r)

theorem fair_low : Fair lowRng := ⟨fun _ _ _ h => ⟨le_refl _, h⟩, fun _ lo _ h => ⟨lo, rfl, le_refl _, h⟩⟩

/-- With this generator the date is 2 January. -/
example : Fair lowRng ∧ ∃ d, randomDate lowRng () (2020 : ℕ) = .ok (d, ()) ∧ DayOf 2020 1 d :=
  ⟨fair_low, _, rfl, by unfold DayOf; decide +kernel⟩

/-! ### C61: skipped frames -/

theorem refresh_ok {s : Screen} {w : World} {k : ℕ} {n : ℕ} (h1 : s.live = true) (h2 : s.servers.isSome = true)
    (h3 : w.update = none) (h4 : s.skipped = ((n % (k + 1) : ℕ) : ℤ)) :
    s.refresh w k = ({ s with skipped := (((n + 1) % (k + 1) : ℕ) : ℤ) }, .ok (decide ((k + 1) ∣ (n + 1)))) := by
  obtain ⟨m, hm⟩ := Option.isSome_iff_exists.1 h2
  have e : Int.fmod (s.skipped + 1) (k + 1) = (((n + 1) % (k + 1) : ℕ) : ℤ) := by
    rw [Int.fmod_eq_emod_of_nonneg _ (by omega), h4]
    push_cast
    rw [Int.emod_add_emod]
  unfold Screen.refresh
  rw [if_neg (by omega)]
  simp only [e, Nat.dvd_iff_mod_eq_zero]
  by_cases hz : (n + 1) % (k + 1) = 0
  · simp [hz, h1, hm, h3]
  · have : (((n + 1) % (k + 1) : ℕ) : ℤ) ≠ 0 := by exact_mod_cast hz
    simp only [ne_eq, this, not_false_eq_true, if_true, hz, decide_false]

/-- The screen during a sequence of calls of `render(skip_frames=k)`, `n` of which have been made. -/
def Showing (k n : ℕ) (s : Screen) : Prop :=
  s.live = true ∧ ((n = 0 ∧ s.mode = none) ∨
    (s.mode.isSome = true ∧ s.servers.isSome = true ∧ s.skipped = ((n % (k + 1) : ℕ) : ℤ)))

theorem showing_apply {k n : ℕ} {s : Screen} {e : Event} (hs : Showing k n s) (he : Watching k e) :
    ((apply s e).2 = .done ∧ Showing k n (apply s e).1) ∨
    ((apply s e).2 = .rendered (decide ((k + 1) ∣ (n + 1))) ∧ Showing k (n + 1) (apply s e).1) := by
  obtain ⟨hl, hs⟩ := hs
  cases e with
  | render m j w =>
    obtain ⟨rfl, rfl, h3, h4⟩ := he
    right
    simp only [apply, Screen.render]
    rcases hs with ⟨rfl, hm⟩ | ⟨hm, h5, h6⟩
    · rw [if_pos hm]
      simp only [ne_eq, not_true_eq_false, if_false, Screen.launch, h3]
      rw [refresh_ok (n := 0) (by exact hl) (by rfl) h4 (by simp)]
      exact ⟨rfl, hl, .inr ⟨rfl, rfl, rfl⟩⟩
    · rw [if_neg (by intro h; rw [h] at hm; cases hm), refresh_ok hl h5 h4 h6]
      exact ⟨rfl, hl, .inr ⟨hm, h5, rfl⟩⟩
  | reset b =>
    simp only [Watching] at he
    subst he
    exact .inl ⟨rfl, rfl, hs⟩
  | step => exact .inl ⟨rfl, hl, hs⟩
  | close => exact he.elim

theorem frames_from {k : ℕ} {l : List Event} : ∀ {n : ℕ} {s : Screen}, Showing k n s → (∀ e ∈ l, Watching k e) →
    (∀ r ∈ (play s l).2, r ≠ .raised) ∧
    ∀ i b, (frames (play s l).2)[i]? = some b → b = decide ((k + 1) ∣ (n + i + 1)) := by
  induction l with
  | nil => intro n s _ _; simp [play, frames]
  | cons e l ih =>
    intro n s hs hl
    rcases showing_apply hs (hl e (by simp)) with ⟨h1, h2⟩ | ⟨h1, h2⟩
    · obtain ⟨i1, i2⟩ := ih h2 fun e he => hl e (by simp [he])
      simp only [play, h1, frames]
      exact ⟨by simpa using i1, i2⟩
    · obtain ⟨i1, i2⟩ := ih h2 fun e he => hl e (by simp [he])
      simp only [play, h1, frames]
      refine ⟨by simpa using i1, fun i b hb => ?_⟩
      cases i with
      | zero => simpa using hb.symm
      | succ i =>
        simp only [List.getElem?_cons_succ] at hb
        rw [i2 i b hb]
        congr 2
        omega

/-- Exactly one multiple of `k + 1` among `k + 1` consecutive numbers. -/
theorem one_multiple (k m : ℕ) :
    ((List.range (k + 1)).map fun i => decide ((k + 1) ∣ (m + i + 1))).count true = 1 := by
  have hmod : (m + 1 + (k - m % (k + 1))) % (k + 1) = 0 := by
    have h1 := Nat.mod_lt m (show 0 < k + 1 by omega)
    have h2 := Nat.div_add_mod m (k + 1)
    have : m + 1 + (k - m % (k + 1)) = (k + 1) * (m / (k + 1) + 1) := by
      rw [Nat.mul_add]; omega
    rw [this, Nat.mul_mod_right]
  have hlt := Nat.mod_lt m (show 0 < k + 1 by omega)
  rw [List.count_eq_countP, List.countP_map]
  have : ∀ i ∈ List.range (k + 1), ((fun x => x == true) ∘ fun i => decide ((k + 1) ∣ (m + i + 1))) i = true ↔
      (fun i => i == k - m % (k + 1)) i = true := by
    intro i hi
    have hi := List.mem_range.1 hi
    simp only [Function.comp, beq_iff_eq, decide_eq_true_eq, Nat.dvd_iff_mod_eq_zero]
    constructor
    · intro h
      have e1 := (Nat.modEq_iff_dvd' (n := k + 1) (a := 0) (b := m + i + 1) (by omega)).2
        (by simpa using Nat.dvd_of_mod_eq_zero h)
      have h2 := Nat.div_add_mod m (k + 1)
      obtain ⟨c, hc⟩ := Nat.dvd_of_mod_eq_zero h
      generalize m / (k + 1) = q at h2
      generalize m % (k + 1) = z at *
      have : (k + 1) * c = (k + 1) * q + (z + i + 1) := by omega
      have hq : q < c := by
        by_contra hcq
        have := Nat.mul_le_mul_left (k + 1) (show c ≤ q by omega)
        omega
      have hc2 : c < q + 2 := by
        by_contra hcq
        have := Nat.mul_le_mul_left (k + 1) (show q + 2 ≤ c by omega)
        rw [Nat.mul_add] at this
        omega
      have : c = q + 1 := by omega
      subst this
      rw [Nat.mul_add] at hc
      omega
    · rintro rfl
      rw [show m + (k - m % (k + 1)) + 1 = m + 1 + (k - m % (k + 1)) by omega]
      exact hmod
  rw [List.countP_congr this, ← List.count_eq_countP, List.count_eq_one_of_mem List.nodup_range]
  rw [List.mem_range]
  omega

/-- **C61** (partial: the refresh is the last call of every `k + 1`, not the first, see
`C61_counterexample`).  From the moment rendering starts in an environment that has been reset, calling
`render(skip_frames=k)` any number of times, with steps and resets in between, raises no exception, and
exactly one call out of any `k + 1` consecutive ones refreshes the display. -/
theorem C61_skip_frames_partial {k : ℕ} {l : List Event} {s : Screen} (h1 : s.live = true) (h2 : s.mode = none)
    (hl : ∀ e ∈ l, Watching k e) :
    (∀ r ∈ (play s l).2, r ≠ .raised) ∧
    ∀ i, i + (k + 1) ≤ (frames (play s l).2).length →
      (((frames (play s l).2).drop i).take (k + 1)).count true = 1 := by
  obtain ⟨g1, g2⟩ := frames_from (n := 0) (s := s) ⟨h1, .inl ⟨rfl, h2⟩⟩ hl
  refine ⟨g1, fun i hi => ?_⟩
  generalize frames (play s l).2 = f at *
  refine Eq.trans (congrArg _ ?_) (one_multiple k i)
  apply List.ext_getElem
  · simp; omega
  · intro j hj1 hj2
    simp only [List.getElem_take, List.getElem_drop, List.getElem_map, List.getElem_range]
    have := g2 (i + j) _ (List.getElem?_eq_getElem (by simp at hj1; omega))
    rw [this]
    congr 2
    omega

/-- **C61, exact times.** The display is refreshed by the calls number `k + 1`, `2 (k + 1)`, ... -/
theorem C61_times {k : ℕ} {l : List Event} {s : Screen} (h1 : s.live = true) (h2 : s.mode = none)
    (hl : ∀ e ∈ l, Watching k e) (i : ℕ) (b : Bool) (h : (frames (play s l).2)[i]? = some b) :
    b = true ↔ (k + 1) ∣ (i + 1) := by
  rw [(frames_from (n := 0) (s := s) ⟨h1, .inl ⟨rfl, h2⟩⟩ hl).2 i b h]
  simp

/-- **C61, counterexample.** With `k > 0` the first call does not show the initial state. -/
theorem C61_counterexample (k : ℕ) (hk : 0 < k) :
    frames (play { live := true } [.render "human" k {}]).2 = [false] := by
  have := (frames_from (k := k) (n := 0) (s := { live := true }) (l := [.render "human" k {}])
    ⟨rfl, .inl ⟨rfl, rfl⟩⟩ (by simp [Watching]))
  obtain ⟨g1, g2⟩ := this
  have hne : (apply { live := true } (.render "human" k {})).2 ≠ .raised := g1 _ (by simp [play])
  obtain ⟨b, hb⟩ : ∃ b, (apply { live := true } (.render "human" k {})).2 = .rendered b := by
    simp only [apply] at hne ⊢
    cases h : (Screen.render { live := true } {} "human" k).2 with
    | ok b => exact ⟨b, rfl⟩
    | error e => rw [h] at hne; exact absurd rfl hne
  have g := g2 0 b (by simp [play, hb, frames])
  simp only [play, hb, frames]
  rw [g]
  simp
  omega

example : frames (play { live := true } ((List.range 7).flatMap fun _ => [.step, .render "human" 2 {}])).2 =
    [false, false, true, false, false, true, false] := by decide +kernel

/-! ### C62: reset and close -/

/-- In a sequence of calls that raise no exception. -/
def Healthy (s : Screen) : Prop :=
  (s.mode = none ∧ s.running = []) ∨
  (s.mode.isSome = true ∧ s.isRendering = true ∧ ∃ n, s.servers = some n ∧ s.running = [n])

theorem refresh_fields (s : Screen) (w : World) (k : ℤ) :
    ∃ n, (s.refresh w k).1 = { s with skipped := n } := by
  unfold Screen.refresh
  dsimp only
  split
  · exact ⟨s.skipped, rfl⟩
  · split
    · exact ⟨_, rfl⟩
    · split
      · exact ⟨_, rfl⟩
      · split
        · exact ⟨_, rfl⟩
        · split <;> exact ⟨_, rfl⟩

theorem healthy_apply {s : Screen} {e : Event} (hs : Healthy s) (he : (apply s e).2 ≠ .raised) :
    Healthy (apply s e).1 := by
  cases e with
  | render m k w =>
    simp only [apply, Screen.render] at he ⊢
    split at he
    · rename_i hm
      split at he
      · exact absurd rfl he
      · rename_i hh
        simp only [Screen.launch] at he ⊢
        rw [if_pos hm, if_neg hh]
        cases hw : w.start with
        | some e => simp [hw, Result.ofRender] at he
        | none =>
          simp only [hw] at he ⊢
          generalize hx : Screen.refresh _ w k = x at *
          obtain ⟨n, hn⟩ := refresh_fields
            { s with
              mode := some m, skipped := 0, servers := some s.launched, running := s.launched :: s.running,
              launched := s.launched + 1 } w k
          rw [hx] at hn
          obtain ⟨x1, x2⟩ := x
          cases x2 with
          | error e => simp [Result.ofRender] at he
          | ok b =>
            right
            dsimp only at hn ⊢
            subst hn
            rcases hs with ⟨_, hr⟩ | ⟨hm', _⟩
            · exact ⟨rfl, rfl, _, rfl, by simp [hr]⟩
            · rw [hm] at hm'; cases hm'
    · rename_i hm
      rw [if_neg hm]
      obtain ⟨n, hn⟩ := refresh_fields s w k
      rw [hn]
      exact hs
  | reset b =>
    cases b
    · exact hs
    · exact absurd rfl he
  | step => exact hs
  | close =>
    simp only [apply, Screen.close]
    left
    rcases hs with ⟨h1, h2⟩ | ⟨h1, h2, n, h3, h4⟩
    · split
      · unfold Screen.terminate
        cases s.servers <;> simp [h2]
      · exact ⟨rfl, h2⟩
    · simp [h2, Screen.terminate, h3, h4]

theorem healthy_play {l : List Event} : ∀ {s : Screen}, Healthy s → (∀ r ∈ (play s l).2, r ≠ .raised) →
    Healthy (play s l).1 := by
  induction l with
  | nil => intro s hs _; exact hs
  | cons e l ih =>
    intro s hs hr
    simp only [play, List.mem_cons, forall_eq_or_imp] at hr ⊢
    exact ih (healthy_apply hs hr.1) hr.2

/-- **C62, modes.** In every situation: `reset` without exception leaves `render_mode` unchanged, and
`close` raises no exception and sets `render_mode` to `None`. -/
theorem C62_modes (s : Screen) :
    ((apply s (.reset false)).1.mode = s.mode) ∧
    ((apply s .close).2 = .done) ∧ (apply s .close).1.mode = none := by
  refine ⟨rfl, ?_⟩
  simp only [apply, Screen.close]
  split
  · unfold Screen.terminate
    cases s.servers <;> simp [Result.ofClose]
  · exact ⟨rfl, rfl⟩

/-- **C62** (partial: only for sequences of calls that raise no exception, see `C62_counterexample_render`
and `C62_counterexample_reset`).  From construction on, after any sequence of calls of `render`, `reset`,
`step` and `close`, none of which raises an exception: server processes run iff `render_mode` is set, and
then they are one pair; hence after a final `close` none runs. -/
theorem C62_close_partial {l : List Event} (h : ∀ r ∈ (play {} l).2, r ≠ .raised) :
    ((play {} l).1.running ≠ [] ↔ (play {} l).1.mode.isSome = true) ∧ (play {} l).1.running.length ≤ 1 ∧
    (apply (play {} l).1 .close).1.running = [] := by
  have hh : Healthy (play {} l).1 := healthy_play (.inl ⟨rfl, rfl⟩) h
  have hc := healthy_apply (e := .close) hh (by rw [(C62_modes _).2.1]; simp)
  refine ⟨?_, ?_, ?_⟩
  · rcases hh with ⟨h1, h2⟩ | ⟨h1, _, n, _, h4⟩
    · simp [h1, h2]
    · simp [h1, h4]
  · rcases hh with ⟨h1, h2⟩ | ⟨h1, _, n, _, h4⟩
    · simp [h2]
    · simp [h4]
  · rcases hc with ⟨_, h2⟩ | ⟨h1, _⟩
    · exact h2
    · rw [(C62_modes _).2.2] at h1; cases h1

example : ∀ r ∈ (play {} [.reset false, .render "human" 0 {}, .step, .render "human" 0 {}, .close, .close,
    .render "human" 1 {}, .reset false, .close]).2, r ≠ .raised := by decide +kernel

/-- **C62, counterexample.** `render` before the first `reset` raises an exception after the servers have
been started; rendering then works after `reset`, but `close` never terminates the servers. -/
theorem C62_counterexample_render :
    play {} [.render "human" 0 {}, .reset false, .render "human" 0 {}, .close] =
      ({ live := true, servers := some 0, running := [0], launched := 1 },
       [.raised, .done, .rendered true, .done]) := by decide +kernel

/-- **C62, counterexample.** A `reset` that raises an exception forgets `render_mode`; the next `render`
starts a second pair of servers and `close` terminates only that one. -/
theorem C62_counterexample_reset :
    play {} [.reset false, .render "human" 0 {}, .reset true, .reset false, .render "human" 0 {}, .close] =
      ({ live := true, isRendering := true, servers := some 1, running := [0], launched := 2 },
       [.done, .rendered true, .raised, .done, .rendered true, .done]) := by decide +kernel

end Anm
