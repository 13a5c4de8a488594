import Verif.Model.Generators
import Verif.Props.EnvMade
import Verif.Props.Examples
import Verif.Props.EnvDemo

/-! # C140: seeds and the two generators -/

set_option linter.unusedSectionVars false

namespace Anm

open Spec

namespace Spec

variable {K ρ γ : Type} [Field K] [LinearOrder K]

/-- Both calls raise the same exception, or both return and the results are related. -/
def SameOutcome {α β : Type} (P : α → β → Prop) : Except PyErr α → Except PyErr β → Prop
  | .ok a, .ok b => P a b
  | .error x, .error y => x = y
  | _, _ => False

/-- Environments that differ at most in the state of the generators, and there only by `R`. -/
def UpToGenerator (R : ρ → ρ → Prop) (e f : Env K ρ) : Prop := f = { e with rng := f.rng } ∧ R e.rng f.rng

/-- The hooks treat generators related by `R` alike. -/
structure HooksRespect (R : ρ → ρ → Prop) (c d : EnvCtx K ρ) : Prop where
  sim : d.sim = c.sim
  init : ∀ r r', R r r' → SameOutcome (fun x y => x.1 = y.1 ∧ R x.2 y.2) (c.initState r) (d.initState r')
  next : ∀ st r r', R r r' → SameOutcome (fun x y => x.1 = y.1 ∧ R x.2 y.2) (c.nextVars st r) (d.nextVars st r')

/-- Successive calls of `step` on two environments: the same exception after the same number of steps, or
always the same observations, rewards and flags. -/
def SameFuture (c : EnvCtx K ρ) (d : EnvCtx K ρ) : List (List (X K)) → Env K ρ → Env K ρ → Prop
  | [], _, _ => True
  | a :: as, e, f => SameOutcome (fun x y => x.2 = y.2 ∧ SameFuture c d as x.1 y.1) (e.step c a) (f.step d a)

/-- Hooks that draw from the generator of the environment only. -/
def OwnHooks (c : EnvCtx K (ρ × γ)) : Prop :=
  ∃ (i : ρ → Except PyErr (List (X K) × ρ)) (n : List (X K) → ρ → Except PyErr (List (X K) × ρ)),
    c.initState = fromOwn i ∧ c.nextVars = fun st => fromOwn (n st)

/-- One call of `reset` or `step`, or other code that draws from one of the generators. -/
def CallBoth (own : ℤ → ρ) (c : EnvCtx K (ρ × γ)) (e e' : Env K (ρ × γ)) : Prop :=
  (∃ seed obs, e.resetBoth own c seed = .ok (e', obs)) ∨ (∃ a out, e.step c a = .ok (e', out)) ∨
    ∃ r, e' = { e with rng := r }

end Spec

section
variable {K ρ γ : Type} [Field K] [LinearOrder K]

theorem same_bind {α β α' β' : Type} {P : α → β → Prop} {Q : α' → β' → Prop} {x : Except PyErr α} {y : Except PyErr β}
    {f : α → Except PyErr α'} {g : β → Except PyErr β'} (h : SameOutcome P x y) (k : ∀ a b, P a b → SameOutcome Q (f a) (g b)) :
    SameOutcome Q (x >>= f) (y >>= g) := by
  cases x <;> cases y
  · exact h
  · exact h.elim
  · exact h.elim
  · exact k _ _ h

theorem same_rfl {α : Type} (x : Except PyErr α) : SameOutcome (fun a b => b = a) x x := by
  cases x <;> rfl

theorem same_bind_eq {α α' β' : Type} {Q : α' → β' → Prop} (x : Except PyErr α)
    {f : α → Except PyErr α'} {g : α → Except PyErr β'} (k : ∀ a, SameOutcome Q (f a) (g a)) :
    SameOutcome Q (x >>= f) (x >>= g) :=
  same_bind (same_rfl x) fun a b h => by rw [h]; exact k a

theorem same_mono {α β : Type} {P Q : α → β → Prop} {x : Except PyErr α} {y : Except PyErr β} (h : SameOutcome P x y)
    (k : ∀ a b, P a b → Q a b) : SameOutcome Q x y := by
  cases x <;> cases y
  · exact h
  · exact h.elim
  · exact h.elim
  · exact k _ _ h

variable {R : ρ → ρ → Prop} {c d : EnvCtx K ρ}

theorem search_respect (H : HooksRespect R c d) (n size : ℕ) (s : Sim K) {r r' : ρ} (h : R r r') :
    SameOutcome (fun x y => y.1 = x.1 ∧ y.2.1 = x.2.1 ∧ R x.2.2 y.2.2) (Env.search c size n s r) (Env.search d size n s r') := by
  induction n generalizing s r r' with
  | zero => rfl
  | succ n ih =>
    unfold Env.search
    refine same_bind (H.init r r' h) ?_
    rintro ⟨v, q⟩ ⟨v', q'⟩ ⟨rfl, hq⟩
    dsimp only at hq ⊢
    refine same_bind_eq _ fun _ => ?_
    rw [H.sim]
    refine same_bind_eq _ ?_
    rintro ⟨s', ok⟩
    dsimp only
    split
    · rfl
    · split
      · exact ⟨rfl, rfl, hq⟩
      · exact ih s' hq

/-- **C140, resets.** -/
theorem reset_respect (H : HooksRespect R c d) {e f : Env K ρ} (h : UpToGenerator R e f) {seed seed' : Option ℤ}
    (hs : R ((seed.map c.seeded).getD e.rng) ((seed'.map d.seeded).getD f.rng)) :
    SameOutcome (fun x y => x.2 = y.2 ∧ UpToGenerator R x.1 y.1) (e.reset c seed) (f.reset d seed') := by
  obtain ⟨hf, -⟩ := h
  generalize hr : f.rng = r0 at hf hs
  subst hf
  unfold Env.reset
  dsimp only
  refine same_bind (search_respect H 100 e.initSize e.sim hs) ?_
  rintro ⟨s, v, r⟩ ⟨s', v', r'⟩ ⟨h1, h2, h3⟩
  dsimp only at h1 h2 h3
  subst h1 h2
  dsimp only
  refine same_bind_eq (Env.extract { e with sim := s', rng := r } v' e.stateValues) fun st => ?_
  refine same_bind_eq (Env.observe { e with sim := s', rng := r } st) ?_
  rintro ⟨obs, narrow⟩
  refine same_bind_eq _ fun _ => ?_
  exact ⟨rfl, rfl, h3⟩

/-- **C140, steps.** -/
theorem step_respect (H : HooksRespect R c d) {e f : Env K ρ} (h : UpToGenerator R e f) (a : List (X K)) :
    SameOutcome (fun x y => x.2 = y.2 ∧ UpToGenerator R x.1 y.1) (e.step c a) (f.step d a) := by
  obtain ⟨hf, hR⟩ := h
  generalize f.rng = r0 at hf hR
  subst hf
  unfold Env.step
  dsimp only
  refine same_bind_eq _ fun _ => ?_
  split
  · rfl
  · rename_i y _
    by_cases ht : y.terminated
    · rw [if_pos ht, if_pos ht]
      exact ⟨rfl, rfl, hR⟩
    · rw [if_neg ht, if_neg ht]
      unfold Env.advance
      dsimp only
      refine same_bind (H.next y.state _ _ hR) ?_
      rintro ⟨v, q⟩ ⟨v', q'⟩ ⟨rfl, hq⟩
      dsimp only at hq ⊢
      refine same_bind_eq _ fun _ => ?_
      refine same_bind_eq _ ?_
      rintro ⟨pl, pp⟩
      dsimp only
      rw [H.sim]
      refine same_bind_eq _ ?_
      rintro ⟨s, o⟩
      dsimp only
      refine same_bind_eq (Env.rewardOf { e with sim := s, rng := q } o.converged o.eLoss o.penalty) ?_
      rintro ⟨rw, el, p⟩
      refine same_bind_eq (Env.vectors { e with sim := s, rng := q } o.converged y.state _) ?_
      rintro ⟨st, obs⟩
      exact ⟨rfl, rfl, hq⟩

theorem future_respect (H : HooksRespect R c d) (as : List (List (X K))) {e f : Env K ρ} (h : UpToGenerator R e f) :
    SameFuture c d as e f := by
  induction as generalizing e f with
  | nil => trivial
  | cons a as ih => exact same_mono (step_respect H h a) fun x y hxy => ⟨hxy.1, ih hxy.2⟩

end

/-! ### The seed of the example environments -/

section
variable {K ρ γ : Type} [Field K] [LinearOrder K]

theorem rands_global (np : NumpyRandom K γ) (n : ℕ) (r r' : ρ × γ) (h : r'.2 = r.2) :
    (np.global.rands n r).1 = (np.global.rands n r').1 ∧ (np.global.rands n r').2.2 = (np.global.rands n r).2.2 := by
  induction n generalizing r r' with
  | zero => exact ⟨rfl, h⟩
  | succ n ih =>
    have := ih (np.global.rand r).2 (np.global.rand r').2 (by simp only [NumpyRandom.global, h])
    simp only [NumpyRandom.rands, this.1, this.2, and_true]
    simp only [NumpyRandom.global, h]

/-- The external code of the examples, whose random numbers come from the global generator. -/
def globalWorld (w : ExampleWorld K (ρ × γ)) (np : NumpyRandom K γ) : ExampleWorld K (ρ × γ) := { w with np := np.global }

theorem simple_respect (w : ExampleWorld K (ρ × γ)) (np : NumpyRandom K γ) (s : Sim K) (own own' : ℤ → ρ) (g g' : γ) :
    HooksRespect (fun r r' => r'.2 = r.2) ((simpleCtx (globalWorld w np) s).whenGlobal own g)
      ((simpleCtx (globalWorld w np) s).whenGlobal own' g') where
  sim := rfl
  init := fun r r' h => rands_global np _ r r' h
  next := fun _ r r' h => by
    show (_ : List (X K)) = _ ∧ _ = _
    simp only [simpleNext, globalWorld, NumpyRandom.global, h, and_self]

theorem custom_respect [FloorRing K] (w : ExampleWorld K (ρ × γ)) (np : NumpyRandom K γ) (s : Sim K) (own own' : ℤ → ρ) (g g' : γ) :
    HooksRespect (fun r r' => r'.2 = r.2) ((customCtx (globalWorld w np) s).whenGlobal own g)
      ((customCtx (globalWorld w np) s).whenGlobal own' g') where
  sim := rfl
  init := fun r r' h => by
    have := rands_global np (2 * s.nDevice + s.nDes + s.nNonSlackGen) r r' h
    show (_ : List (X K)) = _ ∧ _ = _
    simp only [customInit, globalWorld, this.1, this.2, and_self]
  next := fun st r r' h => by
    show SameOutcome _ (customNext (globalWorld w np).np st r) (customNext (globalWorld w np).np st r')
    unfold customNext
    dsimp only [globalWorld, NumpyRandom.global]
    rw [h]
    refine same_bind_eq _ fun a => same_bind_eq _ fun t => ⟨rfl, rfl⟩

/-- **C140, refutation, two-bus example.** The seed makes no difference at all: whatever the seeds given to `reset` (or none),
the environment returns the same observation, and afterwards the same observations, rewards and flags, because only the
global generator is drawn from. -/
theorem C140_simple_ignored (w : ExampleWorld K (ρ × γ)) (np : NumpyRandom K γ) (s : Sim K) (own : ℤ → ρ)
    (e : Env K (ρ × γ)) (seed seed' : Option ℤ) (as : List (List (X K))) :
    SameOutcome (fun x y => x.2 = y.2 ∧ SameFuture (simpleCtx (globalWorld w np) s) (simpleCtx (globalWorld w np) s) as x.1 y.1)
      (e.resetBoth own (simpleCtx (globalWorld w np) s) seed) (e.resetBoth own (simpleCtx (globalWorld w np) s) seed') := by
  have H := simple_respect w np s own own e.rng.2 e.rng.2
  refine same_mono (reset_respect H ⟨rfl, rfl⟩ ?_) fun x y h => ⟨h.1, future_respect (c := simpleCtx (globalWorld w np) s) (d := simpleCtx (globalWorld w np) s) ⟨H.sim, H.init, H.next⟩ as h.2⟩
  cases seed <;> cases seed' <;> rfl

/-- **C140, refutation, six-bus example.** -/
theorem C140_custom_ignored [FloorRing K] (w : ExampleWorld K (ρ × γ)) (np : NumpyRandom K γ) (s : Sim K) (own : ℤ → ρ)
    (e : Env K (ρ × γ)) (seed seed' : Option ℤ) (as : List (List (X K))) :
    SameOutcome (fun x y => x.2 = y.2 ∧ SameFuture (customCtx (globalWorld w np) s) (customCtx (globalWorld w np) s) as x.1 y.1)
      (e.resetBoth own (customCtx (globalWorld w np) s) seed) (e.resetBoth own (customCtx (globalWorld w np) s) seed') := by
  have H := custom_respect w np s own own e.rng.2 e.rng.2
  refine same_mono (reset_respect H ⟨rfl, rfl⟩ ?_) fun x y h => ⟨h.1, future_respect (c := customCtx (globalWorld w np) s) (d := customCtx (globalWorld w np) s) ⟨H.sim, H.init, H.next⟩ as h.2⟩
  cases seed <;> cases seed' <;> rfl

/-! ### Environments that draw from their own generator -/

theorem same_join {α β δ : Type} {P : α → β → Prop} {P' : δ → β → Prop} {Q : α → δ → Prop} {x : Except PyErr α}
    {y : Except PyErr β} {z : Except PyErr δ} (h : SameOutcome P x y) (h' : SameOutcome P' z y)
    (k : ∀ a b e, P a b → P' e b → Q a e) : SameOutcome Q x z := by
  cases x <;> cases y <;> cases z <;> try exact h.elim
  all_goals try exact h'.elim
  · exact h.trans h'.symm
  · exact k _ _ _ h h'

theorem fromOwn_same {α : Type} (f : ρ → Except PyErr (α × ρ)) {r r' : ρ × γ} (h : r'.1 = r.1) :
    SameOutcome (fun x y => x.1 = y.1 ∧ y.2.1 = x.2.1) (fromOwn f r) (fromOwn f r') := by
  unfold fromOwn
  rw [h]
  exact same_bind_eq _ fun _ => ⟨rfl, rfl⟩

theorem own_respect {c : EnvCtx K (ρ × γ)} (hc : OwnHooks c) (own own' : ℤ → ρ) (g g' : γ) :
    HooksRespect (fun r r' => r'.1 = r.1) (c.whenGlobal own g) (c.whenGlobal own' g') := by
  obtain ⟨i, n, hi, hn⟩ := hc
  refine ⟨rfl, fun r r' h => ?_, fun st r r' h => ?_⟩
  · show SameOutcome _ (c.initState r) (c.initState r')
    rw [hi]; exact fromOwn_same i h
  · show SameOutcome _ (c.nextVars st r) (c.nextVars st r')
    rw [hn]; exact fromOwn_same (n st) h

/-- A history in which the global generator does what it likes looks, up to the global generator, like one in which seeding always
leaves it in a fixed state. -/
theorem history_fixed {c : EnvCtx K (ρ × γ)} (hc : OwnHooks c) (own : ℤ → ρ) (g : γ) {e0 e : Env K (ρ × γ)}
    (h : Relation.ReflTransGen (CallBoth own c) e0 e) :
    ∃ f, EnvHistory (c.whenGlobal own g) e0 f ∧ UpToGenerator (fun r r' => r'.1 = r.1) e f := by
  induction h with
  | refl => exact ⟨e0, .refl, rfl, rfl⟩
  | @tail a b _ hcall ih =>
    obtain ⟨f, hf, hu⟩ := ih
    rcases hcall with ⟨seed, obs, hr⟩ | ⟨u, out, hr⟩ | ⟨r, rfl⟩
    · have := reset_respect (own_respect hc own own a.rng.2 g) hu (seed := seed) (seed' := seed)
        (by cases seed; exacts [hu.2, rfl])
      unfold Env.resetBoth at hr
      rw [hr] at this
      cases hy : f.reset (c.whenGlobal own g) seed with
      | error x => rw [hy] at this; exact this.elim
      | ok y => rw [hy] at this; exact ⟨y.1, hf.tail (.inl ⟨seed, y.2, hy⟩), this.2⟩
    · have := step_respect (own_respect hc own own a.rng.2 g) hu u
      have hr' : a.step (c.whenGlobal own a.rng.2) u = .ok (b, out) := hr
      rw [hr'] at this
      cases hy : f.step (c.whenGlobal own g) u with
      | error x => rw [hy] at this; exact this.elim
      | ok y => rw [hy] at this; exact ⟨y.1, hf.tail (.inr (.inl ⟨u, y.2, hy⟩)), this.2⟩
    · refine ⟨{ f with rng := r }, hf.tail (.inr (.inr ⟨r, rfl⟩)), ?_, rfl⟩
      have := hu.1
      generalize f.rng = r0 at this
      subst this
      rfl

theorem made_generator [FloorRing K] {c d : EnvCtx K ρ} {a : EnvArgs K} {e f : Env K ρ} (hs : d.sim = c.sim) (hb : d.box = c.box)
    (h : mkEnv c a = .ok e) (h' : mkEnv d a = .ok f) : f = { e with rng := f.rng } := by
  simp only [mkEnv, bind_ok, pure_ok] at h h'
  rw [hs, hb] at h'
  obtain ⟨s, h1, _, -, sv, h2, act, h3, ov, h4, os, h5, rfl⟩ := h
  obtain ⟨s', g1, _, -, sv', g2, act', g3, ov', g4, os', g5, rfl⟩ := h'
  cases h1.symm.trans g1
  cases h2.symm.trans g2
  cases h3.symm.trans g3
  cases h4.symm.trans g4
  cases h5.symm.trans g5
  rfl

/-- **C140, positive part.** If the hooks draw from the generator of the environment only, a seed makes an episode reproducible: two
environments made from the same arguments (in different processes, say), with arbitrary pasts and whatever else has been drawn
from whichever generator, behave the same after `reset` with the same seed.  Missing: the examples do not satisfy the hypothesis. -/
theorem C140_own_partial [FloorRing K] {c : EnvCtx K (ρ × γ)} (hc : OwnHooks c) {own : ℤ → ρ} {a : EnvArgs K} {g1 g2 : γ}
    {a1 a2 e1 e2 : Env K (ρ × γ)} (m1 : mkEnvBoth own g1 c a = .ok a1) (m2 : mkEnvBoth own g2 c a = .ok a2)
    (h1 : Relation.ReflTransGen (CallBoth own c) a1 e1) (h2 : Relation.ReflTransGen (CallBoth own c) a2 e2)
    (hobs : FixedLength a.observation.fn) (seed : ℤ) (as : List (List (X K))) :
    SameOutcome (fun x y => x.2 = y.2 ∧ SameFuture c c as x.1 y.1) (e1.resetBoth own c (some seed)) (e2.resetBoth own c (some seed)) := by
  have hm := made_generator (c := c.whenGlobal own g1) (d := c.whenGlobal own g2) rfl rfl m1 m2
  have h2' : Relation.ReflTransGen (CallBoth own c) a1 e2 := .head (.inr (.inr ⟨_, hm⟩)) h2
  obtain ⟨f1, k1, u1⟩ := history_fixed hc own g1 h1
  obtain ⟨f2, k2, u2⟩ := history_fixed hc own g1 h2'
  have r1 := reset_respect (own_respect hc own own e1.rng.2 g1) u1 (seed := some seed) (seed' := some seed) rfl
  have r2 := reset_respect (own_respect hc own own e2.rng.2 g1) u2 (seed := some seed) (seed' := some seed) rfl
  rw [← C54_reset_erases m1 k1 k2 hobs seed] at r2
  refine same_join r1 r2 ?_
  rintro ⟨x, o⟩ ⟨y, o'⟩ ⟨z, o''⟩ ⟨p1, p2, p3⟩ ⟨q1, q2, q3⟩
  dsimp only at p1 p2 p3 q1 q2 q3
  refine ⟨p1.trans q1.symm, ?_⟩
  have H := own_respect hc own own g1 g1
  refine future_respect (R := fun r r' => r'.1 = r.1) (c := c) (d := c) ⟨H.sim, H.init, H.next⟩ as ⟨?_, q3.symm.trans p3⟩
  dsimp only
  generalize hr : y.rng = r0 at p2 q2
  subst p2
  have := congrArg (fun t : Env K (ρ × γ) => { t with rng := z.rng }) q2
  exact this.symm

end

/-! ### Runs over the rationals -/

/-- A global generator that counts: `rand()` gives 0, 1/10, ..., 9/10, 0, ... -/
def tenths : NumpyRandom ℚ ℕ where
  rand := fun r => (.fin ((r % 10 : ℕ) / 10), r + 1)
  randint := fun r lo hi => (lo + r % (hi - lo), r + 1)

/-- The solvers of `EnvDemo`; generators that count. -/
def seedWorld : ExampleWorld ℚ (ℕ × ℕ) where
  sim := ⟨demoQP, envPF, 22/7⟩
  box := fun _ _ => .ok ()
  seeded := fun n => (n.toNat, 0)
  fresh := (0, 0)
  rng := ⟨fun r lo _ => (lo, r), fun r lo _ => (lo, r)⟩
  np := tenths.global

theorem fair_tenths : FairNumpy tenths where
  rand := by
    intro r
    refine ⟨_, rfl, by positivity, ?_⟩
    rw [div_lt_one (by norm_num)]
    exact_mod_cast Nat.mod_lt r (by norm_num)
  randint := by
    intro r lo hi h
    have h1 := Int.emod_nonneg (r : ℤ) (b := hi - lo) (by omega)
    have h2 := Int.emod_lt_of_pos (r : ℤ) (b := hi - lo) (by omega)
    simp only [tenths]
    omega

/-- **C140, refutation, a run.** The two-bus example, reset twice with the seed 7: two different observations. -/
theorem C140_counterexample : ∃ e0 e1 e2 o1 o2, FairNumpy tenths ∧
    mkEnvBoth Int.toNat 0 (simpleCtx (globalWorld seedWorld tenths) simpleSim) simpleArgs = .ok e0 ∧
    e0.resetBoth Int.toNat (simpleCtx (globalWorld seedWorld tenths) simpleSim) (some 7) = .ok (e1, o1) ∧
    e1.resetBoth Int.toNat (simpleCtx (globalWorld seedWorld tenths) simpleSim) (some 7) = .ok (e2, o2) ∧ o1 ≠ o2 := by
  obtain ⟨⟨e0, ⟨e1, o1⟩, e2, o2⟩, hr, h⟩ : ∃ r, (do
      let e0 ← mkEnvBoth Int.toNat 0 (simpleCtx (globalWorld seedWorld tenths) simpleSim) simpleArgs
      let x ← e0.resetBoth Int.toNat (simpleCtx (globalWorld seedWorld tenths) simpleSim) (some 7)
      let y ← x.1.resetBoth Int.toNat (simpleCtx (globalWorld seedWorld tenths) simpleSim) (some 7)
      pure (e0, x, y)) = .ok r ∧ r.2.1.2.getLast? = some (.fin (2/5)) ∧ r.2.2.2.getLast? = some (.fin (9/10)) := exOk (by decide +kernel)
  simp only [bind_ok, pure_ok] at hr
  obtain ⟨e0', h0, ⟨e1', o1'⟩, h1, ⟨e2', o2'⟩, h2, hr⟩ := hr
  cases hr
  refine ⟨_, _, _, _, _, fair_tenths, h0, h1, h2, fun ho => ?_⟩
  have := h.1.symm.trans ((congrArg List.getLast? ho).trans h.2)
  simp only [Option.some.injEq, X.fin.injEq] at this
  norm_num at this

/-- The two-bus example, written with `self.np_random`. -/
def ownSimple : EnvCtx ℚ (ℕ × ℕ) :=
  { simpleCtx seedWorld simpleSim with
    initState := fromOwn fun r => .ok (simpleInit tenths simpleSim r)
    nextVars := fun _ => fromOwn fun r => .ok (simpleNext tenths r) }

/-- An environment to which the positive part applies: two environments made while the global generator is in the states 0 and 5, one of them used
before, are reset with the seed 7 and return the same observation, another than with the seed 8. -/
example : ∃ a1 a2 e1 o1, OwnHooks ownSimple ∧ FixedLength (simpleArgs : EnvArgs ℚ).observation.fn ∧
    mkEnvBoth Int.toNat 0 ownSimple simpleArgs = .ok a1 ∧ mkEnvBoth Int.toNat 5 ownSimple simpleArgs = .ok a2 ∧
    a2.resetBoth Int.toNat ownSimple none = .ok (e1, o1) ∧
    (∃ x y z, a1.resetBoth Int.toNat ownSimple (some 7) = .ok x ∧ e1.resetBoth Int.toNat ownSimple (some 7) = .ok y ∧
      e1.resetBoth Int.toNat ownSimple (some 8) = .ok z ∧ x.2.getLast? = some (.fin (1/10)) ∧ y.2.getLast? = some (.fin (1/10)) ∧
      z.2.getLast? = some (.fin (1/5))) := by
  obtain ⟨⟨a1, a2, ⟨e1, o1⟩, x, y, z⟩, hr, h⟩ : ∃ r, (do
      let a1 ← mkEnvBoth Int.toNat 0 ownSimple simpleArgs
      let a2 ← mkEnvBoth Int.toNat 5 ownSimple simpleArgs
      let u ← a2.resetBoth Int.toNat ownSimple none
      let x ← a1.resetBoth Int.toNat ownSimple (some 7)
      let y ← u.1.resetBoth Int.toNat ownSimple (some 7)
      let z ← u.1.resetBoth Int.toNat ownSimple (some 8)
      pure (a1, a2, u, x, y, z)) = .ok r ∧ r.2.2.2.1.2.getLast? = some (.fin (1/10)) ∧ r.2.2.2.2.1.2.getLast? = some (.fin (1/10)) ∧
      r.2.2.2.2.2.2.getLast? = some (.fin (1/5)) := exOk (by decide +kernel)
  simp only [bind_ok, pure_ok] at hr
  obtain ⟨a1', h0, a2', h1, u, h2, x', h3, y', h4, z', h5, hr⟩ := hr
  cases hr
  have hl : FixedLength (simpleArgs : EnvArgs ℚ).observation.fn := fun g hg => by cases hg
  exact ⟨_, _, _, _, ⟨fun r => .ok (simpleInit tenths simpleSim r), fun _ r => .ok (simpleNext tenths r), rfl, rfl⟩,
    hl, h0, h1, h2, _, _, _, h3, h4, h5, h⟩

end Anm
