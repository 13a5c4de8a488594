import Verif.Props.EnvDemo

/-! # C93: the weights of the reward do not influence what happens

Two environments that differ only in `gamma`, `lamb` and `costs_clipping` behave alike, except for the rewards. -/

set_option linter.unusedSectionVars false

namespace Anm

open Spec

/-- Two computations that both raise the same exception, or both succeed with related results. -/
def Spec.Alike {α β : Type} (R : α → β → Prop) : Except PyErr α → Except PyErr β → Prop
  | .ok a, .ok b => R a b
  | .error e, .error f => e = f
  | _, _ => False

theorem alike_bind {α β γ δ : Type} {R : α → β → Prop} {S : γ → δ → Prop} {x : Except PyErr α} {y : Except PyErr β}
    {f : α → Except PyErr γ} {g : β → Except PyErr δ} (h : Alike R x y) (hf : ∀ a b, R a b → Alike S (f a) (g b)) :
    Alike S (x >>= f) (y >>= g) := by
  cases x <;> cases y <;> simp only [Alike, bind, Except.bind] at h ⊢
  · exact h
  · exact hf _ _ h

theorem alike_same {α γ δ : Type} {S : γ → δ → Prop} {x : Except PyErr α}
    {f : α → Except PyErr γ} {g : α → Except PyErr δ} (hf : ∀ a, Alike S (f a) (g a)) :
    Alike S (x >>= f) (x >>= g) := by
  cases x <;> simp only [Alike, bind, Except.bind]
  exact hf _

namespace Spec
section
variable {K ρ : Type} [Field K] [LinearOrder K]

/-- Simulators that differ only in `lamb`. -/
def AlikeSim (s s' : Sim K) : Prop := s' = { s with lamb := s'.lamb }

/-- Bookkeeping that differs only in the costs. -/
def AlikeDyn : Option (EnvDyn K) → Option (EnvDyn K) → Prop
  | none, none => True
  | some y, some y' => y.terminated = y'.terminated ∧ y.timestep = y'.timestep ∧ y.state = y'.state
  | _, _ => False

/-- Environments that differ only in `gamma`, `lamb`, `costs_clipping` and the costs of the last step. -/
structure AlikeEnv (e e' : Env K ρ) : Prop where
  sim : AlikeSim e.sim e'.sim
  nAux : e.nAux = e'.nAux
  auxBounds : e.auxBounds = e'.auxBounds
  stateValues : e.stateValues = e'.stateValues
  stateN : e.stateN = e'.stateN
  actionSpace : e.actionSpace = e'.actionSpace
  obsValues : e.obsValues = e'.obsValues
  obsFn : e.obsFn = e'.obsFn
  obsSpace : e.obsSpace = e'.obsSpace
  rng : e.rng = e'.rng
  dyn : AlikeDyn e.dyn e'.dyn

/-- Calls of the methods of an environment. -/
inductive Command (K : Type) where
  | reset (seed : Option ℤ)
  | step (action : List (X K))

/-- What a call shows, except for the reward: the observation and `terminated`. -/
def showCalls (c : EnvCtx K ρ) (e : Env K ρ) : List (Command K) → Except PyErr (List (List (X K) × Bool))
  | [] => .ok []
  | .reset seed :: l => do
    let (e, obs) ← e.reset c seed
    let r ← showCalls c e l
    pure ((obs, false) :: r)
  | .step act :: l => do
    let (e, o) ← e.step c act
    let r ← showCalls c e l
    pure ((o.obs, o.terminated) :: r)

end
end Spec

section
variable {K ρ : Type} [Field K] [LinearOrder K] {c : EnvCtx K ρ} {q : Ctx K} {s s' : Sim K} {e e' : Env K ρ}

theorem solveStep_alike (h : AlikeSim s s') (a : Sim.Args K) : Alike AlikeSim (s.solveStep q a) (s'.solveStep q a) := by
  rw [h]
  unfold Sim.solveStep
  refine alike_same fun ds => alike_same fun o => ?_
  unfold Sim.applyPF
  simp only [bind_assoc]
  refine alike_same fun ds' => ?_
  simp [Alike, pure, Except.pure, bind, Except.bind, AlikeSim]

theorem transition_alike (h : AlikeSim s s') (a : Sim.Args K) :
    Alike (fun x y => AlikeSim x.1 y.1 ∧ x.2.converged = y.2.converged) (s.transition q a) (s'.transition q a) := by
  unfold Sim.transition
  refine alike_bind (solveStep_alike h a) fun s s' h => ?_
  rw [h]
  refine alike_same (x := Sim.gatherState q.pi s) fun st => ?_
  unfold Sim.computeReward
  simp only [bind_assoc]
  refine alike_same fun bp => ?_
  simp [Alike, pure, Except.pure, bind, Except.bind, AlikeSim]

theorem sim_reset_alike (h : AlikeSim s s') (v : List (X K)) :
    Alike (fun x y => AlikeSim x.1 y.1 ∧ x.2 = y.2) (s.reset q v) (s'.reset q v) := by
  rw [h]
  unfold Sim.reset
  refine alike_same fun a => alike_same fun ds => ?_
  have hs : AlikeSim ({ s with state := none, devices := ds } : Sim K)
    { s with lamb := s'.lamb, state := none, devices := ds } := rfl
  have ht := transition_alike (q := q) hs a
  refine alike_bind ht ?_
  rintro ⟨s1, o⟩ ⟨s1', o'⟩ ⟨h1, h2⟩
  dsimp only at h1 h2 ⊢
  rw [h1, h2]
  refine alike_same (x := Sim.assignSoc s1.baseMVA _ s1.devices 0) fun ds => ?_
  refine alike_same (x := Sim.gatherState q.pi { s1 with devices := ds }) fun st => ?_
  simp [Alike, pure, Except.pure, AlikeSim]

theorem search_alike (n : ℕ) : ∀ (k : ℕ) {s s' : Sim K} (r : ρ), AlikeSim s s' →
    Alike (fun x y => AlikeSim x.1 y.1 ∧ x.2 = y.2) (Env.search c n k s r) (Env.search c n k s' r)
  | 0, _, _, _, _ => by simp [Env.search, Alike]
  | k + 1, s, s', r, h => by
    unfold Env.search
    refine alike_same fun ⟨v, r⟩ => alike_same fun _ => alike_bind (sim_reset_alike h v) ?_
    rintro ⟨s1, o⟩ ⟨s1', o'⟩ ⟨h1, h2⟩
    simp only at h1 h2
    subst h2
    by_cases hk : k = 0
    · simp [hk, Alike]
    · cases o
      · simpa [hk] using search_alike n k r h1
      · simpa [hk, Alike, pure, Except.pure] using h1

theorem env_alike (h : AlikeEnv e e') : ∃ l g c1 c2 y, AlikeDyn e.dyn y ∧
    e' = { e with sim := { e.sim with lamb := l }, gamma := g, c1 := c1, c2 := c2, dyn := y } := by
  obtain ⟨h1, h2, h3, h4, h5, h6, h7, h8, h9, h10, h11⟩ := h
  cases e; cases e'
  simp only at *
  subst h2 h3 h4 h5 h6 h7 h8 h9 h10
  exact ⟨_, _, _, _, _, h11, by rw [h1]⟩

theorem reset_alike (h : AlikeEnv e e') (seed : Option ℤ) :
    Alike (fun x y => AlikeEnv x.1 y.1 ∧ x.2 = y.2) (e.reset c seed) (e'.reset c seed) := by
  obtain ⟨l, g, c1, c2, y, -, rfl⟩ := env_alike h
  unfold Env.reset
  refine alike_bind (search_alike (s := e.sim) (s' := { e.sim with lamb := l }) e.initSize 100 _ (by simp [AlikeSim])) ?_
  rintro ⟨s1, v, r⟩ ⟨s1', v', r'⟩ ⟨h1, h2⟩
  simp only [Prod.mk.injEq] at h1 h2
  obtain ⟨rfl, rfl⟩ := h2
  rw [h1]
  refine alike_same (x := ({ e with sim := s1, rng := r } : Env K ρ).extract v e.stateValues) fun st => ?_
  refine alike_same (x := ({ e with sim := s1, rng := r } : Env K ρ).observe st) fun ⟨obs, nr⟩ => ?_
  refine alike_same fun _ => ?_
  simp only [Alike, pure, Except.pure, and_true]
  constructor <;> simp [AlikeSim, AlikeDyn]

/-- The reward is computed unless a collapse is divided by zero. -/
theorem rewardOf_ne_one [IsStrictOrderedRing K] (hg : e.gamma ≠ .fin 1) (b : Bool) (x y : X K) :
    ∃ r, e.rewardOf b x y = .ok r := by
  unfold Env.rewardOf
  cases b
  · have : ¬ (X.fin 1 - e.gamma = .fin 0) := by
      cases hx : e.gamma with
      | fin x =>
        rw [X.fin_sub_fin, X.fin.injEq]
        rw [hx] at hg
        exact fun h => hg (by rw [sub_eq_zero.mp h])
      | _ => nofun
    refine ⟨(-e.c2 / (X.fin 1 - e.gamma), e.c1, e.c2), ?_⟩
    · simp only [X.pyDiv, Bool.false_eq_true, if_false]
      rw [(guardE_ok (u := ())).mpr this]
      rfl
  · exact ⟨_, rfl⟩

theorem step_alike [IsStrictOrderedRing K] (h : AlikeEnv e e') (hg : e.gamma ≠ .fin 1) (hg' : e'.gamma ≠ .fin 1)
    (act : List (X K)) :
    Alike (fun x y => AlikeEnv x.1 y.1 ∧ x.1.gamma = e.gamma ∧ y.1.gamma = e'.gamma ∧ x.2.obs = y.2.obs ∧
      x.2.terminated = y.2.terminated) (e.step c act) (e'.step c act) := by
  obtain ⟨l, g, c1, c2, y, hy, he⟩ := env_alike h
  unfold Env.step
  rw [he]
  refine alike_same fun _ => ?_
  rcases hd : e.dyn with _ | z <;> rcases y with _ | z' <;> simp only [hd, AlikeDyn] at hy ⊢
  · simp [Alike]
  · obtain ⟨h1, h2, h3⟩ := hy
    obtain ⟨zt, zn, zl, zp, zs⟩ := z
    obtain ⟨zt', zn', zl', zp', zs'⟩ := z'
    simp only at h1 h2 h3
    subst h1 h2 h3
    cases zt
    · simp only [Bool.false_eq_true, if_false]
      unfold Env.advance
      refine alike_same fun ⟨vars, r⟩ => alike_same fun _ => alike_same fun ⟨pl, pp⟩ => ?_
      refine alike_bind (transition_alike (s := e.sim) (s' := { e.sim with lamb := l }) (by simp [AlikeSim]) _) ?_
      rintro ⟨s1, o⟩ ⟨s1', o'⟩ ⟨h1, h2⟩
      dsimp only at h1 h2 ⊢
      rw [h1, ← h2]
      obtain ⟨r1, hr1⟩ := rewardOf_ne_one (e := { e with sim := s1, rng := r }) hg o.converged o.eLoss o.penalty
      obtain ⟨r2, hr2⟩ := rewardOf_ne_one (e := { e with sim := { s1 with lamb := s1'.lamb }, gamma := g, c1 := c1, c2 := c2, rng := r, dyn := some ⟨false, zn, zl', zp', zs⟩ })
        (by rw [he] at hg'; exact hg') o.converged o'.eLoss o'.penalty
      simp only [hr1, hr2]
      refine alike_same (x := ({ e with sim := s1, rng := r } : Env K ρ).vectors o.converged zs _) fun ⟨st, obs⟩ => ?_
      simp only [Alike, pure, Except.pure, and_true]
      constructor <;> simp [AlikeSim, AlikeDyn]
    · simp only [if_true, Alike, and_true]
      refine ⟨?_, trivial, trivial, rfl⟩
      constructor <;> simp [AlikeSim, AlikeDyn, hd]

/-- **C93.** Two environments that differ only in `gamma`, `lamb` and `costs_clipping` show the same observations
and terminal flags in every sequence of calls, or raise the same exception (`gamma = 1`, which makes the reward of
a collapse a division by zero, excepted). -/
theorem C93_calls [IsStrictOrderedRing K] (l : List (Command K)) : ∀ {e e' : Env K ρ}, AlikeEnv e e' →
    e.gamma ≠ .fin 1 → e'.gamma ≠ .fin 1 → showCalls c e l = showCalls c e' l := by
  have key : ∀ {x y : Except PyErr (List (List (X K) × Bool))}, Alike (· = ·) x y → x = y := by
    intro x y h
    cases x <;> cases y <;> simp only [Alike] at h <;> simp [h]
  induction l with
  | nil => intros; rfl
  | cons a l ih =>
    intro e e' h hg hg'
    apply key
    cases a with
    | reset seed =>
      unfold showCalls
      have hgam : ∀ {e : Env K ρ} {x}, e.reset c seed = .ok x → x.1.gamma = e.gamma := by
        intro e x hx
        obtain ⟨e1, o⟩ := x
        simp only [Env.reset, bind_ok, pure_ok, guardE_ok, Prod.exists, Prod.mk.injEq] at hx
        obtain ⟨s, v, r, -, st, -, ob, nr, -, -, -, rfl, -⟩ := hx
        rfl
      have hr := reset_alike (c := c) h seed
      rcases h1 : e.reset c seed with x | ⟨e1, o1⟩ <;> rcases h2 : e'.reset c seed with x' | ⟨e2, o2⟩ <;>
        simp only [h1, h2, Alike] at hr
      · subst hr; simp [Alike, bind, Except.bind]
      · obtain ⟨hr, rfl⟩ := hr
        have := ih hr (by rw [hgam h1]; exact hg) (by rw [hgam h2]; exact hg')
        simp only [bind, Except.bind, this]
        cases showCalls c e2 l <;> simp [Alike, pure, Except.pure]
    | step act =>
      unfold showCalls
      have hr := step_alike (c := c) h hg hg' act
      rcases h1 : e.step c act with x | ⟨e1, o1⟩ <;> rcases h2 : e'.step c act with x' | ⟨e2, o2⟩ <;>
        simp only [h1, h2, Alike] at hr
      · subst hr; simp [Alike, bind, Except.bind]
      · obtain ⟨hr, hga, hgb, ho, ht⟩ := hr
        have := ih hr (by rw [hga]; exact hg) (by rw [hgb]; exact hg')
        simp only [bind, Except.bind, this, ho, ht]
        cases showCalls c e2 l <;> simp [Alike, pure, Except.pure]


/-- The constructor accepts the weights. -/
structure Spec.WeightsOk (gamma lamb : X K) : Prop where
  lamb : ¬ lamb < 0
  gamma : ¬ (gamma < 0 ∨ .fin 1 < gamma)

theorem mkEnv_alike [FloorRing K] {a : EnvArgs K} (gamma lamb : X K) (clip : Option (Option (X K) × Option (X K)))
    (h : WeightsOk a.gamma a.lamb) (h' : WeightsOk gamma lamb) :
    Alike (fun e e' => AlikeEnv e e' ∧ e.gamma = a.gamma ∧ e'.gamma = gamma) (mkEnv c a)
      (mkEnv c { a with gamma := gamma, lamb := lamb, clipping := clip }) := by
  have hchk : ∀ {k dt l1 l2 g1 g2} {o : ObsArg K} {x sb}, WeightsOk g1 l1 → WeightsOk g2 l2 →
      checkEnvArgs k dt l1 g1 o x sb = checkEnvArgs k dt l2 g2 o x sb := by
    intro k dt l1 l2 g1 g2 o x sb h1 h2
    simp only [checkEnvArgs, (guardE_ok (u := ())).mpr h1.lamb, (guardE_ok (u := ())).mpr h1.gamma,
      (guardE_ok (u := ())).mpr h2.lamb, (guardE_ok (u := ())).mpr h2.gamma]
  have hsim : Alike (fun s s' => AlikeSim s s') (mkSim a.network a.deltaT a.lamb) (mkSim a.network a.deltaT lamb) := by
    unfold mkSim
    refine alike_same fun _ => alike_same fun ⟨b, r, d⟩ => alike_same fun _ => ?_
    simp [Alike, pure, Except.pure, AlikeSim]
  unfold mkEnv
  refine alike_bind hsim fun s s' hs => ?_
  rw [hs]
  dsimp only
  rw [hchk h' h]
  refine alike_same (x := checkEnvArgs a.nAux a.deltaT a.lamb a.gamma a.observation a.auxBounds
    (s.stateSpace c.sim.pi)) fun _ => ?_
  refine alike_same (x := mapE (expandItem s a.nAux.toNat) stateItems) fun sv => ?_
  refine alike_same (x := mkBox c.box (actionBounds s)) fun act => ?_
  refine alike_same (x := obsValues s a.nAux.toNat sv a.observation) fun ov => ?_
  refine alike_same (x := observationBounds c.box (s.stateSpace c.sim.pi) a.auxBounds ov) fun os => ?_
  simp only [Alike, pure, Except.pure, and_true]
  constructor <;> simp [AlikeSim, AlikeDyn]

/-- **C93.** Creating an environment and calling its methods gives the same observations and terminal flags, or
the same exception, whatever the discount factor, the weight of the penalty and the clipping of the costs are. -/
theorem C93_weights [IsStrictOrderedRing K] [FloorRing K] {a : EnvArgs K} (gamma lamb : X K)
    (clip : Option (Option (X K) × Option (X K)))
    (h : WeightsOk a.gamma a.lamb) (h' : WeightsOk gamma lamb) (hg : a.gamma ≠ .fin 1) (hg' : gamma ≠ .fin 1)
    (l : List (Command K)) :
    (mkEnv c a >>= fun e => showCalls c e l) =
      (mkEnv c { a with gamma := gamma, lamb := lamb, clipping := clip } >>= fun e => showCalls c e l) := by
  have hm := mkEnv_alike (c := c) (a := a) gamma lamb clip h h'
  rcases h1 : mkEnv c a with x | e <;>
    rcases h2 : mkEnv c { a with gamma := gamma, lamb := lamb, clipping := clip } with x' | e' <;>
    simp only [h1, h2, Alike] at hm
  · subst hm; rfl
  · obtain ⟨hm, ha, hb⟩ := hm
    exact C93_calls l hm (by rw [ha]; exact hg) (by rw [hb]; exact hg')

end

/-- The calls of a session of the demonstration network that ends in a collapse, and starts again. -/
def demoCalls : List (Command ℚ) := [.reset (some 0), .step mildAct, .step mildAct, .step mildAct, .reset none]

/-- The hypotheses are met, and the session goes through all its calls. -/
example : ∃ l, (mkEnv (envCtx load1) (envArgs (.list demoObs) (1/2)) >>= fun e => showCalls (envCtx load1) e demoCalls) = .ok l ∧
    l.map (·.2) = [false, false, true, true, false] ∧
    (mkEnv (envCtx load1) { envArgs (.list demoObs) (1/2) with gamma := .fin (9/10), lamb := 0, clipping := none } >>=
      fun e => showCalls (envCtx load1) e demoCalls) = .ok l := by
  have h : ∃ l, (mkEnv (envCtx load1) (envArgs (.list demoObs) (1/2)) >>= fun e => showCalls (envCtx load1) e demoCalls) =
      .ok l ∧ l.map (·.2) = [false, false, true, true, false] := exOk (by decide +kernel)
  obtain ⟨l, h1, h2⟩ := h
  refine ⟨l, h1, h2, ?_⟩
  rw [← h1]
  exact (C93_weights (a := envArgs (.list demoObs) (1/2)) (.fin (9/10)) 0 none ⟨by decide +kernel, by decide +kernel⟩
    ⟨by decide +kernel, by decide +kernel⟩ (by decide +kernel) (by decide +kernel) _).symm

/-- With `gamma = 1` the same session raises `ZeroDivisionError` at the collapse. -/
theorem C93_gamma_one : (mkEnv (envCtx load1) (envArgs (.list demoObs) 1) >>= fun e => showCalls (envCtx load1) e demoCalls) =
    .error .zeroDivision := by
  have : ((mkEnv (envCtx load1) (envArgs (.list demoObs) 1) >>= fun e => showCalls (envCtx load1) e demoCalls) |> fun
      | .error .zeroDivision => true
      | _ => false) = true := by decide +kernel
  revert this
  rcases (mkEnv (envCtx load1) (envArgs (.list demoObs) 1) >>= fun e => showCalls (envCtx load1) e demoCalls) with x | x
  · cases x <;> simp
  · simp

end Anm
