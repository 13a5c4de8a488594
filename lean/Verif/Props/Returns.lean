import Verif.Props.EnvMade

/-! # C92: is a collapse the worst that can happen?

A step that collapses the network returns `-c2 / (1 - gamma)`, and nothing can be lost afterwards.  Steps in
operation cost up to `c1 + c2` each. -/

set_option linter.unusedSectionVars false

namespace Anm

open Spec

/-- The discounted sum of rewards. -/
def Spec.discounted {K : Type} [Field K] (g : K) : List K → K
  | [] => 0
  | r :: rs => r + g * discounted g rs

section
variable {K ρ : Type} [Field K] [LinearOrder K] [IsStrictOrderedRing K] [FloorRing K]
  {c : EnvCtx K ρ} {a : EnvArgs K} {e e' e2 : Env K ρ} {act : List (X K)} {out : Env.StepOut K}
  {as : List (List (X K))} {os : List (Env.StepOut K)} {c1 c2 g : K}

/-- A discounted sum of rewards that are at least `m`. -/
theorem discounted_ge {rs : List K} {m : K} (h0 : 0 ≤ g) (h : ∀ r ∈ rs, m ≤ r) (h1 : g < 1) :
    m * (1 - g ^ rs.length) ≤ (1 - g) * discounted g rs := by
  induction rs with
  | nil => simp [discounted]
  | cons r rs ih =>
    have ih := mul_le_mul_of_nonneg_left (ih fun r hr => h r (by simp [hr])) h0
    have := mul_le_mul_of_nonneg_left (h r (by simp)) (sub_nonneg.2 h1.le)
    simp only [discounted, List.length_cons, pow_succ]
    linarith

theorem discounted_append (rs : List K) (r : K) : discounted g (rs ++ [r]) = discounted g rs + g ^ rs.length * r := by
  induction rs with
  | nil => simp [discounted]
  | cons x rs ih => simp only [List.cons_append, discounted, ih, List.length_cons, pow_succ]; ring

/-- Rewards that are numbers are bounded. -/
theorem reward_bounds (he : EnvOf c a e) (hc : a.clipping = some (some (.fin c1), some (.fin c2)))
    (h10 : 0 ≤ c1) (h20 : 0 ≤ c2) (h : e.step c act = .ok (e', out)) (ht : out.terminated = false)
    (hn : X.NotNan out.reward) : ∃ r, out.reward = .fin r ∧ -(c1 + c2) ≤ r := by
  obtain ⟨e0, I, hs, -, -⟩ := envOf_inv he
  have h1 : e.c1 = .fin c1 := by rw [hs.c1, I.c1, hc]; rfl
  have h2 : e.c2 = .fin c2 := by rw [hs.c2, I.c2, hc]; rfl
  obtain ⟨_, y, hy, ⟨_, rfl, rfl⟩ | ⟨hf, h⟩⟩ := step_ok h
  · cases ht
  obtain ⟨vars, args, o, y', I⟩ := advance_ok h
  have ho : o.converged = true := by have := I.flag; rw [ht] at this; simpa using this.symm
  have hr := I.reward
  simp only [Env.rewardOf, ho, if_true, Except.ok.injEq, Prod.mk.injEq, h1, h2] at hr
  obtain ⟨hr, -, -⟩ := hr
  have n1 : X.NotNan o.eLoss := by
    cases hx : o.eLoss with
    | nan => rw [hx] at hr; rw [← hr] at hn; exact hn.elim
    | _ => trivial
  have n2 : X.NotNan o.penalty := by
    cases hx : o.penalty with
    | nan =>
      rw [hx] at hr
      rw [← hr] at hn
      revert hn
      generalize X.sign o.eLoss * X.clip (X.abs o.eLoss) 0 (X.fin c1) = z
      cases z <;> exact fun h => h.elim
    | _ => trivial
  obtain ⟨a1, a2, -⟩ := X.clip_energy n1 h10
  obtain ⟨b1, b2⟩ := X.clip_mem n2 (show (0 : X K) ≤ .fin c2 from h20)
  rw [← hr]
  revert a1 a2 b1 b2
  generalize X.sign o.eLoss * X.clip (X.abs o.eLoss) 0 (X.fin c1) = x
  generalize X.clip o.penalty 0 (X.fin c2) = z
  cases x <;> cases z <;> simp [X.zero_def]
  intro a1 a2 b1 b2
  linarith

/-- The rewards of steps in operation. -/
theorem episode_rewards (he : EnvOf c a e) (hc : a.clipping = some (some (.fin c1), some (.fin c2)))
    (h10 : 0 ≤ c1) (h20 : 0 ≤ c2) (h : Episode c e as os e')
    (hlive : ∀ o ∈ os, o.terminated = false ∧ X.NotNan o.reward) :
    ∃ rs : List K, os.map (·.reward) = rs.map X.fin ∧ ∀ r ∈ rs, -(c1 + c2) ≤ r := by
  induction h with
  | nil e => exact ⟨[], rfl, by simp⟩
  | @cons e e1 e' act as o os h1 h2 ih =>
    obtain ⟨ht, hn⟩ := hlive o (by simp)
    obtain ⟨r, hr, hb⟩ := reward_bounds he hc h10 h20 h1 ht hn
    obtain ⟨rs, hrs, hbs⟩ := ih (envOf_call he (.inr (.inl ⟨_, _, h1⟩))) fun o ho => hlive o (by simp [ho])
    refine ⟨r :: rs, by simp [hr, hrs], fun x hx => ?_⟩
    rcases List.mem_cons.1 hx with rfl | hx
    · exact hb
    · exact hbs x hx

/-- **C92 (what holds).** A collapse now is at most as good as staying in operation if every reward is at least
`-c2`.  In general it is better by at most `c1 * (1 - gamma ^ n) / (1 - gamma)`.  Missing: the claim without the
condition on the rewards, which is false (`C92_counterexample`). -/
theorem C92_collapse_partial (he : EnvOf c a e) (hc : a.clipping = some (some (.fin c1), some (.fin c2)))
    (hg : a.gamma = .fin g) (g0 : 0 ≤ g) (g1 : g < 1) (h10 : 0 ≤ c1) (h20 : 0 ≤ c2)
    (h : Episode c e as os e') (hlive : ∀ o ∈ os, o.terminated = false ∧ X.NotNan o.reward)
    {y : EnvDyn K} (hy : e.dyn = some y) (hyl : y.terminated = false)
    (hcol : e.step c act = .ok (e2, out)) (hout : out.terminated = true) :
    ∃ (rs : List K) (r : K), os.map (·.reward) = rs.map X.fin ∧ out.reward = .fin r ∧
      ((∀ x ∈ rs, -c2 ≤ x) → r ≤ discounted g rs) ∧
      r ≤ discounted g rs + c1 * (1 - g ^ os.length) / (1 - g) := by
  obtain ⟨rs, hrs, hb⟩ := episode_rewards he hc h10 h20 h hlive
  have hd : 0 < 1 - g := sub_pos.2 g1
  have hp : 0 ≤ g ^ rs.length := pow_nonneg g0 _
  have hl : os.length = rs.length := by simpa using congrArg List.length hrs
  refine ⟨rs, _, hrs, C47_terminating_made he hc hg g1.ne hy hyl hcol hout, fun hm => ?_, ?_⟩
  · have := discounted_ge g0 hm g1
    rw [div_le_iff₀ hd]
    nlinarith [mul_nonneg h20 hp]
  · have := discounted_ge g0 hb g1
    rw [hl, ← sub_le_iff_le_add, ← sub_div, div_le_iff₀ hd]
    nlinarith [mul_nonneg h20 hp]

theorem envOf_episode (he : EnvOf c a e) (h : Episode c e as os e') : EnvOf c a e' := by
  induction h with
  | nil e => exact he
  | cons h1 _ ih => exact ih (envOf_call he (.inr (.inl ⟨_, _, h1⟩)))

/-- **C92, later collapses.** Collapsing after some steps of operation is at least as good as collapsing now if the
reward of every such step is at least `-c2`.  Missing: as above. -/
theorem C92_later_partial (he : EnvOf c a e) (hc : a.clipping = some (some (.fin c1), some (.fin c2)))
    (hg : a.gamma = .fin g) (g0 : 0 ≤ g) (g1 : g < 1) (h10 : 0 ≤ c1) (h20 : 0 ≤ c2)
    (h : Episode c e as os e') (hlive : ∀ o ∈ os, o.terminated = false ∧ X.NotNan o.reward)
    {y y' : EnvDyn K} (hy : e.dyn = some y) (hyl : y.terminated = false)
    (hcol : e.step c act = .ok (e2, out)) (hout : out.terminated = true)
    (hy' : e'.dyn = some y') (hyl' : y'.terminated = false) {e3 : Env K ρ} {act' : List (X K)} {out' : Env.StepOut K}
    (hcol' : e'.step c act' = .ok (e3, out')) (hout' : out'.terminated = true) :
    ∃ (rs : List K) (r r' : K), os.map (·.reward) = rs.map X.fin ∧ out.reward = .fin r ∧ out'.reward = .fin r' ∧
      ((∀ x ∈ rs, -c2 ≤ x) → r ≤ discounted g (rs ++ [r'])) := by
  obtain ⟨rs, hrs, hb⟩ := episode_rewards he hc h10 h20 h hlive
  have hd : 0 < 1 - g := sub_pos.2 g1
  have he' : EnvOf c a e' := envOf_episode he h
  refine ⟨rs, _, _, hrs, C47_terminating_made he hc hg g1.ne hy hyl hcol hout,
    C47_terminating_made he' hc hg g1.ne hy' hyl' hcol' hout', fun hm => ?_⟩
  have := discounted_ge g0 hm g1
  rw [discounted_append, div_le_iff₀ hd]
  have : g ^ rs.length * (-c2 / (1 - g)) * (1 - g) = g ^ rs.length * -c2 := by field_simp
  nlinarith

end

/-! ### Counterexamples over ℚ -/

/-- High voltages and a slack bus that injects 100 p.u.; no solution if bus 2 injects reactive power. -/
def costlyPF : PF ℚ := fun i =>
  let z : Phasor ℚ := ⟨.fin (1/10), 0, .fin (1/10), 0⟩
  .ok { v := fun k => if k = 0 then ⟨1, 0, 1, 0⟩ else ⟨.fin (13/10), 0, .fin (13/10), 0⟩
        i := fun _ => z, slackP := .fin 100, slackQ := 0
        flow := fun _ => ⟨z, z, .fin (1/10), 0, .fin (-1/10), 0, .fin (1/10)⟩
        stable := i.buses.all fun b => b.1 != 2 || decide (b.2.2.2 ≤ .fin (1/1000)) }

def costlyCtx : EnvCtx ℚ ℕ := { envCtx (fun _ => -5) with sim := ⟨demoQP, costlyPF, 22/7⟩ }

def costlyArgs : EnvArgs ℚ :=
  { envArgs .state (1/2) with clipping := some (some (.fin 1), some (.fin 1)) }

/-- A step in operation, and one that collapses the network. -/
def calmAct : List (X ℚ) := [.fin 0, .fin 1, .fin (-4), .fin 0]

/-- **C92 is false.** With discount factor 1/2 and clipping at 1 and 1, two steps in operation have the discounted
return -3, and a collapse has -2. -/
theorem C92_counterexample : ∃ (e e2 e3 : Env ℚ ℕ) (y : EnvDyn ℚ) (o1 o2 o3 : Env.StepOut ℚ),
    EnvOf costlyCtx costlyArgs e ∧ e.dyn = some y ∧ y.terminated = false ∧
    Episode costlyCtx e [calmAct, calmAct] [o1, o2] e2 ∧ o1.terminated = false ∧ o2.terminated = false ∧
    e.step costlyCtx mildAct = .ok (e3, o3) ∧ o3.terminated = true ∧
    [o1, o2].map (·.reward) = [-2, -2].map X.fin ∧ o3.reward = .fin (-2) ∧
    discounted (1/2 : ℚ) [-2, -2] < -2 := by
  have h : ∃ r, (do
      let e0 ← mkEnv costlyCtx costlyArgs
      let r ← e0.reset costlyCtx none
      let s1 ← r.1.step costlyCtx calmAct
      let s2 ← s1.1.step costlyCtx calmAct
      let s3 ← r.1.step costlyCtx mildAct
      pure (r.1, s1.2, s2, s3)) = .ok r ∧ r.2.1.terminated = false ∧ r.2.2.1.2.terminated = false ∧
        r.2.2.2.2.terminated = true ∧ r.2.1.reward = .fin (-2) ∧ r.2.2.1.2.reward = .fin (-2) ∧
        r.2.2.2.2.reward = .fin (-2) := exOk (by decide +kernel)
  obtain ⟨⟨e, o1, ⟨e2, o2⟩, ⟨e3, o3⟩⟩, h, t1, t2, t3, r1, r2, r3⟩ := h
  simp only [bind_ok, pure_ok, Prod.mk.injEq] at h
  obtain ⟨e0, h1, ⟨e1, obs⟩, h2, ⟨f1, p1⟩, h3, ⟨f2, p2⟩, h4, ⟨f3, p3⟩, h5, rfl, rfl, ⟨rfl, rfl⟩, rfl, rfl⟩ := h
  obtain ⟨⟨y, hy, hyt, -⟩, -⟩ := C46_reset h2
  exact ⟨_, _, _, y, _, _, _, ⟨e0, h1, .single (.inl ⟨_, _, h2⟩)⟩, hy, hyt, .cons h3 (.cons h4 (.nil _)), t1, t2, h5, t3,
    by simp at r1 r2 ⊢; exact ⟨r1, r2⟩, r3, by norm_num [discounted]⟩

/-- The hypotheses of the theorems are met: with clipping at 0 and 1 a step costs 1, and a collapse 2, now or later. -/
example : ∃ (e e1 e2 e3 : Env ℚ ℕ) (y y1 : EnvDyn ℚ) (o1 o2 o3 : Env.StepOut ℚ),
    EnvOf costlyCtx { costlyArgs with clipping := some (some (.fin 0), some (.fin 1)) } e ∧
    e.dyn = some y ∧ y.terminated = false ∧ Episode costlyCtx e [calmAct] [o1] e1 ∧ o1.terminated = false ∧
    o1.reward = .fin (-1) ∧ e1.dyn = some y1 ∧ y1.terminated = false ∧
    e.step costlyCtx mildAct = .ok (e2, o2) ∧ o2.terminated = true ∧ o2.reward = .fin (-2) ∧
    e1.step costlyCtx mildAct = .ok (e3, o3) ∧ o3.terminated = true ∧ o3.reward = .fin (-2) := by
  have h : ∃ r, (do
      let e0 ← mkEnv costlyCtx { costlyArgs with clipping := some (some (.fin 0), some (.fin 1)) }
      let r ← e0.reset costlyCtx none
      let s1 ← r.1.step costlyCtx calmAct
      let s2 ← r.1.step costlyCtx mildAct
      let s3 ← s1.1.step costlyCtx mildAct
      pure (r.1, s1, s2, s3)) = .ok r ∧ r.2.1.2.terminated = false ∧ r.2.2.1.2.terminated = true ∧
        r.2.2.2.2.terminated = true ∧ r.2.1.2.reward = .fin (-1) ∧ r.2.2.1.2.reward = .fin (-2) ∧
        r.2.2.2.2.reward = .fin (-2) := exOk (by decide +kernel)
  obtain ⟨⟨e, ⟨e1, o1⟩, ⟨e2, o2⟩, ⟨e3, o3⟩⟩, h, t1, t2, t3, r1, r2, r3⟩ := h
  simp only [bind_ok, pure_ok, Prod.mk.injEq] at h
  obtain ⟨e0, h1, ⟨e1, obs⟩, h2, ⟨f1, p1⟩, h3, ⟨f2, p2⟩, h4, ⟨f3, p3⟩, h5, rfl, ⟨rfl, rfl⟩, ⟨rfl, rfl⟩, rfl, rfl⟩ := h
  obtain ⟨⟨y, hy, hyt, -⟩, -⟩ := C46_reset h2
  obtain ⟨y1, hy1, hyt1⟩ := C46_flag h3
  exact ⟨_, _, _, _, y, y1, _, _, _, ⟨e0, h1, .single (.inl ⟨_, _, h2⟩)⟩, hy, hyt, .cons h3 (.nil _), t1, r1, hy1,
    hyt1.trans t1, h4, t2, r2, h5, t3, r3⟩

/-- A network without losses: the slack bus takes what the others inject. -/
def losslessPF : PF ℚ := fun i =>
  .ok { v := fun _ => ⟨1, 0, 1, 0⟩, i := fun _ => ⟨0, 0, 0, 0⟩
        slackP := -((i.buses.filter fun b => !b.2.1).map fun b => b.2.2.1).sum, slackQ := 0
        flow := fun _ => ⟨⟨0, 0, 0, 0⟩, ⟨0, 0, 0, 0⟩, 0, 0, 0, 0, 0⟩, stable := true }

/-- No load, no wind; initially all powers are 0 and the storage unit is empty. -/
def cycleCtx : EnvCtx ℚ ℕ where
  sim := ⟨demoQP, losslessPF, 22/7⟩
  box := fun _ _ => .ok ()
  seeded := fun n => n.toNat
  fresh := 0
  initState := fun r => .ok (List.replicate 11 0, r + 1)
  nextVars := fun _ r => .ok ([0, 0, 0], r + 1)

/-- The energy losses are clipped at 1 MWh. -/
def cycleArgs : EnvArgs ℚ := { envArgs .state (1/2) with clipping := some (some (.fin (1/100)), some (.fin 100)) }

/-- **C91 needs the absence of clipping**: charging at 20 MW costs 5 MWh of which 1 MWh is counted; discharging twice at
4 MW brings 2 MWh.  The rewards of this episode, which starts with an empty storage unit, add up to 1 MWh. -/
theorem C91_clipped_counterexample : ∃ (e e' : Env ℚ ℕ) (os : List (Env.StepOut ℚ)), EnvOf cycleCtx cycleArgs e ∧
    (∀ d ∈ e.sim.devices, d.isStorage = true → d.soc = some d.socMin) ∧
    Episode cycleCtx e [[0, 0, .fin (-20), 0], [0, 0, .fin 4, 0], [0, 0, .fin 4, 0]] os e' ∧
    (∀ o ∈ os, o.terminated = false) ∧ (os.map (·.reward)).sum = .fin (1/100) := by
  have h : ∃ r, (do
      let e0 ← mkEnv cycleCtx cycleArgs
      let r ← e0.reset cycleCtx none
      let s1 ← r.1.step cycleCtx [0, 0, .fin (-20), 0]
      let s2 ← s1.1.step cycleCtx [0, 0, .fin 4, 0]
      let s3 ← s2.1.step cycleCtx [0, 0, .fin 4, 0]
      pure (r.1, s1.2, s2.2, s3)) = .ok r ∧ (∀ d ∈ r.1.sim.devices, d.isStorage = true → d.soc = some d.socMin) ∧
        r.2.1.terminated = false ∧ r.2.2.1.terminated = false ∧ r.2.2.2.2.terminated = false ∧
        r.2.1.reward + (r.2.2.1.reward + (r.2.2.2.2.reward + 0)) = .fin (1/100) := exOk (by decide +kernel)
  obtain ⟨⟨e, o1, o2, ⟨e3, o3⟩⟩, h, hd, t1, t2, t3, r⟩ := h
  simp only [bind_ok, pure_ok, Prod.mk.injEq] at h
  obtain ⟨e0, h1, ⟨e1, obs⟩, h2, ⟨f1, p1⟩, h3, ⟨f2, p2⟩, h4, ⟨f3, p3⟩, h5, rfl, rfl, rfl, rfl, rfl⟩ := h
  exact ⟨_, _, _, ⟨e0, h1, .single (.inl ⟨_, _, h2⟩)⟩, hd, .cons h3 (.cons h4 (.cons h5 (.nil _))),
    by simp at t1 t2 t3 ⊢; exact ⟨t1, t2, t3⟩, r⟩

end Anm
