import Verif.Props.RenderPage
import Verif.Props.Anm6Demo

/-! # C85, C86, C87: what a browser shows of ANM6Easy -/

set_option linter.unusedSectionVars false

namespace Anm

open Spec

namespace Spec
section
variable {K : Type} [Field K] [LinearOrder K]

/-- A page that has received the first message and then some updates. -/
def pageAfter (m : InitMsg K) (fs : List (Frame K)) : Page K :=
  (fs.map Msg.update).foldl Page.receive (Page.receive {} (.init m))

/-- No line and no bus of the picture is crossed out. -/
def NoCross (v : Picture K) : Prop := (∀ l ∈ v.lines, l.cross = false) ∧ ∀ b ∈ v.buses, b = false

/-- A length from 0 to the size of its frame. -/
def Fits (x : X K) (size : K) : Prop := ∃ z, x = .fin z ∧ 0 ≤ z ∧ z ≤ size

/-- All bars of the picture are within their frames; the bar of the potential production is drawn from the end
of the bar of the production. -/
structure InFrame (v : Picture K) : Prop where
  p : ∀ d ∈ v.devices, Fits d.pBar (198/10)
  q : ∀ d ∈ v.devices, Fits d.qBar (198/10)
  pot : ∀ d ∈ v.devices, ∀ h off, d.pot = some (h, off) → Fits h (198/10) ∧ Fits (off + h) (198/10) ∧ (off = d.pBar ∨ h = 0)
  line : ∀ l ∈ v.lines, Fits l.bar (246/10)
  storage : ∀ b ∈ v.storage, Fits b (198/10)
  loss : Fits v.lossBar (938/10)
  penalty : Fits v.penaltyBar (938/10)

end
end Spec

section
variable {K ρ : Type} [Field K] [LinearOrder K] [IsStrictOrderedRing K] [FloorRing K]
  {w : EasyWorld K ρ} {s0 : Sim K} {a a1 a' : Anm6 K ρ} {f : Frame K}

/-! ### C85: the messages are accepted -/

theorem receive_graph {g : Page K} {m : InitMsg K} (h : g.graph = some m) (fs : List (Frame K)) :
    ((fs.map Msg.update).foldl Page.receive g).graph = some m := by
  induction fs generalizing g with
  | nil => exact h
  | cons f fs ih =>
    rw [List.map_cons, List.foldl_cons]
    apply ih
    simp only [Page.receive, h]
    split
    · rfl
    · exact h

theorem easyMessage_numbers (title : String) : (easyMessage title : InitMsg K).numbers.all X.isNumber = true := rfl

theorem easyValues_numbers {p q g fl v : ℕ → K} {e loss pen : K} (h : EasyValues f p q g fl v e loss pen) :
    f.numbers.all X.isNumber = true := by
  simp [Frame.numbers, h.pList, h.qList, h.potList, h.flowList, h.vList, h.socList, h.costs.1, h.costs.2, X.isNumber]

/-- The frame of a state that is not terminal. -/
theorem easy_frame (ha : EasyOf w s0 a) (hg : Fair w.rng) (G : GoodSolvers w.sim (easySim : Sim K)) (hp : NumericPF w.sim)
    {y : EnvDyn K} (hy : a.env.dyn = some y) (ht : y.terminated = false) (hf : a.frame = .ok f) :
    ShowsState a.env.sim f ∧ ∃ p q g fl v e loss pen, EasyValues f p q g fl v e loss pen := by
  obtain ⟨y', d, hy', hd, -⟩ := frame_inv hf
  obtain ⟨h1, h2⟩ := frame_explicit (easy_env ha) hy hd
  rw [hf] at h1
  cases h1
  exact ⟨h2, easy_values ha hg G hp hy ht d⟩

/-- **C85, shown (partial).** A page that received the first message of ANM6Easy, and then any updates, shows
the update of a state that is not terminal.

Missing: the update of a terminal state (`C85_collapse_lost`), environments without `costs_clipping`
(`C85_blank`). -/
theorem C85_shown_partial (ha : EasyOf w s0 a) (hg : Fair w.rng) (G : GoodSolvers w.sim (easySim : Sim K))
    (hp : NumericPF w.sim) {y : EnvDyn K} (hy : a.env.dyn = some y) (ht : y.terminated = false)
    (hf : a.frame = .ok f) (title : String) (fs : List (Frame K)) :
    ∃ m, a.firstMessage title = .ok m ∧ pageAfter m (fs ++ [f]) = ⟨some m, some (picture m f)⟩ := by
  refine ⟨_, C85_init ha title, ?_⟩
  obtain ⟨-, p, q, g, fl, v, e, loss, pen, h⟩ := easy_frame ha hg G hp hy ht hf
  have h1 : (Page.receive {} (.init (easyMessage title)) : Page K).graph = some (easyMessage title) := by
    simp [Page.receive, easyMessage_numbers]
  have h2 := receive_graph h1 fs
  simp only [pageAfter, List.map_append, List.map_cons, List.map_nil, List.foldl_append, List.foldl_cons, List.foldl_nil]
  have h3 : ∀ g : Page K, g.graph = some (easyMessage title) →
      g.receive (.update f) = ⟨some (easyMessage title), some (picture (easyMessage title) f)⟩ := by
    rintro ⟨gr, sh⟩ hgr
    cases hgr
    simp [Page.receive, easyValues_numbers h]
  exact h3 _ h2

/-- **C85, blank (counterexample).** If the environment was made without clipping one of the costs, no page
ever shows anything, whatever updates are sent. -/
theorem C85_blank {c : EnvCtx K ρ} {args : EnvArgs K} {m : InitMsg K} {title : String} (he : EnvOf c args a.env)
    (hc : args.clipping.bind (·.1) = none ∨ args.clipping.bind (·.2) = none)
    (hm : a.firstMessage title = .ok m) (fs : List (Frame K)) : pageAfter m fs = {} := by
  obtain ⟨e0, I, hs, -, -⟩ := envOf_inv he
  have h0 : m.numbers.all X.isNumber = false := by
    have hm' : m.energyLossMax = a.env.c1 ∧ m.penaltyMax = a.env.c2 := by
      simp only [Anm6.firstMessage, initMessage, bind_ok, pure_ok] at hm
      obtain ⟨ps, -, qs, -, rs, -, vs, -, vs', -, ss, -, rfl⟩ := hm
      exact ⟨rfl, rfl⟩
    rw [List.all_eq_false]
    rcases hc with hc | hc
    · refine ⟨m.energyLossMax, by simp [InitMsg.numbers], ?_⟩
      rw [hm'.1, hs.c1, I.c1, hc]
      simp [X.isNumber, clipValue]
    · refine ⟨m.penaltyMax, by simp [InitMsg.numbers], ?_⟩
      rw [hm'.2, hs.c2, I.c2, hc]
      simp [X.isNumber, clipValue]
  have h1 : (Page.receive {} (.init m) : Page K) = {} := by simp [Page.receive, h0]
  rw [pageAfter, h1]
  clear h1
  induction fs with
  | nil => rfl
  | cons f fs ih =>
    rw [List.map_cons, List.foldl_cons]
    have : (Page.receive {} (.update f) : Page K) = {} := by
      simp only [Page.receive]
      split <;> rfl
    rw [this]
    exact ih

/-! ### C86: the crosses -/

theorem X.minimum_fin (x y : K) : X.minimum (.fin x) (.fin y) = .fin (min x y) := by
  simp only [X.minimum, reduceCtorEq, if_false, X.fin_le_fin, or_self]
  split
  · rename_i h; rw [min_eq_left h]
  · rename_i h; rw [min_eq_right (not_le.1 h).le]

theorem X.abs_fin (x : K) : X.abs (.fin x) = .fin |x| := rfl

theorem forall₂_imp_mem {α β : Type} {R S : α → β → Prop} {l : List α} {l' : List β} (h : List.Forall₂ R l l')
    (H : ∀ x y, x ∈ l → R x y → S x y) : List.Forall₂ S l l' := by
  induction h with
  | nil => exact .nil
  | cons h _ ih => exact .cons (H _ _ (by simp) h) (ih fun x y hx => H x y (by simp [hx]))

/-- Lines are crossed out if the flow exceeds the rate. -/
theorem lineView_cross {r z : K} (hr : 0 < r) : (lineView (.fin r) (.fin z)).cross = decide (r < |z|) := by
  simp only [lineView, X.abs_fin, X.zero_def, X.fin_sub_fin, sub_zero, X.fin_mul_fin]
  rw [X.fin_div_fin hr.ne', decide_eq_decide, X.fin_lt_fin, lt_div_iff₀ hr]
  constructor <;> intro h <;> linarith

/-- **C86, crosses.** The lines crossed out are those whose apparent power exceeds the rate; the buses crossed
out are those whose voltage is out of its range. -/
theorem C86_crosses (ha : EasyOf w s0 a) (hg : Fair w.rng) (G : GoodSolvers w.sim (easySim : Sim K))
    (hp : NumericPF w.sim) {y : EnvDyn K} (hy : a.env.dyn = some y) (ht : y.terminated = false)
    (hf : a.frame = .ok f) (title : String) :
    List.Forall₂ (fun b l => l.cross = true ↔ b.line.rate < X.abs b.flow.sApparentMax) a.env.sim.branches
        (picture (easyMessage title) f).lines ∧
      List.Forall₂ (fun b x => x = true ↔ ∃ lo, b.vMin = some lo ∧ (b.v.abs < lo ∨ b.vMax < b.v.abs)) a.env.sim.buses
        (picture (easyMessage title) f).buses := by
  obtain ⟨y', d, hy', hd, -⟩ := frame_inv hf
  obtain ⟨h1, h2⟩ := frame_explicit (easy_env ha) hy hd
  rw [hf] at h1
  cases h1
  obtain ⟨s, s1, args, out, L⟩ := easy_last ha hg G hy
  obtain ⟨m1, m2, -, -⟩ := last_measured L ht hp
  have hcfg := easy_sameConfig ha
  have hbase : a.env.sim.baseMVA = .fin 100 := hcfg.base
  obtain ⟨b1, b2, b3, b4, b5, hbr, r1, r2, r3, r4, r5⟩ := easy_branches hcfg
  obtain ⟨c0, c1, c2, c3, c4, c5, hbs, ⟨v0, v0'⟩, hv⟩ := easy_buses hcfg
  have hmb : ∀ x ∈ [b1, b2, b3, b4, b5], ∃ z, x.flow.sApparentMax = .fin z := fun x hx => X.isFin_iff.1 (m2 x (hbr ▸ hx))
  simp only [List.forall_mem_cons] at hmb hv
  obtain ⟨⟨f1, hf1⟩, ⟨f2, hf2⟩, ⟨f3, hf3⟩, ⟨f4, hf4⟩, ⟨f5, hf5⟩, -⟩ := hmb
  obtain ⟨v1, v2, v3, v4, v5, -⟩ := hv
  have key : ∀ (r z : K), 0 < r → ((lineView (.fin (r * 100)) (.fin (z * 100))).cross = true ↔ (X.fin r : X K) < X.abs (.fin z)) := by
    intro r z hr
    rw [lineView_cross (by linarith), decide_eq_true_eq, abs_mul, X.abs_fin, X.fin_lt_fin, abs_of_pos (by norm_num : (0:K) < 100)]
    exact mul_lt_mul_iff_left₀ (by norm_num)
  constructor
  · simp only [picture, frameOf, hbr, hbase, easyMessage, List.map_cons, List.map_nil, hf1, hf2, hf3, hf4, hf5, X.fin_mul_fin,
      List.zipWith_cons_cons, List.zipWith_nil_right, List.forall₂_cons, List.forall₂_nil_left_iff, r1, r2, r3, r4, r5]
    have k1 := key (32/100) f1 (by norm_num)
    have k2 := key (25/100) f2 (by norm_num)
    have k3 := key (18/100) f3 (by norm_num)
    have k4 := key (18/100) f4 (by norm_num)
    have k5 := key (18/100) f5 (by norm_num)
    rw [show (32/100 * 100 : K) = 32 by norm_num] at k1
    rw [show (25/100 * 100 : K) = 25 by norm_num] at k2
    rw [show (18/100 * 100 : K) = 18 by norm_num] at k3 k4 k5
    exact ⟨k1, k2, k3, k4, k5, trivial⟩
  · simp only [picture, frameOf, hbs, easyMessage, List.map_cons, List.map_nil, List.zip_cons_cons, List.zip_nil_right,
      List.zipWith_cons_cons, List.zipWith_nil_right, List.forall₂_cons, List.forall₂_nil_left_iff, v0, v0', v1, v2, v3, v4, v5,
      busCross, decide_eq_true_eq, Option.some.injEq, exists_eq_left', and_self]

theorem forall₂_none {α β : Type} {R : α → Prop} {P : β → Prop} {l : List α} {l' : List β}
    (h : List.Forall₂ (fun x y => P y ↔ R x) l l') : (∀ y ∈ l', P y) ↔ ∀ x ∈ l, R x := by
  induction h with
  | nil => simp
  | cons h _ ih => simp [h, ih]

/-- **C86, limits.** No cross is shown exactly if all voltages and flows are within their limits. -/
theorem C86_limits (ha : EasyOf w s0 a) (hg : Fair w.rng) (G : GoodSolvers w.sim (easySim : Sim K))
    (hp : NumericPF w.sim) {y : EnvDyn K} (hy : a.env.dyn = some y) (ht : y.terminated = false)
    (hf : a.frame = .ok f) (title : String) :
    NoCross (picture (easyMessage title) f) ↔ WithinLimits a.env.sim := by
  obtain ⟨h1, h2⟩ := C86_crosses ha hg G hp hy ht hf title
  obtain ⟨s, s1, args, out, L⟩ := easy_last ha hg G hy
  obtain ⟨m1, m2, -, -⟩ := last_measured L ht hp
  have hcfg := easy_sameConfig ha
  have k1 : (∀ l ∈ (picture (easyMessage title) f).lines, l.cross = false) ↔
      ∀ b ∈ a.env.sim.branches, X.abs b.flow.sApparentMax ≤ b.line.rate := by
    apply forall₂_none
    refine forall₂_imp_mem h1 fun b l hb hx => ?_
    obtain ⟨z, hz⟩ := X.isFin_iff.1 (m2 b hb)
    obtain ⟨r, hr⟩ : ∃ r, b.line.rate = .fin r := by
      obtain ⟨b1, b2, b3, b4, b5, hbr, r1, r2, r3, r4, r5⟩ := easy_branches hcfg
      rw [hbr] at hb
      simp only [List.mem_cons, List.not_mem_nil, or_false] at hb
      rcases hb with rfl | rfl | rfl | rfl | rfl
      exacts [⟨_, r1⟩, ⟨_, r2⟩, ⟨_, r3⟩, ⟨_, r4⟩, ⟨_, r5⟩]
    rw [← Bool.not_eq_true, hx, hz, hr, X.abs_fin, X.fin_lt_fin, X.fin_le_fin, not_lt]
  have k2 : (∀ x ∈ (picture (easyMessage title) f).buses, x = false) ↔
      ∀ b ∈ a.env.sim.buses, ∃ lo, b.vMin = some lo ∧ lo ≤ b.v.abs ∧ b.v.abs ≤ b.vMax := by
    apply forall₂_none
    refine forall₂_imp_mem h2 fun b x hb hx => ?_
    obtain ⟨z, hz⟩ := X.isFin_iff.1 (m1 b hb)
    obtain ⟨lo, hi, hlo, hhi⟩ : ∃ lo hi, b.vMin = some (.fin lo) ∧ b.vMax = .fin hi := by
      obtain ⟨c0, c1, c2, c3, c4, c5, hbs, ⟨v0, v0'⟩, hv⟩ := easy_buses hcfg
      rw [hbs] at hb
      rcases List.mem_cons.1 hb with rfl | hb
      · exact ⟨_, _, v0, v0'⟩
      · exact ⟨_, _, (hv b hb).1, (hv b hb).2⟩
    rw [← Bool.not_eq_true, hx, hz, hlo, hhi]
    simp only [Option.some.injEq, exists_eq_left', X.fin_lt_fin, X.fin_le_fin, not_or, not_lt]
  exact ⟨fun h => ⟨k2.1 h.2, k1.1 h.1⟩, fun h => ⟨k1.2 h.s, k2.2 h.v⟩⟩

/-- **C86, penalty.** After a step that does not end the episode, the penalty shown is 0 exactly if no cross is
shown. -/
theorem C86_penalty (ha : EasyOf w s0 a) (hg : Fair w.rng) (G : GoodSolvers w.sim (easySim : Sim K))
    (hp : NumericPF w.sim) {u : List (X K)} {o : Env.StepOut K} (h : a.step (easyCtx w s0) u = .ok (a', o))
    (ho : o.terminated = false) (hf : a'.frame = .ok f) (title : String) :
    f.penalty = 0 ↔ NoCross (picture (easyMessage title) f) := by
  have ha' := ha.step h
  obtain ⟨y', d', hy', -, -, f2, -⟩ := frame_inv hf
  obtain ⟨e, d, d0, h2, h3, h4, rfl⟩ := anm6_step_ok h
  have hy'' : e.dyn = some y' := hy'
  obtain ⟨hu, y1, hy1, ⟨_, rfl, rfl⟩ | ⟨hl, h5⟩⟩ := step_ok h2
  · cases ho
  obtain ⟨vars, args, out, y2, I⟩ := advance_ok h5
  have hd : e.dyn = some y2 := by rw [I.result]
  rw [hy''] at hd
  cases hd
  have hconv : out.converged = true := by have := I.flag; rw [ho] at this; simpa using this.symm
  have hr := I.reward
  rw [hconv] at hr
  simp only [Env.rewardOf, if_true, Except.ok.injEq, Prod.mk.injEq] at hr
  obtain ⟨-, -, r3⟩ := hr
  have hsim := envOf_simOf (easy_env ha)
  obtain ⟨n1, n2⟩ := hp _ _ _ _ hsim I.trans hconv
  obtain ⟨_, e1, e2⟩ := simOf_base hsim
  obtain ⟨-, q1, q2⟩ := C37_penalty I.trans e1 e2 (by norm_num) (by norm_num)
    (measured_of_finite anm6_clean (simOf_transition hsim I.trans) (fun b hb => (n1 b hb).1) n2)
  have hterm : y'.terminated = false := by have := I.terminated; rw [hconv] at this; simpa using this
  rw [C86_limits ha' hg G hp hy' hterm hf title, f2, ← r3, (easy_clipping ha).2]
  refine Iff.trans ?_ q2
  rcases hx : out.penalty with _ | _ | z | _
  all_goals rw [hx] at q1
  · cases q1
  · cases q1
  · rw [X.zero_def, X.fin_le_fin] at q1
    simp only [X.clip, X.zero_def, X.minimum_fin, X.maximum_fin, X.fin.injEq]
    rw [max_eq_left q1]
    constructor
    · intro h
      rcases min_choice z 100 with h1 | h1
      · rwa [h1] at h
      · rw [h1] at h; norm_num at h
    · rintro rfl; exact min_eq_left (by norm_num)
  · simp [X.clip, X.maximum, X.minimum, X.zero_def]

/-! ### C87: the bars -/

theorem bar_fin {full p mx : K} (hm : 0 < mx) :
    X.jsMin ((.fin full : X K) * (X.abs (.fin p) - 0) / (.fin mx - 0)) (.fin full) = .fin (min (full * |p| / mx) full) := by
  simp only [X.jsMin, X.abs_fin, X.zero_def, X.fin_sub_fin, sub_zero, X.fin_mul_fin]
  rw [X.fin_div_fin hm.ne', X.minimum_fin]

theorem bar_fits {full p mx : K} (hm : 0 < mx) (hf : 0 ≤ full) :
    Fits (X.jsMin ((.fin full : X K) * (X.abs (.fin p) - 0) / (.fin mx - 0)) (.fin full)) full := by
  rw [bar_fin hm]
  exact ⟨_, rfl, le_min (by positivity) hf, min_le_right _ _⟩

theorem bar_exact {full p mx : K} (hm : 0 < mx) (hf : 0 ≤ full) (hp : |p| ≤ mx) :
    X.jsMin ((.fin full : X K) * (X.abs (.fin p) - 0) / (.fin mx - 0)) (.fin full) = .fin (full * |p| / mx) := by
  rw [bar_fin hm, min_eq_left]
  rw [div_le_iff₀ hm]
  exact mul_le_mul_of_nonneg_left hp hf

/-- The bar of the potential production, for a production between 0 and the potential. -/
theorem pot_fits {p q g mx qx : K} {type : ℤ} (hm : 0 < mx) (h0 : 0 ≤ p) (h1 : p ≤ g) (h2 : g ≤ mx) {h off : X K}
    (hd : (deviceView type (.fin mx) (.fin qx) (.fin p) (.fin q) (some (.fin g))).pot = some (h, off)) :
    Fits h (198/10) ∧ Fits (off + h) (198/10) ∧
      (off = (deviceView type (.fin mx) (.fin qx) (.fin p) (.fin q) (some (.fin g))).pBar ∨ h = 0) ∧
      off + h = .fin (if p < g then 198/10 * g / mx else 0) := by
  have e0 : barHeight fullDevice (.fin p) (.fin mx) = (.fin (198/10 * p / mx) : X K) := by
    rw [barHeight, fullDevice, bar_exact hm (by norm_num) (by rw [abs_of_nonneg h0]; linarith), abs_of_nonneg h0]
  have hb : ∀ z : K, 0 ≤ z → z ≤ mx → 0 ≤ 198/10 * z / mx ∧ 198/10 * z / mx ≤ 198/10 := by
    intro z hz1 hz2
    refine ⟨by positivity, ?_⟩
    rw [div_le_iff₀ hm]
    exact mul_le_mul_of_nonneg_left hz2 (by norm_num)
  obtain ⟨b1, b2⟩ := hb p h0 (h1.trans h2)
  obtain ⟨b3, b4⟩ := hb g (h0.trans h1) h2
  have b5 : 198/10 * p / mx ≤ 198/10 * g / mx := by
    apply div_le_div_of_nonneg_right _ hm.le
    linarith
  simp only [deviceView, e0, X.fin_lt_fin] at hd ⊢
  split_ifs at hd with c1 c2
  · simp only [fullDevice, X.zero_def, X.fin_sub_fin, sub_zero, X.fin_mul_fin] at hd
    rw [X.fin_div_fin hm.ne', X.fin_sub_fin] at hd
    simp only [Option.some.injEq, Prod.mk.injEq] at hd
    obtain ⟨rfl, rfl⟩ := hd
    refine ⟨⟨_, rfl, by linarith, by linarith⟩, ?_, .inl rfl, ?_⟩
    · rw [X.fin_add_fin, add_sub_cancel]
      exact ⟨_, rfl, b3, b4⟩
    · rw [X.fin_add_fin, add_sub_cancel, if_pos c2]
  · simp only [Option.some.injEq, Prod.mk.injEq] at hd
    obtain ⟨rfl, rfl⟩ := hd
    have z : Fits (0 : X K) (198/10) := ⟨0, rfl, le_rfl, by norm_num⟩
    refine ⟨z, ?_, .inr rfl, ?_⟩
    · rw [X.zero_def, X.fin_add_fin, add_zero]; exact z
    · rw [X.zero_def, X.fin_add_fin, add_zero, if_neg c2]

theorem picture_devices {p q g fl v : ℕ → K} {e loss pen : K} (h : EasyValues f p q g fl v e loss pen) (title : String) :
    (picture (easyMessage title) f).devices =
      [deviceView 0 (.fin 200) (.fin 200) (.fin (p 0)) (.fin (q 0)) none,
       deviceView (-1) (.fin 10) (.fin 2) (.fin (p 1)) (.fin (q 1)) none,
       deviceView 2 (.fin 30) (.fin 30) (.fin (p 2)) (.fin (q 2)) (some (.fin (g 2))),
       deviceView (-1) (.fin 30) (.fin 6) (.fin (p 3)) (.fin (q 3)) none,
       deviceView 2 (.fin 50) (.fin 50) (.fin (p 4)) (.fin (q 4)) (some (.fin (g 4))),
       deviceView (-1) (.fin 30) (.fin 6) (.fin (p 5)) (.fin (q 5)) none,
       deviceView 3 (.fin 50) (.fin 50) (.fin (p 6)) (.fin (q 6)) none]  := by
  simp only [picture, easyMessage, h.pList, h.qList, h.potList]
  rfl

/-- **C87, frame.** All bars are within their frames. -/
theorem C87_in_frame (ha : EasyOf w s0 a) (hg : Fair w.rng) (G : GoodSolvers w.sim (easySim : Sim K))
    (hp : NumericPF w.sim) {y : EnvDyn K} (hy : a.env.dyn = some y) (ht : y.terminated = false)
    (hf : a.frame = .ok f) (title : String) : InFrame (picture (easyMessage title) f) := by
  obtain ⟨-, p, q, g, fl, v, e, loss, pen, h⟩ := easy_frame ha hg G hp hy ht hf
  have hdev := picture_devices h title
  have F : (0 : K) ≤ 198/10 := by norm_num
  constructor
  · rw [hdev]
    simp only [List.forall_mem_cons]
    exact ⟨bar_fits (by norm_num) F, bar_fits (by norm_num) F, bar_fits (by norm_num) F, bar_fits (by norm_num) F,
      bar_fits (by norm_num) F, bar_fits (by norm_num) F, bar_fits (by norm_num) F, by simp⟩
  · rw [hdev]
    simp only [List.forall_mem_cons]
    exact ⟨bar_fits (by norm_num) F, bar_fits (by norm_num) F, bar_fits (by norm_num) F, bar_fits (by norm_num) F,
      bar_fits (by norm_num) F, bar_fits (by norm_num) F, bar_fits (by norm_num) F, by simp⟩
  · rw [hdev]
    simp only [List.forall_mem_cons]
    refine ⟨fun _ _ h => ?_, fun _ _ h => ?_, fun _ _ hd => ?_, fun _ _ h => ?_, fun _ _ hd => ?_, fun _ _ h => ?_, fun _ _ h => ?_, by simp⟩
    · cases h
    · cases h
    · obtain ⟨h1, h2, h3, -⟩ := pot_fits (by norm_num) h.p2.1 h.p2.2.1 h.p2.2.2 hd
      exact ⟨h1, h2, h3⟩
    · cases h
    · obtain ⟨h1, h2, h3, -⟩ := pot_fits (by norm_num) h.p4.1 h.p4.2.1 h.p4.2.2 hd
      exact ⟨h1, h2, h3⟩
    · cases h
    · cases h
  · have : (picture (easyMessage title) f).lines = [lineView (.fin 32) (.fin (fl 1)), lineView (.fin 25) (.fin (fl 2)),
        lineView (.fin 18) (.fin (fl 3)), lineView (.fin 18) (.fin (fl 4)), lineView (.fin 18) (.fin (fl 5))] := by
      simp only [picture, easyMessage, h.flowList]
      rfl
    rw [this]
    simp only [List.forall_mem_cons]
    have F : (0 : K) ≤ 246/10 := by norm_num
    exact ⟨bar_fits (by norm_num) F, bar_fits (by norm_num) F, bar_fits (by norm_num) F, bar_fits (by norm_num) F,
      bar_fits (by norm_num) F, by simp⟩
  · have : (picture (easyMessage title) f).storage = [socBar (.fin 100) (.fin e)] := by
      simp only [picture, easyMessage, h.socList]
      rfl
    rw [this]
    simp only [List.forall_mem_cons]
    refine ⟨?_, by simp⟩
    simp only [socBar, fullDevice, X.zero_def, X.fin_sub_fin, sub_zero, X.fin_mul_fin]
    rw [X.fin_div_fin (by norm_num)]
    exact ⟨_, rfl, by linarith [h.e.1], by linarith [h.e.2]⟩
  · have := bar_fits (full := 938/10) (p := loss) (mx := 1) (by norm_num) (by norm_num)
    simp only [X.zero_def, X.abs_fin, X.fin_sub_fin, sub_zero] at this
    simp only [picture, easyMessage, h.costs.1, fullCost, X.abs_fin]
    exact this
  · have := bar_fits (full := 938/10) (p := pen) (mx := 100) (by norm_num) (by norm_num)
    simp only [X.zero_def, X.abs_fin, X.fin_sub_fin, sub_zero, abs_of_nonneg h.pen.1] at this
    simp only [picture, easyMessage, h.costs.2, fullCost]
    exact this

/-- **C87, scale.** Except for the slack generator, the bars of the powers have the length of the power relative
to the maximum of the first message; they are coloured as a production if it is not negative.  The bars of the
potential production end at the potential, the bar of the storage unit at its energy; the bars of the costs are
relative to the clipping parameters. -/
theorem C87_scale (ha : EasyOf w s0 a) (hg : Fair w.rng) (G : GoodSolvers w.sim (easySim : Sim K))
    (hp : NumericPF w.sim) {y : EnvDyn K} (hy : a.env.dyn = some y) (ht : y.terminated = false)
    (hf : a.frame = .ok f) (title : String) :
    (∀ i d x mx, 0 < i → (picture (easyMessage title) f).devices[i]? = some d → f.pInjections[i]? = some x →
        (easyMessage title : InitMsg K).pMax[i]? = some mx →
        ∃ p m, x = .fin p ∧ mx = .fin m ∧ |p| ≤ m ∧ d.pBar = .fin (198/10 * |p| / m) ∧ (d.pGen = true ↔ 0 ≤ p)) ∧
      (∀ i d x mx, 0 < i → (picture (easyMessage title) f).devices[i]? = some d → f.qInjections[i]? = some x →
        (easyMessage title : InitMsg K).qMax[i]? = some mx →
        ∃ p m, x = .fin p ∧ mx = .fin m ∧ |p| ≤ m ∧ d.qBar = .fin (198/10 * |p| / m) ∧ (d.qGen = true ↔ 0 ≤ p)) ∧
      (∃ e, f.socStorage = [.fin e] ∧ (picture (easyMessage title) f).storage = [.fin (198/10 * e / 100)]) ∧
      (∃ x, f.energyLoss = .fin x ∧ (picture (easyMessage title) f).lossBar = .fin (938/10 * |x| / 1)) ∧
      (∃ x, f.penalty = .fin x ∧ (picture (easyMessage title) f).penaltyBar = .fin (938/10 * x / 100)) := by
  obtain ⟨-, p, q, g, fl, v, e, loss, pen, h⟩ := easy_frame ha hg G hp hy ht hf
  have hdev := picture_devices h title
  have F : (0 : K) ≤ 198/10 := by norm_num
  have B : ∀ {x m : K}, 0 < m → |x| ≤ m → barHeight fullDevice (.fin x) (.fin m) = (.fin (198/10 * |x| / m) : X K) :=
    fun h1 h2 => bar_exact h1 F h2
  have D : ∀ {x : K}, (decide ((0 : X K) ≤ .fin x) = true) ↔ 0 ≤ x := fun {x} => by
    rw [decide_eq_true_eq, X.zero_def, X.fin_le_fin]
  have A : ∀ {x m : K}, -m ≤ x → x ≤ m → |x| ≤ m := fun h1 h2 => abs_le.2 ⟨h1, h2⟩
  refine ⟨?_, ?_, ⟨e, h.socList, ?_⟩, ⟨loss, h.costs.1, ?_⟩, ⟨pen, h.costs.2, ?_⟩⟩
  · intro i d x mx hi h1 h2 h3
    rw [hdev] at h1
    rw [h.pList] at h2
    simp only [easyMessage] at h3
    obtain ⟨l1, l2⟩ := h.p1
    obtain ⟨l3, l4, l5⟩ := h.p2
    obtain ⟨l6, l7⟩ := h.p3
    obtain ⟨l8, l9, l10⟩ := h.p4
    obtain ⟨l11, l12⟩ := h.p5
    obtain ⟨l13, l14⟩ := h.p6
    rcases i with _ | _ | _ | _ | _ | _ | _ | i
    · cases hi
    all_goals simp only [List.getElem?_cons_succ, List.getElem?_cons_zero, List.getElem?_nil, Option.some.injEq, reduceCtorEq] at h1 h2 h3
    all_goals
      subst h1 h2 h3
      refine ⟨_, _, rfl, rfl, ?_, B (by norm_num) ?_, D⟩ <;> exact A (by linarith) (by linarith)
  · intro i d x mx hi h1 h2 h3
    rw [hdev] at h1
    rw [h.qList] at h2
    simp only [easyMessage] at h3
    obtain ⟨l1, l2⟩ := h.q1
    obtain ⟨l3, l4⟩ := h.q2
    obtain ⟨l6, l7⟩ := h.q3
    obtain ⟨l8, l9⟩ := h.q4
    obtain ⟨l11, l12⟩ := h.q5
    obtain ⟨l13, l14⟩ := h.q6
    rcases i with _ | _ | _ | _ | _ | _ | _ | i
    · cases hi
    all_goals simp only [List.getElem?_cons_succ, List.getElem?_cons_zero, List.getElem?_nil, Option.some.injEq, reduceCtorEq] at h1 h2 h3
    all_goals
      subst h1 h2 h3
      refine ⟨_, _, rfl, rfl, ?_, B (by norm_num) ?_, D⟩ <;> exact A (by linarith) (by linarith)
  · simp only [picture, easyMessage, h.socList, List.zipWith_cons_cons, List.zipWith_nil_right, socBar, fullDevice, X.zero_def,
      X.fin_sub_fin, sub_zero, X.fin_mul_fin]
    rw [X.fin_div_fin (by norm_num)]
  · have := bar_exact (full := 938/10) (p := loss) (mx := 1) (by norm_num) (by norm_num) (A h.loss.1 h.loss.2)
    simp only [X.zero_def, X.abs_fin, X.fin_sub_fin, sub_zero] at this
    simp only [picture, easyMessage, h.costs.1, fullCost, X.abs_fin]
    exact this
  · have := bar_exact (full := 938/10) (p := pen) (mx := 100) (by norm_num) (by norm_num)
      (A (by linarith [h.pen.1]) h.pen.2)
    simp only [X.zero_def, X.abs_fin, X.fin_sub_fin, sub_zero, abs_of_nonneg h.pen.1] at this
    simp only [picture, easyMessage, h.costs.2, fullCost]
    exact this

/-- **C87, arrows.** The arrow of a load always points to the load, that of a renewable generator from it; that of the
storage unit is turned while it charges. -/
theorem C87_arrows (ha : EasyOf w s0 a) (hg : Fair w.rng) (G : GoodSolvers w.sim (easySim : Sim K))
    (hp : NumericPF w.sim) {y : EnvDyn K} (hy : a.env.dyn = some y) (ht : y.terminated = false)
    (hf : a.frame = .ok f) (title : String) :
    ∃ p, f.pInjections[6]? = some (.fin p) ∧ ∃ z, (picture (easyMessage title) f).devices.map (·.turned) =
      [z, false, false, false, false, false, decide (p < 0)] := by
  obtain ⟨-, p, q, g, fl, v, e, loss, pen, h⟩ := easy_frame ha hg G hp hy ht hf
  refine ⟨p 6, by rw [h.pList]; rfl, ?_⟩
  rw [picture_devices h title]
  have L : ∀ {pm qm x z : K}, x ≤ 0 → (deviceView (-1) (.fin pm) (.fin qm) (.fin x) (.fin z) none).turned = false := by
    intro pm qm x z hx
    simp [deviceView, X.zero_def, not_lt.2 hx]
  have R : ∀ {pm qm x z g : K}, 0 ≤ x → (deviceView 2 (.fin pm) (.fin qm) (.fin x) (.fin z) (some (.fin g))).turned = false := by
    intro pm qm x z g hx
    simp [deviceView, X.zero_def, not_lt.2 hx]
  have S : ∀ {pm qm x z : K}, (deviceView 3 (.fin pm) (.fin qm) (.fin x) (.fin z) none).turned = decide (x < 0) := by
    intro pm qm x z
    simp [deviceView, X.zero_def]
  refine ⟨(deviceView 0 (.fin 200) (.fin 200) (.fin (p 0)) (.fin (q 0)) none).turned, ?_⟩
  simp only [List.map_cons, List.map_nil, L h.p1.2, L h.p3.2, L h.p5.2, R h.p2.1, R h.p4.1, S]

/-- **C87, lines.** The bar of a line has the length of its flow relative to the rate and ends at the rate; the percentage is that of
the flow, and the arrow is turned exactly if the flow is negative. -/
theorem C87_lines (ha : EasyOf w s0 a) (hg : Fair w.rng) (G : GoodSolvers w.sim (easySim : Sim K))
    (hp : NumericPF w.sim) {y : EnvDyn K} (hy : a.env.dyn = some y) (ht : y.terminated = false)
    (hf : a.frame = .ok f) (title : String) :
    List.Forall₂ (fun b l => ∃ r z : K, b.line.rate = .fin r ∧ b.flow.sApparentMax = .fin z ∧ 0 < r ∧ l.percent = .fin (100 * |z| / r) ∧
      l.bar = .fin (min (246/10 * |z| / r) (246/10)) ∧ (l.turned = true ↔ z < 0)) a.env.sim.branches (picture (easyMessage title) f).lines := by
  obtain ⟨y', d, hy', hd, -⟩ := frame_inv hf
  obtain ⟨h1, h2⟩ := frame_explicit (easy_env ha) hy hd
  rw [hf] at h1
  cases h1
  obtain ⟨s, s1, args, out, L⟩ := easy_last ha hg G hy
  obtain ⟨m1, m2, -, -⟩ := last_measured L ht hp
  have hcfg := easy_sameConfig ha
  have hbase : a.env.sim.baseMVA = .fin 100 := hcfg.base
  obtain ⟨b1, b2, b3, b4, b5, hbr, r1, r2, r3, r4, r5⟩ := easy_branches hcfg
  have hmb : ∀ x ∈ [b1, b2, b3, b4, b5], ∃ z, x.flow.sApparentMax = .fin z := fun x hx => X.isFin_iff.1 (m2 x (hbr ▸ hx))
  simp only [List.forall_mem_cons] at hmb
  obtain ⟨⟨f1, hf1⟩, ⟨f2, hf2⟩, ⟨f3, hf3⟩, ⟨f4, hf4⟩, ⟨f5, hf5⟩, -⟩ := hmb
  have key : ∀ (r z : K), 0 < r → ∃ r' z' : K, (X.fin r : X K) = .fin r' ∧ (X.fin z : X K) = .fin z' ∧ 0 < r' ∧
      (lineView (.fin (r * 100)) (.fin (z * 100))).percent = .fin (100 * |z'| / r') ∧
      (lineView (.fin (r * 100)) (.fin (z * 100))).bar = .fin (min (246/10 * |z'| / r') (246/10)) ∧
      ((lineView (.fin (r * 100)) (.fin (z * 100))).turned = true ↔ z' < 0) := by
    intro r z hr
    have h100 : (100 : K) ≠ 0 := by norm_num
    have e : ∀ x : K, x * |z * 100| / (r * 100) = x * |z| / r := by
      intro x
      rw [abs_mul, abs_of_pos (by norm_num : (0:K) < 100), ← mul_assoc, mul_div_mul_right _ _ h100]
    refine ⟨r, z, rfl, rfl, hr, ?_, ?_, ?_⟩
    · simp only [lineView, X.abs_fin, X.zero_def, X.fin_sub_fin, sub_zero, X.fin_mul_fin]
      rw [X.fin_div_fin (by positivity), e]
    · simp only [lineView, X.abs_fin, X.zero_def, X.fin_sub_fin, sub_zero, X.fin_mul_fin, fullLine]
      rw [X.fin_div_fin (by positivity), e, X.jsMin, X.minimum_fin]
    · simp only [lineView, X.zero_def, decide_eq_true_eq, X.fin_lt_fin]
      constructor <;> intro h <;> linarith
  simp only [picture, frameOf, hbr, hbase, easyMessage, List.map_cons, List.map_nil, hf1, hf2, hf3, hf4, hf5, X.fin_mul_fin,
    List.zipWith_cons_cons, List.zipWith_nil_right, List.forall₂_cons, List.forall₂_nil_left_iff, r1, r2, r3, r4, r5]
  have k1 := key (32/100) f1 (by norm_num)
  have k2 := key (25/100) f2 (by norm_num)
  have k3 := key (18/100) f3 (by norm_num)
  have k4 := key (18/100) f4 (by norm_num)
  have k5 := key (18/100) f5 (by norm_num)
  rw [show (32/100 * 100 : K) = 32 by norm_num] at k1
  rw [show (25/100 * 100 : K) = 25 by norm_num] at k2
  rw [show (18/100 * 100 : K) = 18 by norm_num] at k3 k4 k5
  exact ⟨k1, k2, k3, k4, k5, trivial⟩

/-- **C87, labels.** The picture shows month, day, hour and minute of the current date and the number of years; the energy loss is
coloured as a cost exactly if it is positive, and the collapse of the network is marked exactly in terminal states. -/
theorem C87_labels (ha : EasyOf w s0 a) (hg : Fair w.rng) (G : GoodSolvers w.sim (easySim : Sim K)) {y : EnvDyn K} (hy : a.env.dyn = some y)
    (hf : a.frame = .ok f) (m : InitMsg K) : ∃ d year, a.date = some d ∧
      CalendarTime d year (picture m f).month (picture m f).day (picture m f).hour (picture m f).minute ∧
      (picture m f).yearCount = a.yearCount ∧ ((picture m f).lossCost = true ↔ 0 < y.eLoss) ∧ ((picture m f).collapsed = true ↔ y.terminated = true) := by
  obtain ⟨d, f', h1, h2, -, ⟨year, h3⟩, h4, h5, -, h6⟩ := C84_frame_easy ha hg G hy
  rw [hf] at h2
  cases h2
  refine ⟨d, year, h1, h3, h4, ?_, ?_⟩
  · simp only [picture, decide_eq_true_eq, h5]
  · simp only [picture, h6]

end

/-! ### C85: a collapse that is not shown -/

/-- A load flow that diverges, with NaN results, if bus 3 injects more than 10 MVAr. -/
def nanPF : PF ℚ := fun i =>
  let ok := i.buses.all fun b => b.1 != 3 || decide (b.2.2.2 < .fin (1/10))
  let x : ℚ → X ℚ := fun z => if ok then .fin z else .nan
  let z : Phasor ℚ := ⟨x (1/10), x 0, x (1/10), x 0⟩
  .ok { v := fun k => if k = 0 then ⟨1, 0, 1, 0⟩ else ⟨x (19/20), x 0, x (19/20), x 0⟩
        i := fun _ => z, slackP := x (1/10), slackQ := x 0
        flow := fun _ => ⟨z, z, x (1/10), x 0, x (-1/10), x 0, x (1/10)⟩
        stable := ok }

def nanWorld : EasyWorld ℚ ℕ := { easyWorld with sim := ⟨demoQP, nanPF, 22/7⟩ }

/-- Make an environment, reset it, do two steps; the frames after both. -/
def nanRun : Except PyErr (Sim ℚ × Anm6 ℚ ℕ × Anm6 ℚ ℕ × Frame ℚ × Frame ℚ × Env.StepOut ℚ × InitMsg ℚ) := do
  let s0 ← mkSim anm6Net (.fin (1/4)) (.fin 100)
  let a ← mkAnm6 (easyCtx nanWorld s0) easyArgs
  let (a1, _) ← a.easyReset (easyCtx nanWorld s0) countRng (some 94) none
  let (a2, _) ← a1.step (easyCtx nanWorld s0) ([0, 30, 0, 0, -5, 0].map .fin)
  let (a3, o) ← a2.step (easyCtx nanWorld s0) ([0, 40, 20, 0, 1, 0].map .fin)
  let f1 ← a2.frame
  let f2 ← a3.frame
  let m ← a.firstMessage "ANM6Easy"
  pure (s0, a2, a3, f1, f2, o, m)

/-- **C85, collapse (counterexample).** The network collapses in a step and the update of this step says so, but a
page that receives all messages still shows the picture of the step before. -/
theorem C85_collapse_lost : ∃ s0 a a' u o f f' m, EasyOf nanWorld s0 a ∧ a.step (easyCtx nanWorld s0) u = .ok (a', o) ∧
    o.terminated = true ∧ a.frame = .ok f ∧ a'.frame = .ok f' ∧ f'.networkCollapsed = true ∧
    a.firstMessage "ANM6Easy" = .ok m ∧
    pageAfter m [f, f'] = pageAfter m [f] ∧ ∃ v, (pageAfter m [f, f']).shown = some v ∧ v.collapsed = false := by
  have h : ∃ r, nanRun = .ok r ∧ (r.2.2.2.2.2.1.terminated = true ∧ r.2.2.2.2.1.networkCollapsed = true ∧
      r.2.2.2.1.networkCollapsed = false ∧ r.2.2.2.1.numbers.all X.isNumber = true ∧
      r.2.2.2.2.1.numbers.all X.isNumber = false) := exOk (by decide +kernel)
  obtain ⟨⟨s0, a2, a3, f1, f2, o, m⟩, h, h1, h2, h3, h4, h5⟩ := h
  simp only [nanRun, bind_ok, pure_ok, Prod.mk.injEq] at h
  obtain ⟨s0', e0, a', e1, ⟨a1', obs⟩, e2, ⟨a2', o1⟩, e3, ⟨a3', o2⟩, e4, f1', e5, f2', e6, m', e7, rfl, rfl, rfl, rfl, rfl, rfl, rfl⟩ := h
  have ha := ((EasyOf.make e0 e1).reset e2).step e3
  have hm := C85_init ha "ANM6Easy"
  have hm' := C85_init (EasyOf.make e0 e1) "ANM6Easy"
  rw [hm'] at e7
  cases e7
  have k1 : pageAfter (easyMessage "ANM6Easy") [f1'] = ⟨some (easyMessage "ANM6Easy"), some (picture (easyMessage "ANM6Easy") f1')⟩ := by
    simp only [pageAfter, List.map_cons, List.map_nil, List.foldl_cons, List.foldl_nil, Page.receive, easyMessage_numbers, if_true]
    rw [if_pos h4]
  have k2 : pageAfter (easyMessage "ANM6Easy") [f1', f2'] = pageAfter (easyMessage "ANM6Easy") [f1'] := by
    have : ∀ g : Page ℚ, g.receive (.update f2') = g := by
      intro g
      rw [Page.receive, if_neg]
      simp only [Bool.not_eq_true]
      exact h5
    simp only [pageAfter, List.map_cons, List.map_nil, List.foldl_cons, List.foldl_nil, this]
  exact ⟨_, _, _, _, _, _, _, _, ha, e4, h1, e5, e6, h2, hm, k2, _, by rw [k2, k1], h3⟩

/-- **C87, direction.** The flow of a branch is negative exactly if active power leaves it at its first end. -/
theorem C87_direction (l : LineC) (vf vt : ℂ) {z : ℝ} (h : (l.flow vf vt).sApparentMax = .fin z) :
    z < 0 ↔ (l.flow vf vt).pFrom < 0 := by
  have hn : ‖l.sFrom vf vt‖ ≤ max ‖l.sFrom vf vt‖ ‖l.sTo vf vt‖ := le_max_left _ _
  have hr := Complex.abs_re_le_norm (l.sFrom vf vt)
  have h : X.sign (.fin (l.sFrom vf vt).re) * X.maximum (.fin ‖l.sFrom vf vt‖) (.fin ‖l.sTo vf vt‖) = .fin z := h
  show z < 0 ↔ X.fin (l.sFrom vf vt).re < 0
  have hmax : X.maximum (.fin ‖l.sFrom vf vt‖) (.fin ‖l.sTo vf vt‖) = .fin (max ‖l.sFrom vf vt‖ ‖l.sTo vf vt‖) := by
    simp only [X.maximum, reduceCtorEq, if_false, X.fin_le_fin, or_self]
    split
    · rename_i h; rw [max_eq_left h]
    · rename_i h; rw [max_eq_right (not_le.1 h).le]
  rw [hmax] at h
  rw [X.zero_def, X.fin_lt_fin]
  rcases lt_trichotomy (l.sFrom vf vt).re 0 with h0 | h0 | h0
  · have : 0 < |(l.sFrom vf vt).re| := abs_pos.2 h0.ne
    simp only [X.sign, h0, not_lt.2 h0.le, if_true, if_false, X.fin_mul_fin, X.fin.injEq] at h
    refine iff_of_true ?_ h0
    nlinarith
  · simp only [X.sign, h0, lt_irrefl, if_false, X.fin_mul_fin, X.fin.injEq] at h
    exact iff_of_false (by linarith) (by linarith)
  · simp only [X.sign, h0, not_lt.2 h0.le, if_true, if_false, X.fin_mul_fin, X.fin.injEq] at h
    exact iff_of_false (by nlinarith [norm_nonneg (l.sFrom vf vt)]) (by linarith)

/-! ### C85: the load flow of ANM6 -/

/-- **C85, solver.** With Kirchhoff's equations solved over the reals, converged load flows of the network of ANM6 give
numbers. -/
theorem C85_solver (qp : QP ℝ) (o : LFOracle) (pi : ℝ) : NumericPF ⟨qp, realPF o, pi⟩ := by
  intro s args s' out hs h hc
  obtain ⟨s1, h1, h2⟩ := id hs
  rw [anm6_mk] at h1
  cases h1
  obtain ⟨k1, k2⟩ := measured_converged anm6_clean hs (numbered_same h2 easy_numbered) (finiteLines_same h2 easy_finiteLines) h hc
  obtain ⟨V, hV, -⟩ := C25_converged anm6_clean hs (numbered_same h2 easy_numbered) (finiteLines_same h2 easy_finiteLines) h hc
  refine ⟨fun b hb => ⟨k1 b hb, fun hsl => ?_⟩, k2⟩
  obtain ⟨e1, e2⟩ := hV.slack b hb hsl
  rw [e1, e2]
  exact ⟨trivial, trivial⟩

/-! ### Cases that meet the hypotheses -/

theorem calm_numeric : NumericPF calmWorld.sim := by
  intro s args s' out hs h hc
  obtain ⟨ds, o, I⟩ := transition_ok h
  have h1 := I.solve.pf
  rw [show calmWorld.sim.pf = calmPF from rfl, calmPF] at h1
  have h1 := Except.ok.inj h1
  have A := I.solve.apply
  constructor
  · intro b hb
    rw [A.buses] at hb
    obtain ⟨k, hk, rfl⟩ := List.mem_mapIdx.1 hb
    subst h1
    refine ⟨trivial, fun hs => ?_⟩
    have hs : ((List.map (Sim.busInjections ds) s.buses)[k]).isSlack = true := hs
    simp only [hs, if_true]
    exact ⟨trivial, trivial⟩
  · intro b hb
    rw [A.branches] at hb
    obtain ⟨k, hk, rfl⟩ := List.mem_mapIdx.1 hb
    subst h1
    trivial

theorem calm_live : ∃ a1 y, EasyOf calmWorld easySim a1 ∧ a1.env.dyn = some y ∧ y.terminated = false ∧
    ∀ us : List (List (X ℝ)), us.length ≤ 35040 → (∀ u ∈ us, easyActions.contains u true) →
      ∃ os a', Anm6Episode (easyCtx calmWorld easySim) a1 us os a' := by
  obtain ⟨a, a1, obs, y, d, ha, h, hy, hd, H⟩ := calm_case
  refine ⟨a1, y, ha.reset h, hy, ?_, H⟩
  obtain ⟨e, d, r, y', x, t, h1, h2, h3, h4, h5, h6⟩ := easyReset_ok h
  obtain ⟨v, st, nw, I⟩ := env_reset_ok h1
  have hd : e.dyn = some { terminated := false, timestep := 0, eLoss := 0, penalty := 0, state := st } := by
    rw [I.result]
  rw [h6] at hy
  have hy : e.dyn = some y := hy
  rw [hd] at hy
  cases hy
  rfl

/-- All hypotheses of C85, C86 and C87 are met after the first `reset` of ANM6Easy. -/
example : ∃ a f m, EasyOf calmWorld easySim a ∧ a.frame = .ok f ∧ a.firstMessage "ANM6Easy" = .ok m ∧
    pageAfter m [f] = ⟨some m, some (picture m f)⟩ ∧ InFrame (picture m f) := by
  obtain ⟨a, y, ha, hy, ht, -⟩ := calm_live
  obtain ⟨d, f, -, hf, hs, -⟩ := C84_frame_easy ha fair_real calm_good hy
  obtain ⟨m, hm, hs⟩ := C85_shown_partial ha fair_real calm_good calm_numeric hy ht hf "ANM6Easy" []
  have hm' := C85_init ha "ANM6Easy"
  rw [hm] at hm'
  have e := Except.ok.inj hm'
  refine ⟨a, f, m, ha, hf, hm, hs, ?_⟩
  rw [e]
  exact C87_in_frame ha fair_real calm_good calm_numeric hy ht hf _

/-- All hypotheses of `C86_penalty` are met by a step of ANM6Easy. -/
example : ∃ a a' o f, EasyOf calmWorld easySim a ∧ a.step (easyCtx calmWorld easySim) [0, 0, 0, 0, 0, 0] = .ok (a', o) ∧
    o.terminated = false ∧ a'.frame = .ok f ∧ (f.penalty = 0 ↔ NoCross (picture (easyMessage "ANM6Easy") f)) := by
  obtain ⟨a, y, ha, hy, ht, H⟩ := calm_live
  obtain ⟨os, a', he⟩ := H [[0, 0, 0, 0, 0, 0]] (by simp) (by
    intro u hu
    rw [List.mem_singleton.1 hu]
    simp [Box.contains, easyActions, boxOf, X.zero_def])
  cases he with
  | @cons _ a2 _ _ _ o _ h1 he =>
    cases he
    have ho : o.terminated = false := by
      obtain ⟨e, d, d0, h2, h3, h4, rfl⟩ := anm6_step_ok h1
      obtain ⟨hu, y1, hy1, ⟨h5, rfl, rfl⟩ | ⟨hl, h5⟩⟩ := step_ok h2
      · rw [hy] at hy1
        cases hy1
        rw [ht] at h5
        cases h5
      · obtain ⟨vars, args, out, y2, I⟩ := advance_ok h5
        obtain ⟨ds, po, J⟩ := transition_ok I.trans
        have h6 := J.solve.pf
        rw [show (easyCtx calmWorld easySim).sim.pf = calmPF from rfl, calmPF] at h6
        rw [I.flag, J.converged, ← Except.ok.inj h6]
        rfl
    obtain ⟨y', hy'⟩ : ∃ y', a'.env.dyn = some y' := by
      obtain ⟨e, d, d0, h2, h3, h4, rfl⟩ := anm6_step_ok h1
      obtain ⟨hu, y1, hy1, ⟨h5, rfl, rfl⟩ | ⟨hl, h5⟩⟩ := step_ok h2
      · exact ⟨_, hy⟩
      · obtain ⟨vars, args, out, y2, I⟩ := advance_ok h5
        have hd : e.dyn = some y2 := by rw [I.result]
        exact ⟨y2, hd⟩
    obtain ⟨d, f, -, hf, -⟩ := C84_frame_easy (ha.step h1) fair_real calm_good hy'
    exact ⟨a, a', o, f, ha, h1, ho, hf, C86_penalty ha fair_real calm_good calm_numeric h1 ho hf _⟩

/-- The hypotheses of `C85_blank` are met by an ANM6 environment made without `costs_clipping`. -/
example : ∃ (a : Anm6 ℚ ℕ) (m : InitMsg ℚ), EnvOf (easyCtx easyWorld easySim) { easyArgs with clipping := none } a.env ∧
    a.firstMessage "ANM6" = .ok m ∧ ∀ fs, pageAfter m fs = {} := by
  have h : ∃ r, (do
      let a ← mkAnm6 (easyCtx easyWorld easySim) { easyArgs with clipping := none }
      let m ← a.firstMessage "ANM6"
      pure (a, m)) = .ok r ∧ r.2.title = "ANM6" := exOk (by decide +kernel)
  obtain ⟨⟨a, m⟩, h, -⟩ := h
  simp only [bind_ok, pure_ok, Prod.mk.injEq] at h
  obtain ⟨a', h1, m', h2, rfl, rfl⟩ := h
  obtain ⟨e, k, n, h3, _, _, rfl⟩ := mkAnm6_ok h1
  have he : EnvOf (easyCtx easyWorld easySim) { easyArgs with clipping := none } e := ⟨e, h3, .refl⟩
  exact ⟨_, m', he, h2, C85_blank (a := { env := e, tick := k * (60 * 1000000), specs := n }) he (.inl rfl) h2⟩

end Anm
