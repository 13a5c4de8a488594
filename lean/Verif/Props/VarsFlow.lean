import Verif.Props.Clipped
import Verif.Props.EnvMade
import Verif.Props.MpcForecast
import Verif.Props.EnvDemo
import Verif.Props.DynamicsEx

/-!
# C102: the demands and maximum productions drawn by `next_vars` show in the next state

The counterpart of C50 for the loads and generators (`anm_env.py:367-391`, `simulator.py:373-389`).
-/

namespace Anm
open Spec

variable {K ρ : Type} [Field K] [LinearOrder K] [IsStrictOrderedRing K] [FloorRing K]

theorem X.mul_fin_cases {b : K} (hb : 0 < b) (x : X K) :
    x * .fin b = match x with | .fin z => .fin (z * b) | x => x := by
  cases x with
  | nan => rfl
  | fin x => rfl
  | ninf => exact (inf_mul hb).2
  | pinf => exact (inf_mul hb).1

theorem X.div_fin_cases {b : K} (hb : 0 < b) (x : X K) :
    x / .fin b = match x with | .fin z => .fin (z / b) | x => x := by
  cases x with
  | nan => rfl
  | fin x => exact X.fin_div_fin hb.ne'
  | ninf => exact X.ninf_div hb
  | pinf => exact X.pinf_div hb

/-- Multiplying by a positive number undoes the division. -/
theorem X.mul_le_iff {b : K} (hb : 0 < b) (x y : X K) : (x * .fin b ≤ y ↔ x ≤ y / .fin b) ∧ (y ≤ x * .fin b ↔ y / .fin b ≤ x) := by
  rw [X.mul_fin_cases hb, X.div_fin_cases hb]
  cases x <;> cases y <;> simp [le_div_iff₀ hb, div_le_iff₀ hb]

theorem X.div_mul_pos {b : K} (hb : 0 < b) (x : X K) : x / .fin b * .fin b = x := by
  rw [X.mul_fin_cases hb, X.div_fin_cases hb]
  cases x <;> simp [hb.ne']

/-- Cutting in MW and in p.u. -/
theorem cutTo_scale {b : K} (hb : 0 < b) {lo hi x y : X K} (h : CutTo lo hi (x / .fin b) y) :
    CutTo (lo * .fin b) (hi * .fin b) x (y * .fin b) := by
  obtain ⟨h1, h2, h3⟩ := h
  refine ⟨fun i j => ?_, fun i => ?_, fun i => ?_⟩
  · rw [h1 ((X.mul_le_iff hb _ _).1.1 i) ((X.mul_le_iff hb _ _).2.1 j), X.div_mul_pos hb]
  · rw [h2 ((X.mul_le_iff hb _ _).1.1 i)]
  · rw [h3 ((X.mul_le_iff hb _ _).2.1 i)]

theorem dev_reading {s : Sim K} {pi : K} {st : SimState K} (hg : s.gatherState pi = .ok st)
    (hs : s.devices.Pairwise fun d d' => d.id < d'.id) {d : Device K} (hd : d ∈ s.devices) :
    reading st .devP .mw (.node d.id) = some (d.p * s.baseMVA) ∧
      (d.isNonSlackGen = true → reading st .genPMax .mw (.node d.id) = some (d.pPot * s.baseMVA)) := by
  have hdi : ∀ x ∈ s.devices, ∀ y ∈ s.devices, x.id = y.id → x = y := fun x hx y hy e => sorted_id_inj hs hx hy e
  have hfi : ∀ x ∈ s.devices.filter Device.isNonSlackGen, ∀ y ∈ s.devices.filter Device.isNonSlackGen, x.id = y.id → x = y :=
    fun x hx y hy e => hdi x (List.mem_filter.1 hx).1 y (List.mem_filter.1 hy).1 e
  rw [C38_power_units (k := .devP) (u := .mw) hg (by simp [powerUnits]),
    C38_power_units (k := .genPMax) (u := .mw) hg (by simp [powerUnits])]
  simp only [Sim.gatherState, bind_ok, pure_ok] at hg
  obtain ⟨soc, hsoc, hste⟩ := hg
  have R1 : ∀ i, reading st .devP .pu i = Dict.get? (s.devices.map fun d => (Ident.node d.id, d.p)) i := by
    rw [← hste]; intro; rfl
  have R4 : ∀ i, reading st .genPMax .pu i = Dict.get?
      ((s.devices.filter Device.isNonSlackGen).map fun d => (Ident.node d.id, d.pPot)) i := by
    rw [← hste]; intro; rfl
  rw [R1, get?_of_mem hdi hd]
  refine ⟨rfl, fun hn => ?_⟩
  rw [R4, get?_of_mem hfi (List.mem_filter.2 ⟨hd, hn⟩)]
  rfl

theorem forall₂_getElem?_right {α β : Type} {R : α → β → Prop} {l : List α} {l' : List β} (h : List.Forall₂ R l l') {k : ℕ}
    {x : α} (hx : l[k]? = some x) : ∃ y, l'[k]? = some y ∧ R x y := by
  induction h generalizing k with
  | nil => simp at hx
  | cons h _ ih =>
    cases k with
    | zero => simp only [List.getElem?_cons_zero, Option.some.injEq] at hx ⊢; subst hx; exact ⟨_, rfl, h⟩
    | succ k => simpa using ih (by simpa using hx)

/-- **C102.** After a step that does not end the episode, with `vars` the vector returned by `next_vars`: the
active power in the state of the `j`-th load (by increasing ID) is the `j`-th element of `vars`, and the maximum
production in the state of the `j`-th generator other than the slack is the element `j` after those of the
loads, both cut to the limits of the device, in MW. -/
theorem C102_vars_in_state {c : EnvCtx K ρ} {a : EnvArgs K} {e e' : Env K ρ} {base : K} {act : List (X K)}
    {o : Env.StepOut K} (he : EnvOf c a e) (hn : CleanFile a.network base) (h : e.step c act = .ok (e', o))
    (ho : o.terminated = false) :
    ∃ y y' vars, e.dyn = some y ∧ e'.dyn = some y' ∧ c.nextVars y.state e.rng = .ok (vars, e'.rng) ∧
      (∀ (j k : ℕ) d, (e'.sim.devices.filter Device.isLoad)[j]? = some d → e'.sim.devices[k]? = some d →
        ∃ x z, vars[j]? = some x ∧ y'.state[k]? = some z ∧ CutTo (d.pMin * .fin base) (d.pMax * .fin base) x z) ∧
      ∀ (j : ℕ) d, (e'.sim.devices.filter Device.isNonSlackGen)[j]? = some d →
        ∃ x z, vars[e'.sim.nLoad + j]? = some x ∧ y'.state[2 * e'.sim.nDevice + e'.sim.nDes + j]? = some z ∧
          CutTo (d.pMin * .fin base) (d.pMax * .fin base) x z := by
  obtain ⟨y', hy', hf⟩ := C46_flag h
  have he' := envOf_call he (.inr (.inl ⟨_, _, h⟩))
  have hlive : ∃ y, e.dyn = some y ∧ y.terminated = false := by
    obtain ⟨_, y, hy, ⟨ht, h1, h2⟩ | ⟨ht, _⟩⟩ := step_ok h
    · rw [h1, hy] at hy'
      cases hy'
      rw [← hf, ht] at ho
      cases ho
    · exact ⟨y, hy, by simpa using ht⟩
  obtain ⟨y, hy, hl⟩ := hlive
  obtain ⟨vars, args, out, h1, h2, h3, -⟩ := step_inputs he h hy hl
  have hs := envOf_simOf he
  have hs' := envOf_simOf he'
  have hb := basePos_of_simOf hn hs
  have hbase : e'.sim.baseMVA = .fin base := (simOf_base hs').1.trans hn.base
  obtain ⟨-, -, -, hsort, hlay, -⟩ := C49_state_layout he' hy'
  obtain ⟨aux, -, st, p, q, soc, g, g1, g2, g3, g4, g5, g6⟩ := hlay (hf ▸ ho)
  obtain ⟨st', g1', hst⟩ := env_state he' hy'
  rw [g1] at g1'
  cases g1'
  have hsc := sameConfig_transition h2
  have lp := g3.length_eq
  have lq := g4.length_eq
  have ls := g5.length_eq
  refine ⟨y, y', vars, hy, hy', h1, fun j k d hj hk => ?_, fun j d hj => ?_⟩
  · have hd := List.mem_of_getElem? hj
    rw [List.mem_filter] at hd
    obtain ⟨x, hx, hcut⟩ := C18_load_saturates hn hs h2 hd.1 hd.2
    obtain ⟨z, hz, hr⟩ := forall₂_getElem?_right g3 hk
    rw [(dev_reading hst hsort hd.1).1, hbase, Option.some.injEq] at hr
    have hlen : k < p.length := by
      by_contra hk'
      rw [List.getElem?_eq_none (by omega)] at hz
      cases hz
    refine ⟨x, z, ?_, ?_, hr ▸ cutTo_scale hb hcut⟩
    · obtain ⟨d0, hj0, hsm⟩ := forall₂_getElem?_right (forall₂_filter hsc.devices Device.isLoad fun _ _ h => h.classes.2.1).flip hj
      obtain ⟨x', hx1, hx2⟩ := h3.1 j d0 hj0
      have hid : d.id = d0.id := by rw [hsm]
      rw [← hid, hx, Option.some.injEq] at hx2
      rw [hx1, hx2]
    · rw [g2]
      simp only [List.append_assoc]
      rw [List.getElem?_append_left hlen, hz]
  · have hd := List.mem_of_getElem? hj
    rw [List.mem_filter] at hd
    obtain ⟨x, hx, hcut⟩ := C17_potential hn hs h2 hd.1 hd.2
    obtain ⟨z, hz, hr⟩ := forall₂_getElem?_right g6 hj
    rw [(dev_reading hst hsort hd.1).2 hd.2, hbase, Option.some.injEq] at hr
    have hlen : j < g.length := by
      by_contra hk'
      rw [List.getElem?_eq_none (by omega)] at hz
      cases hz
    refine ⟨x, z, ?_, ?_, hr ▸ cutTo_scale hb hcut⟩
    · obtain ⟨d0, hj0, hsm⟩ := forall₂_getElem?_right
        (forall₂_filter hsc.devices Device.isNonSlackGen fun _ _ h => h.classes.2.2.2).flip hj
      obtain ⟨x', hx1, hx2⟩ := h3.2.1 j d0 hj0
      have hid : d.id = d0.id := by rw [hsm]
      rw [← hid, hx, Option.some.injEq] at hx2
      rw [(counts_same hsc).2.1, Sim.nLoad, hx1, hx2]
    · have e1 : e'.sim.nDevice = p.length := lp
      have e2 : e'.sim.nDes = soc.length := ls
      have e3 : q.length = p.length := lq.symm.trans lp
      rw [g2, List.append_assoc (p ++ q ++ soc), List.getElem?_append_right (by simp; omega),
        List.getElem?_append_left (by simp; omega), ← hz]
      congr 1
      simp
      omega

/-- A step of an environment with a load and two generators, to which the theorem applies. -/
example : ∃ (e e' : Env ℚ ℕ) (o : Env.StepOut ℚ), EnvOf (envCtx load1) (envArgs .state (99/100)) e ∧
    CleanFile (envArgs .state (99/100)).network 100 ∧ e.step (envCtx load1) mildAct = .ok (e', o) ∧ o.terminated = false := by
  obtain ⟨d⟩ := demo_state
  exact ⟨_, _, _, d.of1, demo_clean, d.stp, d.live⟩

end Anm
