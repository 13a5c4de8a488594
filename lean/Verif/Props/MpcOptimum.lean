import Verif.Props.MpcParamsEx
import Verif.Props.Totals
import Mathlib.Topology.Order.Compact
import Mathlib.Topology.Instances.Real.Lemmas
import Mathlib.Topology.Order.Lattice

/-! # C141: the optimisation problem of the MPC agents has an optimal plan -/

set_option linter.unusedSectionVars false

namespace Anm
open Spec

namespace Spec

/-- The limits that make the plans of an agent bounded: finite limits of the generators (other than the slack) and
storage units, one slack device, at position `j0`, line ends that exist, and a forecast for every load. -/
structure LimitedPlans (s : Sim ℝ) (ls : List LineC) (load gen : List (List (X ℝ))) (soc : List ℝ) (N j0 : ℕ) : Prop where
  slack : ∀ j d, s.devices[j]? = some d → d.isSlack = true → j = j0
  bus : ∀ d, s.devices[j0]? = some d → ∃ b ∈ s.buses, b.id = d.busId
  ends : ∀ l ∈ ls, l.fBus.toNat < s.buses.length ∧ l.tBus.toNat < s.buses.length
  loads : load.length = (s.devices.filter fun d => d.kind = .load).length
  loadRows : ∀ r ∈ load, r.length = N
  gens : gen.length = (s.devices.filter fun d => (d.kind = .classical ∨ d.kind = .renewable) ∧ d.isSlack = false).length
  genRows : ∀ r ∈ gen, r.length = N
  socs : soc.length = (s.devices.filter fun d => d.kind = .storage).length
  power : ∀ d ∈ s.devices, d.kind ≠ .load → d.isSlack = false → ∃ a b, d.pMin = .fin a ∧ d.pMax = .fin b
  energy : ∀ d ∈ s.devices, d.kind = .storage → ∃ a b η, d.socMin = .fin a ∧ d.socMax = .fin b ∧ d.eff = .fin η ∧ 0 < η ∧ η ≤ 1

end Spec

/-! ### Plans as points of a product of lines -/

/-- The plan with the given values of the variables. -/
def planOf (u : Fin 4 × ℕ × ℕ → ℝ) : Plan ℝ := fun k =>
  { ang := fun j => u (0, k, j), p := fun j => u (1, k, j), ch := fun j => u (2, k, j), dis := fun j => u (3, k, j) }

/-- The values of the variables of a plan. -/
def coords (x : Plan ℝ) : Fin 4 × ℕ × ℕ → ℝ := fun c =>
  match c.1 with
  | 0 => (x c.2.1).ang c.2.2
  | 1 => (x c.2.1).p c.2.2
  | 2 => (x c.2.1).ch c.2.2
  | 3 => (x c.2.1).dis c.2.2

theorem planOf_coords (x : Plan ℝ) : planOf (coords x) = x := rfl

section
variable {s : Sim ℝ} {ls : List LineC} {δ : ℝ} {load gen : List (List (X ℝ))} {soc : List ℝ}

theorem cont_coord (t : Fin 4) (k j : ℕ) : Continuous fun u : Fin 4 × ℕ × ℕ → ℝ => u (t, k, j) := continuous_apply _

theorem cont_angle (k j : ℕ) : Continuous fun u => angle (planOf u) k j := cont_coord 0 k j
theorem cont_power (k j : ℕ) : Continuous fun u => power (planOf u) k j := cont_coord 1 k j

theorem cont_injection (s : Sim ℝ) (k : ℕ) (i : ℤ) : Continuous fun u => busInjection s (planOf u) k i := by
  unfold busInjection
  refine continuous_finsetSum _ fun j _ => ?_
  split
  · exact cont_power k j
  · exact continuous_const

theorem cont_list {α β : Type} [TopologicalSpace β] (l : List α) (f : α → β → ℝ) (hf : ∀ a ∈ l, Continuous (f a)) :
    Continuous fun u => (l.map fun a => f a u).sum := by
  induction l with
  | nil => simpa using continuous_const
  | cons a l ih =>
    simp only [List.map_cons, List.sum_cons]
    exact (hf a (by simp)).add (ih fun b hb => hf b (by simp [hb]))

theorem cont_dcLine (l : LineC) {f : (Fin 4 × ℕ × ℕ → ℝ) → ℝ} (hf : Continuous f) : Continuous fun u => dcLine l (f u) := by
  unfold dcLine
  exact continuous_const.mul hf

theorem cont_leaving (ls : List LineC) (k : ℕ) (i : ℤ) :
    Continuous fun u => dcLeaving ls (fun j => angle (planOf u) k j.toNat) i := by
  unfold dcLeaving
  refine cont_list ls _ fun l _ => ?_
  refine Continuous.add ?_ ?_ <;> split
  · exact cont_dcLine l ((cont_angle _ _).sub (cont_angle _ _))
  · exact continuous_const
  · exact cont_dcLine l ((cont_angle _ _).sub (cont_angle _ _))
  · exact continuous_const

theorem cont_soc (i : ℕ) (δ η z : ℝ) (k : ℕ) : Continuous fun u => plannedSoc (planOf u) i δ η z k := by
  induction k with
  | zero => exact continuous_const
  | succ k ih =>
    unfold plannedSoc
    exact (ih.add (continuous_const.mul (cont_coord 2 k i))).sub ((continuous_const.mul (cont_coord 3 k i)).div_const _)

theorem cont_cost (lam β : ℝ) (rate : LineC → Option ℝ) (k : ℕ) : Continuous fun u => stageCost s ls lam β rate (planOf u) k := by
  unfold stageCost
  refine Continuous.add ?_ (continuous_const.mul ?_)
  · refine continuous_finsetSum _ fun j _ => ?_
    split
    · exact cont_power k j
    · exact continuous_const
  · refine cont_list ls _ fun l _ => ?_
    cases rate l with
    | none => exact continuous_const
    | some r => exact continuous_const.max ((cont_dcLine l ((cont_angle _ _).sub (cont_angle _ _))).abs.sub continuous_const)

theorem closed_le (a : X ℝ) {f : (Fin 4 × ℕ × ℕ → ℝ) → ℝ} (hf : Continuous f) : IsClosed {u | a ≤ .fin (f u)} := by
  cases a with
  | nan => simp
  | ninf => simp
  | fin a => simpa only [X.fin_le_fin] using isClosed_le continuous_const hf
  | pinf => simp

theorem closed_ge (a : X ℝ) {f : (Fin 4 × ℕ × ℕ → ℝ) → ℝ} (hf : Continuous f) : IsClosed {u | .fin (f u) ≤ a} := by
  cases a with
  | nan => simp
  | ninf => simp
  | fin a => simpa only [X.fin_le_fin] using isClosed_le hf continuous_const
  | pinf => simp

theorem closed_eq (a : X ℝ) {f : (Fin 4 × ℕ × ℕ → ℝ) → ℝ} (hf : Continuous f) : IsClosed {u | a = .fin (f u)} := by
  cases a with
  | nan => simp
  | ninf => simp
  | fin a => simpa only [X.fin.injEq] using isClosed_eq continuous_const hf
  | pinf => simp

theorem closed_imp {α : Type} [TopologicalSpace α] {p : Prop} {P : α → Prop} (h : p → IsClosed {u | P u}) : IsClosed {u | p → P u} := by
  by_cases hp : p
  · simpa [hp] using h hp
  · simp [hp]

theorem closed_all {α ι : Type} [TopologicalSpace α] {P : ι → α → Prop} (h : ∀ i, IsClosed {u | P i u}) : IsClosed {u | ∀ i, P i u} := by
  rw [Set.ofPred_forall]
  exact isClosed_iInter h

theorem closed_and {α : Type} [TopologicalSpace α] {P Q : α → Prop} (h : IsClosed {u | P u}) (h' : IsClosed {u | Q u}) :
    IsClosed {u | P u ∧ Q u} := h.inter h'

/-- The plans of one stage form a closed set. -/
theorem closed_plan (k : ℕ) : IsClosed {u | PlanAt s ls δ load gen soc (planOf u) k} := by
  have e : {u | PlanAt s ls δ load gen soc (planOf u) k} = {u |
      (∀ b, b ∈ s.buses → busInjection s (planOf u) k b.id = dcLeaving ls (fun j => angle (planOf u) k j.toNat) b.id) ∧
      (∀ (i j : ℕ) (d : Device ℝ) (row : List (X ℝ)) (v : X ℝ), (s.devices.filter fun d => d.kind = .load)[i]? = some d → s.devices[j]? = some d →
        load[i]? = some row → row[k]? = some v → v = .fin (power (planOf u) k j)) ∧
      (∀ (i j : ℕ) (d : Device ℝ) (row : List (X ℝ)) (v : X ℝ), (s.devices.filter fun d => (d.kind = .classical ∨ d.kind = .renewable) ∧ d.isSlack = false)[i]? = some d →
        s.devices[j]? = some d → gen[i]? = some row → row[k]? = some v →
        d.pMin ≤ .fin (power (planOf u) k j) ∧ .fin (power (planOf u) k j) ≤ d.pMax ∧ .fin (power (planOf u) k j) ≤ v) ∧
      (∀ (i j : ℕ) (d : Device ℝ), (s.devices.filter fun d => d.kind = .storage)[i]? = some d → s.devices[j]? = some d →
        d.pMin ≤ .fin (power (planOf u) k j) ∧ .fin (power (planOf u) k j) ≤ d.pMax ∧ 0 ≤ (planOf u k).ch i ∧ 0 ≤ (planOf u k).dis i ∧
        power (planOf u) k j = (planOf u k).dis i - (planOf u k).ch i) ∧
      (∀ (i : ℕ) (d : Device ℝ) (z η : ℝ), (s.devices.filter fun d => d.kind = .storage)[i]? = some d → soc[i]? = some z → d.eff = .fin η →
        d.socMin ≤ .fin (plannedSoc (planOf u) i δ η z (k + 1)) ∧ .fin (plannedSoc (planOf u) i δ η z (k + 1)) ≤ d.socMax) ∧
      (∀ j, j < s.buses.length → -Real.pi ≤ angle (planOf u) k j ∧ angle (planOf u) k j ≤ Real.pi) ∧
      (∀ (j : ℕ) (d : Device ℝ), s.devices[j]? = some d → d.isSlack = true → angle (planOf u) k j = 0)} := by
    ext u
    exact ⟨fun P => ⟨P.flow, P.load, P.gen, P.des, P.soc, P.ang, P.ref⟩, fun ⟨a, b, c, d, e, f, g⟩ => ⟨a, b, c, d, e, f, g⟩⟩
  rw [e]
  refine closed_and ?_ (closed_and ?_ (closed_and ?_ (closed_and ?_ (closed_and ?_ (closed_and ?_ ?_)))))
  · exact closed_all fun b => closed_imp fun _ => isClosed_eq (cont_injection s k _) (cont_leaving ls k _)
  · exact closed_all fun i => closed_all fun j => closed_all fun d => closed_all fun row => closed_all fun v =>
      closed_imp fun _ => closed_imp fun _ => closed_imp fun _ => closed_imp fun _ => closed_eq v (cont_power k j)
  · exact closed_all fun i => closed_all fun j => closed_all fun d => closed_all fun row => closed_all fun v =>
      closed_imp fun _ => closed_imp fun _ => closed_imp fun _ => closed_imp fun _ =>
      closed_and (closed_le _ (cont_power k j)) (closed_and (closed_ge _ (cont_power k j)) (closed_ge _ (cont_power k j)))
  · exact closed_all fun i => closed_all fun j => closed_all fun d => closed_imp fun _ => closed_imp fun _ =>
      closed_and (closed_le _ (cont_power k j)) (closed_and (closed_ge _ (cont_power k j))
        (closed_and (isClosed_le continuous_const (cont_coord 2 k i)) (closed_and (isClosed_le continuous_const (cont_coord 3 k i))
          (isClosed_eq (cont_power k j) ((cont_coord 3 k i).sub (cont_coord 2 k i))))))
  · exact closed_all fun i => closed_all fun d => closed_all fun z => closed_all fun η => closed_imp fun _ => closed_imp fun _ =>
      closed_imp fun _ => closed_and (closed_le _ (cont_soc i δ η z _)) (closed_ge _ (cont_soc i δ η z _))
  · exact closed_all fun j => closed_imp fun _ => closed_and (isClosed_le continuous_const (cont_angle k j))
      (isClosed_le (cont_angle k j) continuous_const)
  · exact closed_all fun j => closed_all fun d => closed_imp fun _ => closed_imp fun _ => isClosed_eq (cont_angle k j) continuous_const

/-! ### Tidy plans -/

/-- The storage units. -/
abbrev storageUnits (s : Sim ℝ) : List (Device ℝ) := s.devices.filter fun d => d.kind = .storage

open Classical in
/-- What storage unit `i` charges and discharges at the same time without effect, if it is free of losses. -/
noncomputable def idleSwing (s : Sim ℝ) (x : Plan ℝ) (k i : ℕ) : ℝ :=
  match (storageUnits s)[i]? with
  | none => 0
  | some d => if d.eff = .fin 1 then min ((x k).ch i) ((x k).dis i) else 0

/-- The plan without the variables that do not exist and without idle swings. -/
noncomputable def tidy (s : Sim ℝ) (N : ℕ) (x : Plan ℝ) : Plan ℝ := fun k =>
  { ang := fun j => if k < N ∧ j < s.buses.length then (x k).ang j else 0
    p := fun j => if k < N ∧ j < s.devices.length then (x k).p j else 0
    ch := fun i => if k < N ∧ i < (storageUnits s).length then (x k).ch i - idleSwing s x k i else 0
    dis := fun i => if k < N ∧ i < (storageUnits s).length then (x k).dis i - idleSwing s x k i else 0 }

variable {N k : ℕ} {x : Plan ℝ}

theorem tidy_angle (hk : k < N) {j : ℕ} (hj : j < s.buses.length) : angle (tidy s N x) k j = angle x k j := by
  simp [angle, tidy, hk, hj]

theorem tidy_power (hk : k < N) {j : ℕ} (hj : j < s.devices.length) : power (tidy s N x) k j = power x k j := by
  simp [power, tidy, hk, hj]

theorem tidy_soc {i : ℕ} {d : Device ℝ} {z η : ℝ} (hi : (storageUnits s)[i]? = some d) (he : d.eff = .fin η) :
    ∀ k ≤ N, plannedSoc (tidy s N x) i δ η z k = plannedSoc x i δ η z k := by
  intro k
  induction k with
  | zero => exact fun _ => rfl
  | succ k ih =>
    intro hk
    have hl : i < (storageUnits s).length := (List.getElem?_eq_some_iff.1 hi).1
    have hk' : k < N := hk
    rw [plannedSoc, plannedSoc, ih (by omega)]
    simp only [tidy, hk', hl, and_self, if_true, idleSwing, hi, he]
    split
    · rename_i h1
      cases h1
      ring
    · ring

/-- Tidying up keeps a plan feasible. -/
theorem tidy_plan {j0 : ℕ} (L : LimitedPlans s ls load gen soc N j0) (hk : k < N) (P : PlanAt s ls δ load gen soc x k) :
    PlanAt s ls δ load gen soc (tidy s N x) k := by
  have hang : ∀ l ∈ ls, angle (tidy s N x) k l.fBus.toNat = angle x k l.fBus.toNat ∧
      angle (tidy s N x) k l.tBus.toNat = angle x k l.tBus.toNat := fun l hl =>
    ⟨tidy_angle hk (L.ends l hl).1, tidy_angle hk (L.ends l hl).2⟩
  have hlt : ∀ {j : ℕ} {d : Device ℝ}, s.devices[j]? = some d → j < s.devices.length := fun h => (List.getElem?_eq_some_iff.1 h).1
  refine ⟨?_, ?_, ?_, ?_, ?_, ?_, ?_⟩
  · intro b hb
    have e1 : busInjection s (tidy s N x) k b.id = busInjection s x k b.id := by
      unfold busInjection
      refine Finset.sum_congr rfl fun j hj => ?_
      rw [tidy_power hk (Finset.mem_range.1 hj)]
    have e2 : dcLeaving ls (fun j => angle (tidy s N x) k j.toNat) b.id = dcLeaving ls (fun j => angle x k j.toNat) b.id := by
      unfold dcLeaving
      refine congrArg List.sum (List.map_congr_left fun l hl => ?_)
      simp only [(hang l hl).1, (hang l hl).2]
    rw [e1, e2, P.flow b hb]
  · intro i j d row v h1 h2 h3 h4
    rw [tidy_power hk (hlt h2)]
    exact P.load i j d row v h1 h2 h3 h4
  · intro i j d row v h1 h2 h3 h4
    rw [tidy_power hk (hlt h2)]
    exact P.gen i j d row v h1 h2 h3 h4
  · intro i j d h1 h2
    rw [tidy_power hk (hlt h2)]
    obtain ⟨q1, q2, q3, q4, q5⟩ := P.des i j d h1 h2
    have hl : i < (storageUnits s).length := (List.getElem?_eq_some_iff.1 h1).1
    refine ⟨q1, q2, ?_, ?_, ?_⟩
    · simp only [tidy, hk, hl, and_self, if_true, idleSwing, h1]
      split
      · have := min_le_left ((x k).ch i) ((x k).dis i); linarith
      · simpa using q3
    · simp only [tidy, hk, hl, and_self, if_true, idleSwing, h1]
      split
      · have := min_le_right ((x k).ch i) ((x k).dis i); linarith
      · simpa using q4
    · rw [q5]
      simp only [tidy, hk, hl, and_self, if_true]
      ring
  · intro i d z η h1 h2 h3
    rw [tidy_soc h1 h3 (k + 1) hk]
    exact P.soc i d z η h1 h2 h3
  · intro j hj
    rw [tidy_angle hk hj]
    exact P.ang j hj
  · intro j d hj hd
    by_cases h : j < s.buses.length
    · rw [tidy_angle hk h]; exact P.ref j d hj hd
    · simp [angle, tidy, h]

/-- Tidying up does not change the cost. -/
theorem tidy_cost {j0 : ℕ} (L : LimitedPlans s ls load gen soc N j0) (hk : k < N) (lam β : ℝ) (rate : LineC → Option ℝ) :
    stageCost s ls lam β rate (tidy s N x) k = stageCost s ls lam β rate x k := by
  unfold stageCost
  congr 1
  · refine Finset.sum_congr rfl fun j hj => ?_
    rw [tidy_power hk (Finset.mem_range.1 hj)]
  · refine congrArg (lam * ·) (congrArg List.sum (List.map_congr_left fun l hl => ?_))
    rw [tidy_angle hk (L.ends l hl).1, tidy_angle hk (L.ends l hl).2]

/-! ### Bounds -/

theorem between_abs {a b p : ℝ} (h1 : a ≤ p) (h2 : p ≤ b) : |p| ≤ max |a| |b| := by
  rw [abs_le]
  have := neg_abs_le a
  have := le_abs_self b
  have := le_max_left |a| |b|
  have := le_max_right |a| |b|
  constructor <;> linarith

/-- The powers of the devices other than the slack are bounded. -/
theorem bound_power {j0 : ℕ} (L : LimitedPlans s ls load gen soc N j0) (hk : k < N) {j : ℕ} {d : Device ℝ} (hj : s.devices[j]? = some d)
    (hd : d.isSlack = false) : ∃ b, ∀ x, PlanAt s ls δ load gen soc x k → |power x k j| ≤ b := by
  have hm := List.mem_of_getElem? hj
  by_cases hl : d.kind = .load
  · obtain ⟨i, hi⟩ := List.mem_iff_getElem?.1 (List.mem_filter.2 ⟨hm, by simpa using hl⟩ : d ∈ s.devices.filter fun d => decide (d.kind = .load))
    have hi' : i < load.length := by rw [L.loads]; exact (List.getElem?_eq_some_iff.1 hi).1
    have hr := L.loadRows _ (List.getElem_mem hi')
    have hk' : k < (load[i]).length := by rw [hr]; exact hk
    refine ⟨match (load[i])[k] with | .fin r => |r| | _ => 0, fun x P => ?_⟩
    have := P.load i j d _ _ hi hj (List.getElem?_eq_getElem hi') (List.getElem?_eq_getElem hk')
    rw [this]
  · obtain ⟨a, b, ha, hb⟩ := L.power d hm hl hd
    refine ⟨max |a| |b|, fun x P => ?_⟩
    have key : d.pMin ≤ .fin (power x k j) ∧ .fin (power x k j) ≤ d.pMax := by
      by_cases hs : d.kind = .storage
      · obtain ⟨i, hi⟩ := List.mem_iff_getElem?.1 (List.mem_filter.2 ⟨hm, by simpa using hs⟩ : d ∈ s.devices.filter fun d => decide (d.kind = .storage))
        obtain ⟨q1, q2, -⟩ := P.des i j d hi hj
        exact ⟨q1, q2⟩
      · have hg : d.kind = .classical ∨ d.kind = .renewable := by
          cases h : d.kind
          all_goals simp_all
        obtain ⟨i, hi⟩ := List.mem_iff_getElem?.1 (List.mem_filter.2 ⟨hm, by simpa using ⟨hg, hd⟩⟩ :
          d ∈ s.devices.filter fun d => decide ((d.kind = .classical ∨ d.kind = .renewable) ∧ d.isSlack = false))
        have hi' : i < gen.length := by rw [L.gens]; exact (List.getElem?_eq_some_iff.1 hi).1
        have hr := L.genRows _ (List.getElem_mem hi')
        have hk' : k < (gen[i]).length := by rw [hr]; exact hk
        obtain ⟨q1, q2, -⟩ := P.gen i j d _ _ hi hj (List.getElem?_eq_getElem hi') (List.getElem?_eq_getElem hk')
        exact ⟨q1, q2⟩
    rw [ha, hb, X.fin_le_fin, X.fin_le_fin] at key
    exact between_abs key.1 key.2

theorem bound_leaving {θ : ℤ → ℝ} {c : ℝ} (h : ∀ l ∈ ls, |θ l.fBus| ≤ c ∧ |θ l.tBus| ≤ c) (i : ℤ) :
    |dcLeaving ls θ i| ≤ (ls.map fun l => 4 * c * |l.x / (l.r ^ 2 + l.x ^ 2) / l.tapMagn|).sum := by
  unfold dcLeaving
  induction ls with
  | nil => simp
  | cons l ls ih =>
    simp only [List.map_cons, List.sum_cons]
    refine (abs_add_le _ _).trans (add_le_add ?_ (ih fun l' hl' => h l' (by simp [hl'])))
    obtain ⟨h1, h2⟩ := h l (by simp)
    have hc : 0 ≤ c := (abs_nonneg _).trans h1
    have t1 : ∀ u v : ℝ, |u| ≤ c → |v| ≤ c → |dcLine l (u - v)| ≤ 2 * c * |l.x / (l.r ^ 2 + l.x ^ 2) / l.tapMagn| := by
      intro u v hu hv
      unfold dcLine
      rw [abs_mul, mul_comm]
      refine mul_le_mul_of_nonneg_right ?_ (abs_nonneg _)
      exact (abs_sub _ _).trans (by linarith)
    have t0 : 0 ≤ 2 * c * |l.x / (l.r ^ 2 + l.x ^ 2) / l.tapMagn| := by positivity
    have a1 : |if l.fBus = i then dcLine l (θ l.fBus - θ l.tBus) else 0| ≤ 2 * c * |l.x / (l.r ^ 2 + l.x ^ 2) / l.tapMagn| := by
      split
      · exact t1 _ _ h1 h2
      · simpa using t0
    have a2 : |if l.tBus = i then dcLine l (θ l.tBus - θ l.fBus) else 0| ≤ 2 * c * |l.x / (l.r ^ 2 + l.x ^ 2) / l.tapMagn| := by
      split
      · exact t1 _ _ h2 h1
      · simpa using t0
    refine (abs_add_le _ _).trans ?_
    linarith

theorem bound_angle (P : PlanAt s ls δ load gen soc x k) {j : ℕ} (hj : j < s.buses.length) : |angle x k j| ≤ Real.pi :=
  abs_le.2 (P.ang j hj)

/-- So is the power of the slack. -/
theorem bound_slack {j0 : ℕ} (L : LimitedPlans s ls load gen soc N j0) (hk : k < N) {d : Device ℝ} (hj : s.devices[j0]? = some d) :
    ∃ b, ∀ x, PlanAt s ls δ load gen soc x k → |power x k j0| ≤ b := by
  obtain ⟨b, hb, hid⟩ := L.bus d hj
  have h0 : j0 < s.devices.length := (List.getElem?_eq_some_iff.1 hj).1
  have each : ∀ j : ℕ, ∃ c, j ≠ j0 → ∀ x, PlanAt s ls δ load gen soc x k →
      |if (s.devices[j]?).map Device.busId = some b.id then power x k j else 0| ≤ c := by
    intro j
    cases h : s.devices[j]? with
    | none => exact ⟨0, fun _ x _ => by simp⟩
    | some e =>
      by_cases hj0 : j = j0
      · exact ⟨0, fun hne => absurd hj0 hne⟩
      · have he : e.isSlack = false := by
          cases hs : e.isSlack with
          | false => rfl
          | true => exact absurd (L.slack j e h hs) hj0
        obtain ⟨c, hc⟩ := bound_power (δ := δ) L hk h he
        refine ⟨max 0 c, fun _ x P => ?_⟩
        split
        · exact (hc x P).trans (le_max_right _ _)
        · simp
  choose c hc using each
  refine ⟨(ls.map fun l => 4 * Real.pi * |l.x / (l.r ^ 2 + l.x ^ 2) / l.tapMagn|).sum + ∑ j ∈ (Finset.range s.devices.length).erase j0, c j,
    fun x P => ?_⟩
  have hf := P.flow b hb
  unfold busInjection at hf
  rw [← Finset.add_sum_erase _ _ (Finset.mem_range.2 h0), hj] at hf
  simp only [Option.map_some, hid, if_true] at hf
  have hd := bound_leaving (ls := ls) (θ := fun j => angle x k j.toNat) (c := Real.pi)
    (fun l hl => ⟨bound_angle P (L.ends l hl).1, bound_angle P (L.ends l hl).2⟩) d.busId
  have hsum : |∑ j ∈ (Finset.range s.devices.length).erase j0, if (s.devices[j]?).map Device.busId = some d.busId then power x k j else 0| ≤
      ∑ j ∈ (Finset.range s.devices.length).erase j0, c j := by
    refine (Finset.abs_sum_le_sum_abs _ _).trans (Finset.sum_le_sum fun j hj' => ?_)
    rw [← hid]
    exact hc j (Finset.ne_of_mem_erase hj') x P
  have e : power x k j0 = dcLeaving ls (fun j => angle x k j.toNat) d.busId -
      ∑ j ∈ (Finset.range s.devices.length).erase j0, if (s.devices[j]?).map Device.busId = some d.busId then power x k j else 0 := by
    rw [← hf]; ring
  rw [e]
  exact (abs_sub _ _).trans (add_le_add hd hsum)

/-- The planned states of charge are bounded. -/
theorem bound_soc {i : ℕ} {d : Device ℝ} {z a b η : ℝ} (hi : (storageUnits s)[i]? = some d) (hz : soc[i]? = some z)
    (ha : d.socMin = .fin a) (hb : d.socMax = .fin b) (he : d.eff = .fin η)
    (P : ∀ k < N, PlanAt s ls δ load gen soc x k) : ∀ k ≤ N, min a z ≤ plannedSoc x i δ η z k ∧ plannedSoc x i δ η z k ≤ max b z := by
  intro k hk
  cases k with
  | zero => exact ⟨min_le_right _ _, le_max_right _ _⟩
  | succ k =>
    obtain ⟨q1, q2⟩ := (P k hk).soc i d z η hi hz he
    rw [ha, X.fin_le_fin] at q1
    rw [hb, X.fin_le_fin] at q2
    exact ⟨(min_le_left _ _).trans q1, q2.trans (le_max_left _ _)⟩

/-- So are the charging and discharging powers of tidy plans. -/
theorem bound_charge {j0 : ℕ} (hδ : 0 < δ) (L : LimitedPlans s ls load gen soc N j0) (hk : k < N) {i : ℕ} {d : Device ℝ}
    (hi : (storageUnits s)[i]? = some d) (hns : d.isSlack = false) :
    ∃ c, ∀ x, (∀ k < N, PlanAt s ls δ load gen soc x k) → |(tidy s N x k).ch i| ≤ c ∧ |(tidy s N x k).dis i| ≤ c := by
  have hmem := List.mem_of_mem_filter (List.mem_of_getElem? hi)
  have hkind : d.kind = .storage := by simpa using (List.mem_filter.1 (List.mem_of_getElem? hi)).2
  have hl : i < (storageUnits s).length := (List.getElem?_eq_some_iff.1 hi).1
  obtain ⟨j, hj⟩ := List.mem_iff_getElem?.1 hmem
  obtain ⟨a, b, η, ha, hb, he, h0, h1⟩ := L.energy d hmem hkind
  obtain ⟨B, hB⟩ := bound_power (δ := δ) L hk hj hns
  have hz' : i < soc.length := by rw [L.socs]; exact hl
  have hz : soc[i]? = some soc[i] := List.getElem?_eq_getElem hz'
  generalize soc[i] = z at hz
  by_cases h : η = 1
  · subst h
    refine ⟨B, fun x P => ?_⟩
    obtain ⟨-, -, q3, q4, q5⟩ := (P k hk).des i j d hi hj
    have hp := abs_le.1 (hB x (P k hk))
    simp only [tidy, hk, hl, and_self, if_true, idleSwing, hi, he]
    rcases le_total ((x k).ch i) ((x k).dis i) with hle | hle
    · rw [min_eq_left hle, abs_of_nonneg (by linarith), abs_of_nonneg (by linarith)]
      constructor <;> linarith
    · rw [min_eq_right hle, abs_of_nonneg (by linarith), abs_of_nonneg (by linarith)]
      constructor <;> linarith
  · have hlt : η < 1 := lt_of_le_of_ne h1 h
    have hne : ¬ (X.fin η : X ℝ) = .fin 1 := fun e => h (X.fin.inj e)
    have hpos : 0 < δ * (1 / η - η) := by
      have : 1 < 1 / η := by rw [lt_div_iff₀ h0]; linarith
      exact mul_pos hδ (by linarith)
    refine ⟨|B| + (max b z - min a z + δ * |B| / η) / (δ * (1 / η - η)), fun x P => ?_⟩
    obtain ⟨-, -, q3, q4, q5⟩ := (P k hk).des i j d hi hj
    have hp := abs_le.1 (hB x (P k hk))
    have s1 := (bound_soc hi hz ha hb he P k hk.le).2
    have s2 := (bound_soc hi hz ha hb he P (k + 1) hk).1
    rw [plannedSoc] at s2
    have hdis : (x k).dis i = power x k j + (x k).ch i := by linarith
    have hBabs := le_abs_self B
    have key : (x k).ch i * (δ * (1 / η - η)) ≤ max b z - min a z + δ * |B| / η := by
      have e : δ * (x k).dis i / η = δ * power x k j / η + (x k).ch i * (δ * (1 / η)) := by
        rw [hdis]; ring
      have g : -(δ * power x k j / η) ≤ δ * |B| / η := by
        rw [← neg_div]
        refine div_le_div_of_nonneg_right ?_ h0.le
        nlinarith
      rw [e] at s2
      have : (x k).ch i * (δ * (1 / η - η)) = (x k).ch i * (δ * (1 / η)) - δ * η * (x k).ch i := by ring
      linarith
    have hch : (x k).ch i ≤ (max b z - min a z + δ * |B| / η) / (δ * (1 / η - η)) := by rwa [le_div_iff₀ hpos]
    simp only [tidy, hk, hl, and_self, if_true, idleSwing, hi, he, hne, if_false, sub_zero]
    rw [abs_of_nonneg q3, abs_of_nonneg q4]
    have := abs_nonneg B
    constructor <;> linarith

/-- Every variable of a tidy plan is bounded. -/
theorem bound_all {j0 : ℕ} (hδ : 0 < δ) (L : LimitedPlans s ls load gen soc N j0) (hst : ∀ d ∈ s.devices, d.kind = .storage → d.isSlack = false)
    (c : Fin 4 × ℕ × ℕ) : ∃ b, ∀ x, (∀ k < N, PlanAt s ls δ load gen soc x k) → |coords (tidy s N x) c| ≤ b := by
  obtain ⟨t, k, j⟩ := c
  by_cases hk : k < N
  · match t with
    | 0 =>
      refine ⟨Real.pi, fun x P => ?_⟩
      show |(tidy s N x k).ang j| ≤ Real.pi
      by_cases hj : j < s.buses.length
      · exact (congrArg abs (tidy_angle hk hj)).trans_le (bound_angle (P k hk) hj)
      · simp [tidy, hj, Real.pi_pos.le]
    | 1 =>
      cases hj : s.devices[j]? with
      | none =>
        have : ¬ j < s.devices.length := by simpa using hj
        exact ⟨0, fun x P => by simp [coords, tidy, this]⟩
      | some d =>
        have hlt : j < s.devices.length := (List.getElem?_eq_some_iff.1 hj).1
        have : ∃ b, ∀ x, PlanAt s ls δ load gen soc x k → |power x k j| ≤ b := by
          cases hs : d.isSlack with
          | false => exact bound_power L hk hj hs
          | true =>
            have e := L.slack j d hj hs
            subst e
            exact bound_slack L hk hj
        obtain ⟨b, hb⟩ := this
        exact ⟨b, fun x P => (congrArg abs (tidy_power hk hlt)).trans_le (hb x (P k hk))⟩
    | 2 =>
      cases hi : (storageUnits s)[j]? with
      | none =>
        have : ¬ j < (storageUnits s).length := by simpa using hi
        exact ⟨0, fun x P => by simp only [coords, tidy, this, and_false, if_false, abs_zero, le_refl]⟩
      | some d =>
        have hm := List.mem_filter.1 (List.mem_of_getElem? hi)
        obtain ⟨c, hc⟩ := bound_charge hδ L hk hi (hst d hm.1 (by simpa using hm.2))
        exact ⟨c, fun x P => (hc x P).1⟩
    | 3 =>
      cases hi : (storageUnits s)[j]? with
      | none =>
        have : ¬ j < (storageUnits s).length := by simpa using hi
        exact ⟨0, fun x P => by simp only [coords, tidy, this, and_false, if_false, abs_zero, le_refl]⟩
      | some d =>
        have hm := List.mem_filter.1 (List.mem_of_getElem? hi)
        obtain ⟨c, hc⟩ := bound_charge hδ L hk hi (hst d hm.1 (by simpa using hm.2))
        exact ⟨c, fun x P => (hc x P).2⟩
  · refine ⟨0, fun x P => ?_⟩
    match t with
    | 0 => simp [coords, tidy, hk]
    | 1 => simp [coords, tidy, hk]
    | 2 => simp [coords, tidy, hk]
    | 3 => simp [coords, tidy, hk]

/-- Among the plans there is a cheapest one. -/
theorem plan_optimum {j0 : ℕ} (hδ : 0 < δ) (L : LimitedPlans s ls load gen soc N j0) (hst : ∀ d ∈ s.devices, d.kind = .storage → d.isSlack = false)
    (g lam β : ℝ) (rate : LineC → Option ℝ) (hx : ∀ k < N, PlanAt s ls δ load gen soc x k) :
    ∃ y, (∀ k < N, PlanAt s ls δ load gen soc y k) ∧ ∀ z, (∀ k < N, PlanAt s ls δ load gen soc z k) →
      ∑ k ∈ Finset.range N, g ^ k * stageCost s ls lam β rate y k ≤ ∑ k ∈ Finset.range N, g ^ k * stageCost s ls lam β rate z k := by
  choose b hb using bound_all hδ L hst
  let box : Set (Fin 4 × ℕ × ℕ → ℝ) := Set.univ.pi fun c => Set.Icc (-b c) (b c)
  let S : Set (Fin 4 × ℕ × ℕ → ℝ) := {u | ∀ k, k < N → PlanAt s ls δ load gen soc (planOf u) k}
  have hbox : IsCompact box := isCompact_univ_pi fun c => isCompact_Icc
  have hS : IsClosed S := closed_all fun k => closed_imp fun _ => closed_plan k
  have hin : ∀ z, (∀ k < N, PlanAt s ls δ load gen soc z k) → coords (tidy s N z) ∈ box ∩ S := fun z hz =>
    ⟨fun c _ => abs_le.1 (hb c z hz), fun k hk => by rw [planOf_coords]; exact tidy_plan L hk (hz k hk)⟩
  have hcont : Continuous fun u => ∑ k ∈ Finset.range N, g ^ k * stageCost s ls lam β rate (planOf u) k :=
    continuous_finsetSum _ fun k _ => continuous_const.mul (cont_cost lam β rate k)
  obtain ⟨u, hu, hmin⟩ := (hbox.inter_right hS).exists_isMinOn ⟨_, hin x hx⟩ hcont.continuousOn
  refine ⟨planOf u, hu.2, fun z hz => ?_⟩
  have h1 := isMinOn_iff.1 hmin _ (hin z hz)
  rw [planOf_coords] at h1
  refine h1.trans (Finset.sum_le_sum fun k hk => ?_)
  rw [tidy_cost L (Finset.mem_range.1 hk)]

end

section
variable {n : Network ℝ} {s : Sim ℝ} {ls : List LineC} {cv : Cvx ℝ} {box : Box ℝ} {N : ℕ} {m : Mpc ℝ}
  {load gen : List (List (X ℝ))} {soc : List ℝ} {x : Plan ℝ}

theorem limitedPlans {base δ : ℝ} {lam : X ℝ} {M : ℕ} (hn : CleanFile n base) (hd : Documented n) (hs : SimOf n (.fin δ) lam s)
    (hM : Numbered s M) (hf : FiniteLines s ls) {j0 : ℕ} {d0 : Device ℝ} (hj0 : s.devices[j0]? = some d0) (hd0 : d0.isSlack = true)
    (hload : load.length = (s.devices.filter fun d => d.kind = .load).length) (hload' : ∀ r ∈ load, r.length = N)
    (hgen : gen.length = (s.devices.filter fun d => (d.kind = .classical ∨ d.kind = .renewable) ∧ d.isSlack = false).length)
    (hgen' : ∀ r ∈ gen, r.length = N)
    (hsoc : soc.length = (s.devices.filter fun d => d.kind = .storage).length)
    (hp : ∀ d ∈ s.devices, d.kind ≠ .load → d.isSlack = false → ∃ a b, d.pMin = .fin a ∧ d.pMax = .fin b)
    (he : ∀ d ∈ s.devices, d.kind = .storage → ∃ a b η, d.socMin = .fin a ∧ d.socMax = .fin b ∧ d.eff = .fin η ∧ 0 < η ∧ η ≤ 1) :
    LimitedPlans s ls load gen soc N j0 := by
  obtain ⟨i, j, O⟩ := oneSlack_of_file hn hd hs
  refine ⟨fun k d hk hsl => ?_, fun d h => ?_, fun l hl => ?_, hload, hload', hgen, hgen', hsoc, hp, he⟩
  · have e1 := (O.dev d (List.mem_of_getElem? hk)).1 hsl
    have e2 := (O.dev d0 (List.mem_of_getElem? hj0)).1 hd0
    have e : d = d0 := sorted_id_inj O.devices (List.mem_of_getElem? hk) (List.mem_of_getElem? hj0) (e1.trans e2.symm)
    have hnd : s.devices.Nodup := O.devices.imp fun h e => by rw [e] at h; exact lt_irrefl _ h
    obtain ⟨a1, a2⟩ := List.getElem?_eq_some_iff.1 hk
    obtain ⟨b1, b2⟩ := List.getElem?_eq_some_iff.1 hj0
    exact (hnd.getElem_inj_iff).1 (a2.trans (e.trans b2.symm))
  · exact O.busOf d (List.mem_of_getElem? h)
  · obtain ⟨-, L2, -⟩ := simOf_lines hn hs hM hf
    have hlen : s.buses.length = M + 1 := by
      have := congrArg List.length hM.ids
      simpa using this
    obtain ⟨⟨f0, f1⟩, t0, t1⟩ := L2 l hl
    omega

/-- **C141** If the limits of the generators and storage units are finite, the problem of an MPC agent has an optimal plan
whenever it has a feasible one: the costs of the plans are bounded from below, and the bound is reached. -/
theorem C141_optimal {base δ g b l0 : ℝ} {M : ℕ} (hn : CleanFile n base) (hd : Documented n) (hs : SimOf n (.fin δ) (.fin l0) s)
    (hM : Numbered s M) (hf : FiniteLines s ls) (hl : ∀ l ∈ ls, l.shiftDeg = 0)
    (hm : mkMpc cv s (bBus ls) box (.fin g) (.fin b) N = .ok m) (hN : 0 < N) (hδ : 0 < δ) (hb : 0 < b)
    {j0 : ℕ} {d0 : Device ℝ} (hj0 : s.devices[j0]? = some d0) (hd0 : d0.isSlack = true) (hlt : j0 < s.buses.length)
    (rate : LineC → Option ℝ)
    (hr : List.Forall₂ (fun (br : Branch ℝ) l => br.line.rate = (rate l).elim .pinf .fin) s.branches ls)
    (hload : load.length = (s.devices.filter fun d => d.kind = .load).length) (hload' : ∀ r ∈ load, r.length = N)
    (hgen : gen.length = (s.devices.filter fun d => (d.kind = .classical ∨ d.kind = .renewable) ∧ d.isSlack = false).length)
    (hgen' : ∀ r ∈ gen, r.length = N)
    (hsoc : soc.length = (s.devices.filter fun d => d.kind = .storage).length)
    (hp : ∀ d ∈ s.devices, d.kind ≠ .load → d.isSlack = false → ∃ a b, d.pMin = .fin a ∧ d.pMax = .fin b)
    (he : ∀ d ∈ s.devices, d.kind = .storage → ∃ a b η, d.socMin = .fin a ∧ d.socMax = .fin b ∧ d.eff = .fin η ∧ 0 < η ∧ η ≤ 1)
    (hx : FeasiblePlan Real.pi m load gen (soc.map .fin) x) :
    ∃ y v, OptimalPlan Real.pi m load gen (soc.map .fin) y v := by
  have L := limitedPlans hn hd hs hM hf hj0 hd0 hload hload' hgen hgen' hsoc hp he
  have key := C81_feasible_iff hn hd hs hM hf hl hm hN hj0 hd0 hlt hload' hgen hgen' hsoc (fun d h1 h2 => by
    obtain ⟨_, _, η, -, -, h3, h4, -⟩ := he d h1 h2
    exact ⟨η, h3, h4.ne'⟩)
  have hst : ∀ d ∈ s.devices, d.kind = .storage → d.isSlack = false := by
    intro d h1 h2
    by_contra h3
    rw [slack_kind hs h1 (by simpa using h3)] at h2
    cases h2
  obtain ⟨y, y1, y2⟩ := plan_optimum hδ L hst g l0 b rate ((key x).1 hx)
  obtain ⟨cs, obj, c1, c2⟩ := (key y).2 y1
  have cost := C80_objective hn hs hM hf hl hm hb rate hr c1
  refine ⟨y, _, cs, obj, c1, c2, cost y, fun z hz => ?_⟩
  rw [cost z, X.fin_le_fin]
  exact y2 z ((key z).1 ⟨cs, obj, c1, hz⟩)

end

section
variable {ρ : Type} {w : EasyWorld ℝ ρ} {s0 : Sim ℝ} {a : Anm6 ℝ ρ} {cv : Cvx ℝ} {m : Mpc ℝ} {y : EnvDyn ℝ}

theorem rates_same {rate : LineC → Option ℝ} {l1 l2 : List (Branch ℝ)} {l3 : List LineC}
    (h : List.Forall₂ (fun b b' : Branch ℝ => b'.line = b.line) l1 l2)
    (h' : List.Forall₂ (fun (b : Branch ℝ) l => b.line.rate = (rate l).elim .pinf .fin) l1 l3) :
    List.Forall₂ (fun (b : Branch ℝ) l => b.line.rate = (rate l).elim .pinf .fin) l2 l3 := by
  induction h generalizing l3 with
  | nil => cases h'; exact .nil
  | cons hab _ ih =>
    cases h' with
    | cons hbc h' => exact .cons (by rw [hab]; exact hbc) (ih h')

/-- **C141** In every state of ANM6Easy, both agents have an optimal plan for every number of
stages. -/
theorem C141_easy (ha : EasyOf w s0 a) (hg : Fair w.rng) (G : GoodSolvers w.sim (easySim : Sim ℝ))
    (hy : a.env.dyn = some y) {g b : ℝ} {N : ℕ} (hN : 0 < N) (hb : 0 < b)
    (hm : mkMpc cv a.env.sim (bBus easyLines) a.env.actionSpace (.fin g) (.fin b) N = .ok m) (perfect : Bool) :
    ∃ fc soc x v, forecastOf m perfect a y = .ok fc ∧ m.socs a.env.sim = .ok soc ∧ OptimalPlan Real.pi m fc.1 fc.2 soc x v := by
  have hA : AgentOf (easyCtx w s0) easyArgs cv (bBus easyLines) m a.env := ⟨a.env, .fin g, .fin b, N, easy_env ha, hm, .refl⟩
  have hsteps : m.steps = N := (mkMpc_ok hm).steps
  obtain ⟨fc, z, x, hf, n1, n2, hz, hx, -⟩ := C88_feasible ha hg G hy hA (by rw [hsteps]; exact hN) perfect
  rw [hsteps] at n1 n2
  have hcfg := easy_sameConfig ha
  have hsim : SimOf anm6Net (.fin (1/4)) (.fin 100) a.env.sim := envOf_simOf (easy_env ha)
  obtain ⟨d0, d1, d2, d3, d4, d5, d6, hds, k0, k1, k2, k3, k4, k5, k6⟩ := easy_devices hcfg
  have a0 : d0.isSlack = true ∧ d0.kind = .classical := by rw [k0]; exact ⟨rfl, rfl⟩
  have a1 : d1.isSlack = false ∧ d1.kind = .load := by rw [k1]; exact ⟨rfl, rfl⟩
  have a2 : d2.isSlack = false ∧ d2.kind = .renewable := by rw [k2]; exact ⟨rfl, rfl⟩
  have a3 : d3.isSlack = false ∧ d3.kind = .load := by rw [k3]; exact ⟨rfl, rfl⟩
  have a4 : d4.isSlack = false ∧ d4.kind = .renewable := by rw [k4]; exact ⟨rfl, rfl⟩
  have a5 : d5.isSlack = false ∧ d5.kind = .load := by rw [k5]; exact ⟨rfl, rfl⟩
  have a6 : d6.isSlack = false ∧ d6.kind = .storage := by rw [k6]; exact ⟨rfl, rfl⟩
  obtain ⟨u, v, h⟩ := C141_optimal (load := fc.1) (gen := fc.2) (soc := [z]) anm6_clean anm6_documented hsim
    (numbered_same hcfg easy_numbered) (finiteLines_same hcfg easy_finiteLines : FiniteLines a.env.sim easyLines) (by simp [easyLines])
    hm hN (by norm_num) hb (j0 := 0) (d0 := d0) (by rw [hds]; rfl) a0.1 (by
      have h1 : a.env.sim.buses.map Bus.id = [0, 1, 2, 3, 4, 5] := (numbered_same hcfg easy_numbered).ids
      have h2 := congrArg List.length h1
      simp at h2
      omega)
    easyRate (rates_same hcfg.branches easy_rates)
    (by rw [n1.1]; simp [hds, a0, a1, a2, a3, a4, a5, a6]) (fun r hr => (n1.2 r hr).1)
    (by rw [n2.1]; simp [hds, a0, a1, a2, a3, a4, a5, a6]) (fun r hr => (n2.2 r hr).1)
    (by simp [hds, a0, a1, a2, a3, a4, a5, a6])
    (by
      rw [hds]
      intro d hd h1 h2
      simp only [List.mem_cons, List.not_mem_nil, or_false] at hd
      rcases hd with rfl | rfl | rfl | rfl | rfl | rfl | rfl
      · rw [a0.1] at h2; cases h2
      · exact absurd a1.2 h1
      · exact ⟨0, 3/10, by rw [k2]; exact ⟨rfl, rfl⟩⟩
      · exact absurd a3.2 h1
      · exact ⟨0, 1/2, by rw [k4]; exact ⟨rfl, rfl⟩⟩
      · exact absurd a5.2 h1
      · exact ⟨-1/2, 1/2, by rw [k6]; exact ⟨rfl, rfl⟩⟩)
    (by
      rw [hds]
      intro d hd hk
      simp only [List.mem_cons, List.not_mem_nil, or_false] at hd
      rcases hd with rfl | rfl | rfl | rfl | rfl | rfl | rfl
      · rw [a0.2] at hk; cases hk
      · rw [a1.2] at hk; cases hk
      · rw [a2.2] at hk; cases hk
      · rw [a3.2] at hk; cases hk
      · rw [a4.2] at hk; cases hk
      · rw [a5.2] at hk; cases hk
      · exact ⟨0, 1, 9/10, by rw [k6]; rfl, by rw [k6]; rfl, by rw [k6]; rfl, by norm_num, by norm_num⟩)
    hx
  exact ⟨fc, [.fin z], u, v, hf, hz, h⟩

/-- The start of an episode in which the weather is calm: an optimal plan of 10 stages exists. -/
example (perfect : Bool) : ∃ (m : Mpc ℝ) (a : Anm6 ℝ ℕ) (y : EnvDyn ℝ), m.steps = 10 ∧ a.env.dyn = some y ∧
    ∃ fc soc x v, forecastOf m perfect a y = .ok fc ∧ OptimalPlan Real.pi m fc.1 fc.2 soc x v := by
  obtain ⟨a, a1, obs, y, d, ha, h, hy, ht, hd, hlt⟩ := calm_start
  obtain ⟨m, hm, hs, -⟩ := C88_agent (ha.reset h) (exactCvx 7) (bBus easyLines) (.fin 1) (.fin (9/10)) (N := 10) (by norm_num)
  obtain ⟨fc, soc, x, v, h1, -, h2⟩ := C141_easy (ha.reset h) fair_real calm_good hy (by norm_num) (by norm_num) hm perfect
  exact ⟨m, a1, y, hs, hy, fc, soc, x, v, h1, h2⟩

end

end Anm
