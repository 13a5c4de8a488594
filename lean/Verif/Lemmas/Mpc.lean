import Verif.Spec.Mpc
import Verif.Props.EnvStep

/-! # Lemmas about the MPC agents -/

set_option linter.unusedSectionVars false

namespace Anm
open Spec

section
variable {K ρ : Type} [Field K] [LinearOrder K]

theorem forall₂_map_same {α β : Type} {R : α → α → Prop} {l l' : List α} (h : List.Forall₂ R l l') (f : α → β)
    (hf : ∀ a b, R a b → f b = f a) : l'.map f = l.map f := by
  induction h with
  | nil => rfl
  | cons hh _ ih => rw [List.map_cons, List.map_cons, ih, hf _ _ hh]

theorem forall₂_filter {α : Type} {R : α → α → Prop} {l l' : List α} (h : List.Forall₂ R l l') (f : α → Bool)
    (hf : ∀ a b, R a b → f b = f a) : List.Forall₂ R (l.filter f) (l'.filter f) := by
  induction h with
  | nil => exact .nil
  | @cons a b _ _ hh _ ih =>
    simp only [List.filter_cons, hf a b hh]
    split
    · exact .cons hh ih
    · exact ih

/-- The agent does not depend on the electrical state of the simulator. -/
theorem mkMpc_same {s s' : Sim K} (h : SameConfig s s') (cv : Cvx K) (Y : ℕ → ℕ → K) (box : Box K) (g β : X K)
    (n : ℕ) : mkMpc cv s' Y box g β n = mkMpc cv s Y box g β n := by
  have hd {β : Type} (f : Device K → β) (hf : ∀ d d', SameMachine d d' → f d' = f d) :
      s'.devices.map f = s.devices.map f := forall₂_map_same h.devices f hf
  have hp {β : Type} (P : Device K → Bool) (hP : ∀ d d', SameMachine d d' → P d' = P d) (f : Device K → β)
      (hf : ∀ d d', SameMachine d d' → f d' = f d) : (s'.devices.filter P).map f = (s.devices.filter P).map f :=
    forall₂_map_same (forall₂_filter h.devices P hP) f hf
  have hb : s'.buses.map Bus.id = s.buses.map Bus.id := forall₂_map_same h.buses _ fun a b hh => by rw [hh]
  have h1 : s'.branches.map (fun b => (b.line.fBus, b.line.tBus)) = s.branches.map (fun b => (b.line.fBus, b.line.tBus)) :=
    forall₂_map_same h.branches _ fun a b hh => by rw [hh]
  have h2 : s'.branches.map (fun b => b.line.rate) = s.branches.map (fun b => b.line.rate) :=
    forall₂_map_same h.branches _ fun a b hh => by rw [hh]
  unfold mkMpc
  simp only [hb, h1, h2, h.base, h.dt, h.lamb,
    hd Device.id (fun d d' hh => by rw [hh]),
    hd (fun d => (d.id, d.busId)) (fun d d' hh => by rw [hh]),
    hp Device.isStorage (fun d d' hh => by rw [hh]; rfl) Device.id (fun d d' hh => by rw [hh]),
    hp Device.isNonSlackGen (fun d d' hh => by rw [hh]; rfl) Device.id (fun d d' hh => by rw [hh]),
    hp Device.isLoad (fun d d' hh => by rw [hh]; rfl) Device.id (fun d d' hh => by rw [hh]),
    hp Device.isGen (fun d d' hh => by rw [hh]; rfl) Device.id (fun d d' hh => by rw [hh]),
    hp Device.isRenewable (fun d d' hh => by rw [hh]; rfl) Device.id (fun d d' hh => by rw [hh]),
    hp Device.isNonSlackGen (fun d d' hh => by rw [hh]; rfl) Device.pMin (fun d d' hh => by rw [hh]),
    hp Device.isNonSlackGen (fun d d' hh => by rw [hh]; rfl) Device.pMax (fun d d' hh => by rw [hh]),
    hp Device.isStorage (fun d d' hh => by rw [hh]; rfl) Device.pMin (fun d d' hh => by rw [hh]),
    hp Device.isStorage (fun d d' hh => by rw [hh]; rfl) Device.pMax (fun d d' hh => by rw [hh]),
    hp Device.isStorage (fun d d' hh => by rw [hh]; rfl) Device.socMin (fun d d' hh => by rw [hh]),
    hp Device.isStorage (fun d d' hh => by rw [hh]; rfl) Device.socMax (fun d d' hh => by rw [hh]),
    hp Device.isStorage (fun d d' hh => by rw [hh]; rfl) Device.eff (fun d d' hh => by rw [hh])]

/-- The attributes of an agent. -/
structure MpcInv (cv : Cvx K) (s : Sim K) (Y : ℕ → ℕ → K) (box : Box K) (g β : X K) (n : ℕ) (m : Mpc K) : Prop where
  margin : m.margin = β
  base : m.baseMVA = s.baseMVA
  lamb : m.lamb = s.lamb
  low : m.low = box.low
  high : m.high = box.high
  steps : m.steps = n
  gamma : m.gamma = g
  deltaT : m.deltaT = s.deltaT
  loadIds : m.loadIds = (s.devices.filter Device.isLoad).map Device.id
  genIds : m.genIds = (s.devices.filter Device.isGen).map Device.id
  nonSlackGenIds : m.nonSlackGenIds = (s.devices.filter Device.isNonSlackGen).map Device.id
  genRerIds : m.genRerIds = (s.devices.filter Device.isRenewable).map Device.id
  desIds : m.desIds = (s.devices.filter Device.isStorage).map Device.id
  branchIds : m.branchIds = s.branches.map fun b => (b.line.fBus, b.line.tBus)
  deviceIds : m.deviceIds = s.devices.map Device.id
  busIds : m.busIds = s.buses.map Bus.id
  slack : (m.deviceIds.filter fun i => i ∉ m.desIds ∧ i ∉ m.nonSlackGenIds ∧ i ∉ m.loadIds).head? = some m.slackDevId
  devToBus : m.devToBus = s.devices.map fun d => (d.id, d.busId)
  B : ∀ k l, m.B k l = Y ((m.busIds.map fun i => m.busIds.idxOf i).getD k 0) ((m.busIds.map fun i => m.busIds.idxOf i).getD l 0)
  rates : m.rates = s.branches.map fun b => b.line.rate
  pGenMin : m.pGenMin = (s.devices.filter Device.isNonSlackGen).map Device.pMin
  pGenMax : m.pGenMax = (s.devices.filter Device.isNonSlackGen).map Device.pMax
  pDesMin : m.pDesMin = (s.devices.filter Device.isStorage).map Device.pMin
  pDesMax : m.pDesMax = (s.devices.filter Device.isStorage).map Device.pMax
  socMin : m.socMin = (s.devices.filter Device.isStorage).map Device.socMin
  socMax : m.socMax = (s.devices.filter Device.isStorage).map Device.socMax
  desEff : m.desEff = (s.devices.filter Device.isStorage).map Device.eff

theorem firstE_ok {α : Type} {l : List α} {a : α} : firstE l = .ok a ↔ l.head? = some a := by
  cases l <;> simp [firstE]

theorem mkMpc_ok {cv : Cvx K} {s : Sim K} {Y : ℕ → ℕ → K} {box : Box K} {g β : X K} {n : ℕ} {m : Mpc K}
    (h : mkMpc cv s Y box g β n = .ok m) : MpcInv cv s Y box g β n m := by
  unfold mkMpc at h
  simp only [bind_ok, guardE_ok, pure_ok] at h
  obtain ⟨i, h1, _, _, rfl⟩ := h
  have h2 := firstE_ok.1 h1
  constructor <;> first | rfl | exact h2 | (intros; rfl)

theorem agentOf_inv [FloorRing K] {c : EnvCtx K ρ} {a : EnvArgs K} {cv : Cvx K} {Y : ℕ → ℕ → K} {m : Mpc K}
    {e : Env K ρ} (h : AgentOf c a cv Y m e) :
    EnvOf c a e ∧ ∃ g β n, MpcInv cv e.sim Y e.actionSpace g β n m := by
  obtain ⟨e0, g, β, n, ⟨e1, h1, h2⟩, hm, hh⟩ := h
  refine ⟨⟨e1, h1, h2.trans hh⟩, g, β, n, mkMpc_ok ?_⟩
  rw [mkMpc_same (sameConfig_history (simHistory hh)), (sameEnv_history hh).actionSpace]
  exact hm

/-! ### Actions -/

/-- What `act` computes. -/
theorem act_ok {cv : Cvx K} {pi : K} {m : Mpc K} {s : Sim K} {fc : List (List (X K)) × List (List (X K))}
    {act : List (X K)} (h : m.act cv pi s fc = .ok act) :
    ∃ v pg pd, Planned cv pi m s fc v ∧
      List.Forall₂ (fun i y => ∃ x, v[m.devIdx i]? = some x ∧ y = x * m.baseMVA) m.nonSlackGenIds pg ∧
      List.Forall₂ (fun i y => ∃ x, v[m.devIdx i]? = some x ∧ y = x * m.baseMVA) m.desIds pd ∧
      (let a := pg ++ pg.map (fun _ => 0) ++ pd ++ pd.map (fun _ => 0)
       a.length = m.low.length ∧ a.length = m.high.length ∧ act = Env.clipVec a m.low m.high) := by
  simp only [Mpc.act, Mpc.solve, bind_ok, guardE_ok, pure_ok] at h
  obtain ⟨a, ⟨_, _, soc, h1, _, _, ⟨cs, obj⟩, h2, r, h3, h4⟩, _, h5, rfl⟩ := h
  cases r with
  | none => cases h4
  | some v =>
    simp only [bind_ok, pure_ok] at h4
    obtain ⟨pg, h6, pd, h7, rfl⟩ := h4
    refine ⟨v, pg, pd, ⟨soc, cs, obj, h1, h2, h3⟩, ?_, ?_, h5.1, h5.2, rfl⟩
    · refine (mapE_ok.1 h6).imp fun i y hy => ?_
      simp only [bind_ok, pure_ok] at hy
      obtain ⟨x, hx, rfl⟩ := hy
      exact ⟨x, idx_ok.1 hx, rfl⟩
    · refine (mapE_ok.1 h7).imp fun i y hy => ?_
      simp only [bind_ok, pure_ok] at hy
      obtain ⟨x, hx, rfl⟩ := hy
      exact ⟨x, idx_ok.1 hx, rfl⟩

end

end Anm
