import Verif.Model.Mpc
import Verif.Spec.Anm6

/-! # Specification vocabulary for the MPC agents -/

namespace Anm.Spec

variable {K ρ : Type} [Field K] [LinearOrder K]

/-- `m` is an agent constructed from the simulator and the action space of an environment made from the
arguments `a`, and `e` is this environment after some use. -/
def AgentOf [FloorRing K] (c : EnvCtx K ρ) (a : EnvArgs K) (cv : Cvx K) (Y : ℕ → ℕ → K) (m : Mpc K) (e : Env K ρ) :
    Prop :=
  ∃ e0 gamma margin steps, EnvOf c a e0 ∧ mkMpc cv e0.sim Y e0.actionSpace gamma margin steps = .ok m ∧
    EnvHistory c e0 e

/-- In a call of `act` with the forecasts `fc`, the solver returns `v` for the active powers of the devices
(by increasing ID) in the first stage. -/
def Planned (cv : Cvx K) (pi : K) (m : Mpc K) (s : Sim K) (fc : List (List (X K)) × List (List (X K)))
    (v : List (X K)) : Prop :=
  ∃ soc cs obj, m.socs s = .ok soc ∧ m.problem pi fc.1 fc.2 soc = .ok (cs, obj) ∧ cv.solve cs obj = .ok (some v)

/-- The plan `x` satisfies all constraints of the problem solved for the forecasts `load`, `gen` from the
states of charge `soc`. -/
def FeasiblePlan (pi : K) (m : Mpc K) (load gen : List (List (X K))) (soc : List (X K)) (x : Plan K) : Prop :=
  ∃ cs obj, m.problem pi load gen soc = .ok (cs, obj) ∧ ∀ c ∈ cs, c x = true

/-- The power of device number `j` in stage `k` of a plan. -/
def power (x : Plan K) (k j : ℕ) : K := (x k).p j

/-- The voltage angle of bus number `j` in stage `k` of a plan. -/
def angle (x : Plan K) (k j : ℕ) : K := (x k).ang j

/-- The state of charge planned for storage unit number `i` after `k` stages of `δ` hours, starting from
`z`, with efficiency `η`. -/
def plannedSoc (x : Plan K) (i : ℕ) (δ η z : K) : ℕ → K
  | 0 => z
  | k + 1 => plannedSoc x i δ η z k + δ * η * (x k).ch i - δ * (x k).dis i / η

/-- The states of charge of a storage unit `d` under the storage dynamics of the simulator, when the
powers `p 0`, `p 1`, ... are applied to it one after the other, each for `dt` hours. -/
inductive Discharge (d : Device K) (dt : X K) (p : ℕ → K) : ℕ → X K → X K → Prop where
  | zero (soc : X K) : Discharge d dt p 0 soc soc
  | succ {k : ℕ} {soc soc' : X K} {d' : Device K} : Discharge d dt p k soc soc' →
      Device.updateSoc { d with p := .fin (p k), soc := some soc' } dt = .ok d' → ∀ x, d'.soc = some x →
      Discharge d dt p (k + 1) soc x

/-- The power planned in stage `k` for the devices of bus `i` together. -/
def busInjection (s : Sim K) (x : Plan K) (k : ℕ) (i : ℤ) : K :=
  ∑ j ∈ Finset.range s.devices.length, if (s.devices[j]?).map Device.busId = some i then power x k j else 0

/-- The DC flow on a line without phase shifter: susceptance `x / (r² + x²)`, divided by the tap ratio, times
the difference `θ` of the angles at its ends. -/
noncomputable def dcLine (l : LineC) (θ : ℝ) : ℝ := l.x / (l.r ^ 2 + l.x ^ 2) / l.tapMagn * θ

/-- The DC flows leaving bus `i`, if the angle of bus `j` is `θ j`. -/
noncomputable def dcLeaving (ls : List LineC) (θ : ℤ → ℝ) (i : ℤ) : ℝ :=
  (ls.map fun l => (if l.fBus = i then dcLine l (θ l.fBus - θ l.tBus) else 0) +
    (if l.tBus = i then dcLine l (θ l.tBus - θ l.fBus) else 0)).sum

/-- What a plan has to satisfy in stage `k` of an optimisation from the states of charge `soc` with the
forecasts `load` and `gen` (one row for each device, one column for each stage). -/
structure PlanAt (s : Sim ℝ) (ls : List LineC) (δ : ℝ) (load gen : List (List (X ℝ))) (soc : List ℝ) (x : Plan ℝ)
    (k : ℕ) : Prop where
  /-- The devices of each bus inject what the branches carry away. -/
  flow : ∀ b ∈ s.buses, busInjection s x k b.id = dcLeaving ls (fun j => angle x k j.toNat) b.id
  /-- Loads get their forecasts. -/
  load : ∀ (i j : ℕ) (d : Device ℝ) (row : List (X ℝ)) (v : X ℝ), (s.devices.filter fun d => d.kind = .load)[i]? = some d → s.devices[j]? = some d →
    load[i]? = some row → row[k]? = some v → v = .fin (power x k j)
  /-- Generators other than the slack respect their limits and their forecasts. -/
  gen : ∀ (i j : ℕ) (d : Device ℝ) (row : List (X ℝ)) (v : X ℝ), (s.devices.filter fun d => (d.kind = .classical ∨ d.kind = .renewable) ∧ d.isSlack = false)[i]? = some d →
    s.devices[j]? = some d → gen[i]? = some row → row[k]? = some v →
    d.pMin ≤ .fin (power x k j) ∧ .fin (power x k j) ≤ d.pMax ∧ .fin (power x k j) ≤ v
  /-- Storage units respect their limits, and their power is the difference of what they discharge and what
  they charge. -/
  des : ∀ (i j : ℕ) (d : Device ℝ), (s.devices.filter fun d => d.kind = .storage)[i]? = some d → s.devices[j]? = some d →
    d.pMin ≤ .fin (power x k j) ∧ .fin (power x k j) ≤ d.pMax ∧ 0 ≤ (x k).ch i ∧ 0 ≤ (x k).dis i ∧
    power x k j = (x k).dis i - (x k).ch i
  /-- Planned states of charge are within the limits. -/
  soc : ∀ (i : ℕ) (d : Device ℝ) (z η : ℝ), (s.devices.filter fun d => d.kind = .storage)[i]? = some d → soc[i]? = some z → d.eff = .fin η →
    d.socMin ≤ .fin (plannedSoc x i δ η z (k + 1)) ∧ .fin (plannedSoc x i δ η z (k + 1)) ≤ d.socMax
  /-- Angles are between `-π` and `π`. -/
  ang : ∀ j < s.buses.length, -Real.pi ≤ angle x k j ∧ angle x k j ≤ Real.pi
  /-- The angle at the position of the slack device is 0. -/
  ref : ∀ (j : ℕ) (d : Device ℝ), s.devices[j]? = some d → d.isSlack = true → angle x k j = 0

/-- The cost of stage `k` of a plan: the power of the conventional generators (including the slack), and `lam` times
the violations of the fraction `β` of the branch limits (`rate`, `none` if there is no limit). -/
noncomputable def stageCost (s : Sim ℝ) (ls : List LineC) (lam β : ℝ) (rate : LineC → Option ℝ) (x : Plan ℝ) (k : ℕ) : ℝ :=
  (∑ j ∈ Finset.range s.devices.length, if (s.devices[j]?).map Device.kind = some .classical then power x k j else 0) +
  lam * (ls.map fun l => (rate l).elim 0 fun r =>
    max 0 (|dcLine l (angle x k l.fBus.toNat - angle x k l.tBus.toNat)| - β * r)).sum

end Anm.Spec
