import Verif.Model.Anm6
import Verif.Model.LoadFlow

/-! # Model of `gym_anm/agents` (`mpc.py`, `mpc_constant.py`, `mpc_perfect.py`)

The N-stage optimisation problem is modelled as a list of constraints and an objective on plans; cvxpy and
its solvers are an oracle. -/

namespace Anm

section
variable {K : Type} [Field K] [LinearOrder K]

/-! ## Plans, expressions and constraints -/

/-- Values of the variables of one stage (`mpc.py:231-232`, `:285-286`): voltage angles by bus index, active
powers by device index, and charging and discharging powers by storage unit. -/
structure Stage (K : Type) where
  ang : ℕ → K
  p : ℕ → K
  ch : ℕ → K
  dis : ℕ → K

/-- Values of the variables of all stages. -/
abbrev Plan (K : Type) := ℕ → Stage K

/-- A cvxpy expression: its value as a function of the variables. -/
abbrev Expr (K : Type) := Plan K → X K

/-- A cvxpy constraint: whether the values satisfy it. -/
abbrev Constr (K : Type) := Plan K → Bool

/-- `a == b` and `a <= b`. -/
def Expr.eq (a b : Expr K) : Constr K := fun x => decide (X.feq (a x) (b x))
def Expr.le (a b : Expr K) : Constr K := fun x => decide (a x ≤ b x)

/-- A constant. -/
def Expr.const (c : X K) : Expr K := fun _ => c

/-- `a + b`, `a - b`, `a * b`. -/
def Expr.add (a b : Expr K) : Expr K := fun x => a x + b x
def Expr.sub (a b : Expr K) : Expr K := fun x => a x - b x
def Expr.mul (a b : Expr K) : Expr K := fun x => a x * b x

/-- `_make_list_eq_constraints` (`mpc.py:422-430`), for lists of the same length. -/
def eqConstrs (a b : List (Expr K)) : List (Constr K) := List.zipWith Expr.eq a b

/-- `_make_list_le_constraints` (`mpc.py:433-441`), for lists of the same length. -/
def leConstrs (a b : List (Expr K)) : List (Constr K) := List.zipWith Expr.le a b

/-- `sum`, starting from `0.0`. -/
def Expr.sum (l : List (Expr K)) : Expr K := l.foldl Expr.add (.const 0)

/-! ## The agent -/

/-- The attributes of an `MPCAgent`. -/
structure Mpc (K : Type) where
  margin : X K
  baseMVA : X K
  lamb : X K
  low : List (X K)
  high : List (X K)
  steps : ℕ
  gamma : X K
  deltaT : X K
  loadIds : List ℤ
  genIds : List ℤ
  nonSlackGenIds : List ℤ
  genRerIds : List ℤ
  desIds : List ℤ
  branchIds : List (ℤ × ℤ)
  deviceIds : List ℤ
  busIds : List ℤ
  slackDevId : ℤ
  devToBus : List (ℤ × ℤ)
  /-- `B_bus`. -/
  B : ℕ → ℕ → K
  rates : List (X K)
  pGenMin : List (X K)
  pGenMax : List (X K)
  pDesMin : List (X K)
  pDesMax : List (X K)
  socMin : List (X K)
  socMax : List (X K)
  desEff : List (X K)

/-- External code: whether `cp.Parameter` accepts a shape with a zero, whether a value is accepted for the
parameters, and the values of `P_dev` of the first stage after `solve`, if there are any. -/
structure Cvx (K : Type) where
  emptyOk : Bool
  accept : List (List (X K)) → List (List (X K)) → List (X K) → Except PyErr Unit
  solve : List (Constr K) → Expr K → Except PyErr (Option (List (X K)))

/-- `l[0]`. -/
def firstE {α : Type} : List α → Except PyErr α
  | [] => .error .indexError
  | a :: _ => .ok a

/-- `MPCAgent.__init__` (`mpc.py:32-123`); `Y` is the imaginary part of `Y_bus`, of which the rows and
columns `bus_id_mapping[i]` are taken (`:110-111`). -/
def mkMpc (cv : Cvx K) (s : Sim K) (Y : ℕ → ℕ → K) (box : Box K) (gamma margin : X K) (steps : ℕ) :
    Except PyErr (Mpc K) := do
  let ids := fun f : Device K → Bool => (s.devices.filter f).map Device.id
  let deviceIds := s.devices.map Device.id
  let desIds := ids Device.isStorage
  let nonSlack := ids Device.isNonSlackGen
  let loadIds := ids Device.isLoad
  let slack ← firstE (deviceIds.filter fun i => i ∉ desIds ∧ i ∉ nonSlack ∧ i ∉ loadIds) -- :78-82
  guardE (cv.emptyOk = true ∨ (steps ≠ 0 ∧ loadIds ≠ [] ∧ nonSlack ≠ [] ∧ desIds ≠ [])) .valueError -- :105-107
  let gens := s.devices.filter Device.isNonSlackGen
  let des := s.devices.filter Device.isStorage
  let busIds := s.buses.map Bus.id
  let rows := busIds.map fun i => busIds.idxOf i                            -- :110
  pure { margin, baseMVA := s.baseMVA, lamb := s.lamb, low := box.low, high := box.high, steps, gamma
         deltaT := s.deltaT, loadIds, genIds := ids Device.isGen, nonSlackGenIds := nonSlack
         genRerIds := ids Device.isRenewable, desIds
         branchIds := s.branches.map fun b => (b.line.fBus, b.line.tBus), deviceIds
         busIds, slackDevId := slack
         devToBus := s.devices.map fun d => (d.id, d.busId)
         B := fun k l => Y (rows.getD k 0) (rows.getD l 0)
         rates := s.branches.map fun b => b.line.rate
         pGenMin := gens.map Device.pMin, pGenMax := gens.map Device.pMax
         pDesMin := des.map Device.pMin, pDesMax := des.map Device.pMax
         socMin := des.map Device.socMin, socMax := des.map Device.socMax, desEff := des.map Device.eff }

namespace Mpc
variable (m : Mpc K)

/-- `self.n_bus`, `self.n_dev` (`mpc.py:60-61`). -/
def nBus : ℕ := m.busIds.length
def nDev : ℕ := m.deviceIds.length

/-- `self.bus_id_mapping[i]` and `self.dev_id_mapping[i]` (`mpc.py:91-98`); all keys used exist. -/
def busIdx (i : ℤ) : ℕ := m.busIds.idxOf i
def devIdx (i : ℤ) : ℕ := m.deviceIds.idxOf i

/-- `V_bus_ang[i]` and `P_dev[i]` of stage `k`. -/
def ang (k i : ℕ) : Expr K := fun x => .fin ((x k).ang i)
def pDev (k i : ℕ) : Expr K := fun x => .fin ((x k).p i)

/-- `P_dev[self.dev_id_mapping[i]]`. -/
def pOf (k : ℕ) (i : ℤ) : Expr K := pDev k (m.devIdx i)

/-- `_create_p_bus_expressions` (`mpc.py:125-140`): the sums over the devices of each bus. -/
def pBus (k : ℕ) : List (Expr K) :=
  (List.range m.nBus).map fun b =>
    .sum ((m.devToBus.filter fun d => m.busIdx d.2 = b).map fun d => m.pOf k d.1)

/-- `self.B_bus[i, j] * (V_bus_ang[i] - V_bus_ang[j])`. -/
def dcFlow (k i j : ℕ) : Expr K := .mul (.const (.fin (m.B i j))) (.sub (ang k i) (ang k j))

/-- `_create_p_branch_expressions` (`mpc.py:142-159`). -/
def pBranch (k : ℕ) : List (Expr K) :=
  m.branchIds.map fun b => m.dcFlow k (m.busIdx b.1) (m.busIdx b.2)

/-- The right-hand sides of the nodal balance (`mpc.py:242-252`): the flows to the
other ends of the branches of each bus. -/
def outflow (k : ℕ) : List (Expr K) :=
  m.busIds.map fun i => .sum (m.branchIds.map fun b =>
    if b.1 = i then m.dcFlow k (m.busIdx b.1) (m.busIdx b.2)
    else if b.2 = i then m.dcFlow k (m.busIdx b.2) (m.busIdx b.1)
    else .const 0)

/-- The new states of charge (`mpc.py:284-290`). -/
def newSocs (k : ℕ) (soc : List (Expr K)) : List (Expr K) :=
  List.zipWith (fun (i : ℕ) (se : Expr K × X K) => fun x : Plan K =>
    se.1 x + .fin ((x k).ch i) * m.deltaT * se.2 + -(.fin ((x k).dis i)) * m.deltaT / se.2)
    (List.range m.desIds.length) (List.zip soc m.desEff)

/-- The links between the power of a storage unit and its charging and discharging powers, which are
non-negative variables (`mpc.py:285-286`, `:291`). -/
def desLinks (k : ℕ) : List (Constr K) :=
  List.zipWith (fun (i : ℕ) (d : ℤ) => fun x : Plan K => decide (0 ≤ (x k).ch i ∧ 0 ≤ (x k).dis i ∧
    X.feq (m.pOf k d x) (.fin ((x k).dis i - (x k).ch i)))) (List.range m.desIds.length) m.desIds

/-- The constraints of one stage (`mpc.py:238-302`); `pi` is `np.pi`.  Raises `IndexError` if the index of
the slack device is not the index of a bus (`:302`). -/
def constraints (pi : K) (k : ℕ) (load gen : List (X K)) (soc : List (Expr K)) :
    Except PyErr (List (Constr K)) := do
  guardE (m.devIdx m.slackDevId < m.nBus) .indexError
  let pGen := m.nonSlackGenIds.map (m.pOf k)
  let pDes := m.desIds.map (m.pOf k)
  let angs := (List.range m.nBus).map (ang k)
  let consts := fun l : List (X K) => l.map Expr.const
  pure (eqConstrs (m.outflow k) (m.pBus k) ++                               -- :242-253
    eqConstrs (m.loadIds.map (m.pOf k)) (consts load) ++                    -- :256-259
    leConstrs (consts m.pGenMin) pGen ++ leConstrs pGen (consts m.pGenMax) ++ -- :262-266
    leConstrs (consts m.pDesMin) pDes ++ leConstrs pDes (consts m.pDesMax) ++ -- :269-273
    leConstrs pGen (consts gen) ++                                          -- :276-279
    m.desLinks k ++                                                         -- :293
    leConstrs (consts m.socMin) (m.newSocs k soc) ++                        -- :294
    leConstrs (m.newSocs k soc) (consts m.socMax) ++                        -- :295
    leConstrs (List.replicate m.nBus (.const (.fin (-pi)))) angs ++         -- :298
    leConstrs angs (List.replicate m.nBus (.const (.fin pi))) ++            -- :299
    [Expr.eq (ang k (m.devIdx m.slackDevId)) (.const 0)])                   -- :302

/-- The objective of one stage (`mpc.py:305-314`). -/
def cost (k : ℕ) : Expr K :=
  .add (.sum ((m.genIds.filter fun i => i ∉ m.genRerIds).map (m.pOf k)))
    (.mul (.const m.lamb) (.sum (List.zipWith (fun (p : Expr K) r => fun x =>
      X.maximum 0 (X.abs (p x) - m.margin * r)) (m.pBranch k) m.rates)))

/-- `x ** n`. -/
def pow (x : X K) : ℕ → X K
  | 0 => .fin 1
  | n + 1 => pow x n * x

/-- The loop of `_create_optimization_problem` (`mpc.py:177-191`) from stage `k` on, with `n` stages left;
`load` and `gen` are the parameters, one row for each device. -/
def stages (pi : K) (load gen : List (List (X K))) : ℕ → ℕ → List (Expr K) →
    Except PyErr (List (Constr K) × Expr K)
  | _, 0, _ => .ok ([], .const 0)
  | k, n + 1, soc => do
    let col := fun rows : List (List (X K)) => rows.map fun r => r.getD k .nan
    let cs ← m.constraints pi k (col load) (col gen) soc
    let (cs', obj) ← stages pi load gen (k + 1) n (m.newSocs k soc)
    pure (cs ++ cs', .add (.mul (.const (pow m.gamma k)) (m.cost k)) obj)

/-- `_create_optimization_problem` (`mpc.py:161-200`).  Raises `IndexError` at the end if there is no
stage. -/
def problem (pi : K) (load gen : List (List (X K))) (soc : List (X K)) :
    Except PyErr (List (Constr K) × Expr K) := do
  let r ← m.stages pi load gen 0 m.steps (soc.map .const)
  guardE (m.steps ≠ 0) .indexError                                          -- :197
  pure r

/-- The states of charge read by `_update_parameters` (`mpc.py:419`). -/
def socs (s : Sim K) : Except PyErr (List (X K)) :=
  match s.state with
  | none => .error .typeError
  | some st => mapE (fun i => do
      let d ← st.getE .desSoc
      let e ← d.getE .pu
      e.getE (.node i)) m.desIds

/-- `_solve` (`mpc.py:372-393`).  The problem, created in the first call and kept, depends on the forecasts
and states of charge through its parameters; whether an exception is raised does not depend on them. -/
def solve (cv : Cvx K) (pi : K) (s : Sim K) (load gen : List (List (X K))) : Except PyErr (List (X K)) := do
  let _ ← m.problem pi [] [] []                                             -- :376-377
  let soc ← m.socs s                                                        -- :419
  cv.accept load gen soc                                                    -- :415-419
  let (cs, obj) ← m.problem pi load gen soc
  let r ← cv.solve cs obj                                                   -- :383
  match r with
  | none => .error .typeError                                               -- :388 (`None[...]`)
  | some v => do
    let pGen ← mapE (fun i => do let x ← Sim.idx v (m.devIdx i); pure (x * m.baseMVA)) m.nonSlackGenIds
    let pDes ← mapE (fun i => do let x ← Sim.idx v (m.devIdx i); pure (x * m.baseMVA)) m.desIds
    pure (pGen ++ pGen.map (fun _ => 0) ++ pDes ++ pDes.map (fun _ => 0))   -- :388-393

/-- `act` (`mpc.py:321-343`) with the results of `forecast`.  `np.clip` raises `ValueError` if the lengths
differ (broadcasting of bounds of length 1 is not modelled). -/
def act (cv : Cvx K) (pi : K) (s : Sim K) (forecast : List (List (X K)) × List (List (X K))) :
    Except PyErr (List (X K)) := do
  let a ← m.solve cv pi s forecast.1 forecast.2
  guardE (a.length = m.low.length ∧ a.length = m.high.length) .valueError
  pure (Env.clipVec a m.low m.high)                                         -- :341

/-! ## Forecasts -/

/-- The values of one quantity of the state, in per-unit, for given devices (`mpc_constant.py:26`, `:29`). -/
def present (s : Sim K) (key : Key) (ids : List ℤ) : Except PyErr (List (X K)) :=
  match s.state with
  | none => .error .typeError
  | some st => mapE (fun i => do
      let d ← st.getE key
      let e ← d.getE .pu
      e.getE (.node i)) ids

/-- `MPCAgentConstant.forecast` (`mpc_constant.py:21-35`): the transpose of `planning_steps` copies. -/
def constantForecast (s : Sim K) : Except PyErr (List (List (X K)) × List (List (X K))) := do
  let l ← present s .devP m.loadIds                                         -- :26
  let g ← present s .genPMax m.nonSlackGenIds                               -- :29
  pure (l.map fun x => List.replicate m.steps x, g.map fun x => List.replicate m.steps x) -- :32-33

/-- The loop of `MPCAgentPerfect.forecast` (`mpc_perfect.py:30-32`), run at most `fuel` times: both arrays
are extended by one day until the loads reach `tEnd`. -/
def extend (tEnd : ℕ) : ℕ → List (List (X K)) × List (List (X K)) → List (List (X K)) × List (List (X K))
  | 0, r => r
  | fuel + 1, r =>
    if tEnd > ((r.1.head?).getD []).length then
      extend tEnd fuel (List.zipWith (· ++ ·) r.1 pLoads, List.zipWith (· ++ ·) r.2 pMaxs)
    else r

/-- `MPCAgentPerfect.forecast` (`mpc_perfect.py:21-40`) in a state of ANM6Easy, whose last component is not
negative.  The loop ends after at most `tEnd` iterations. -/
def perfectForecast [FloorRing K] (st : List (X K)) : Except PyErr (List (List (X K)) × List (List (X K))) := do
  let x ← pyGet st (-1)
  let t ← x.toInt
  let start := (t + 1).toNat                                                -- :23
  let stop := start + m.steps                                               -- :24
  let r := extend stop stop (pLoads, pMaxs)
  let cut := fun rows : List (List (X K)) => rows.map fun r => (Sim.slice r start stop).map (· / m.baseMVA)
  pure (cut r.1, cut r.2)                                                   -- :35-38

end Mpc
end

/-- `simulator.Y_bus.imag` (`mpc.py:111`) of a simulator whose lines have finite parameters. -/
noncomputable def bBus (ls : List LineC) (i j : ℕ) : ℝ := (ybus ls i j).im

end Anm
