import Verif.Model.Env
import Verif.Props.State

/-! # Specification vocabulary for environments -/

namespace Anm.Spec

variable {K ρ : Type} [Field K] [LinearOrder K]

/-- One successful call of `reset` or `step` on an environment object, or other code that draws from its
generator `np_random`. -/
def EnvCall (c : EnvCtx K ρ) (e e' : Env K ρ) : Prop :=
  (∃ seed obs, e.reset c seed = .ok (e', obs)) ∨ (∃ a out, e.step c a = .ok (e', out)) ∨
    ∃ r, e' = { e with rng := r }

/-- Any history of calls. -/
def EnvHistory (c : EnvCtx K ρ) : Env K ρ → Env K ρ → Prop := Relation.ReflTransGen (EnvCall c)

/-- `e` is an environment constructed from the arguments `a`, possibly after some use. -/
def EnvOf [FloorRing K] (c : EnvCtx K ρ) (a : EnvArgs K) (e : Env K ρ) : Prop :=
  ∃ e0, mkEnv c a = .ok e0 ∧ EnvHistory c e0 e

/-- Successive calls of `step` with the given actions, and what they return. -/
inductive Episode (c : EnvCtx K ρ) : Env K ρ → List (List (X K)) → List (Env.StepOut K) → Env K ρ → Prop where
  | nil (e : Env K ρ) : Episode c e [] [] e
  | cons {e e1 e' : Env K ρ} {a : List (X K)} {as : List (List (X K))} {o : Env.StepOut K}
      {os : List (Env.StepOut K)} :
      e.step c a = .ok (e1, o) → Episode c e1 as os e' → Episode c e (a :: as) (o :: os) e'

/-- The layout of a state vector: the MW entries of `dev_p`, the MVAr entries of `dev_q`, the MWh entries
of `des_soc` and the MW entries of `gen_p_max` in the order of the devices (increasing ID), then `aux`. -/
def StateLayout (s : Sim K) (v aux : List (X K)) : Prop :=
  ∃ st p q soc g, s.state = some st ∧ v = p ++ q ++ soc ++ g ++ aux ∧
    List.Forall₂ (fun d x => reading st .devP .mw (.node d.id) = some x) s.devices p ∧
    List.Forall₂ (fun d x => reading st .devQ .mvar (.node d.id) = some x) s.devices q ∧
    List.Forall₂ (fun d x => reading st .desSoc .mwh (.node d.id) = some x)
      (s.devices.filter Device.isStorage) soc ∧
    List.Forall₂ (fun d x => reading st .genPMax .mw (.node d.id) = some x)
      (s.devices.filter Device.isNonSlackGen) g

/-- The last `k` elements of a list. -/
def lastN {α : Type} (k : ℕ) (v : List α) : List α := v.drop (v.length - k)

/-! ### Observation lists -/

/-- The quantities of the documentation with their units; the first unit of a quantity is its default. -/
def quantities : List (Key × List QUnit) :=
  [(.busP, [.mw, .pu]), (.busQ, [.mvar, .pu]), (.busVMagn, [.pu, .kv]), (.busVAng, [.degree, .rad]),
   (.busIMagn, [.pu, .ka]), (.busIAng, [.degree, .rad]), (.devP, [.mw, .pu]), (.devQ, [.mvar, .pu]),
   (.desSoc, [.mwh, .pu]), (.genPMax, [.mw, .pu]), (.branchP, [.mw, .pu]), (.branchQ, [.mvar, .pu]),
   (.branchS, [.mva, .pu]), (.branchIMagn, [.pu]), (.branchIAng, [.degree, .rad]), (.aux, [.none])]

/-- `u` is a unit of the quantity `key`. -/
def HasUnit (key : Key) (u : QUnit) : Prop := ∃ us, (key, us) ∈ quantities ∧ u ∈ us

/-- `u` is the default unit of the quantity `key`. -/
def IsDefault (key : Key) (u : QUnit) : Prop := ∃ us, (key, u :: us) ∈ quantities

/-- The quantity `key` exists at `i`, in a network with `k` auxiliary variables. -/
def Located (s : Sim K) (k : ℤ) (key : Key) (i : Ident) : Prop :=
  (key ∈ [.busP, .busQ, .busVMagn, .busVAng, .busIMagn, .busIAng] ∧ ∃ b ∈ s.buses, i = .node b.id) ∨
  (key ∈ [.devP, .devQ] ∧ ∃ d ∈ s.devices, i = .node d.id) ∨
  (key = .desSoc ∧ ∃ d ∈ s.devices, d.isStorage = true ∧ i = .node d.id) ∨
  (key = .genPMax ∧ ∃ d ∈ s.devices, d.isNonSlackGen = true ∧ i = .node d.id) ∨
  (key ∈ [.branchP, .branchQ, .branchS, .branchIMagn, .branchIAng] ∧
    ∃ b ∈ s.branches, i = .br b.line.fBus b.line.tBus) ∨
  (key = .aux ∧ ∃ n : ℕ, (n : ℤ) < k ∧ i = .node n)

/-- A supported item of an observation list. -/
def Supported (s : Sim K) (k : ℤ) : ObsEntry → Prop
  | .badLength => False
  | .item o =>
    (∃ u, HasUnit o.key u) ∧ (∀ u, o.unit = some u → HasUnit o.key u) ∧
    (o.nodes = .all ∨ ∃ l, o.nodes = .list l ∧ ∀ i ∈ l, Located s k o.key i)

/-- A supported `observation` argument. -/
def SupportedObs (s : Sim K) (k : ℤ) : ObsArg K → Prop
  | .state => True
  | .callable _ => True
  | .list l => ∀ o ∈ l, Supported s k o
  | .other => False

/-- Items about which `check_env_args` is right: auxiliary variables are given by a list of indices that
are not negative (or `"all"`), and the unit of `branch_i_magn` is not one of the strings `""`, `"p"`, `"u"`. -/
def Plain : ObsEntry → Prop
  | .badLength => True
  | .item o =>
    (o.key = .aux → (∀ l, o.nodes ≠ .iter l) ∧ ∀ l, o.nodes = .list l → ∀ i, Ident.node i ∈ l → 0 ≤ i) ∧
    (o.key = .branchIMagn → ∀ x, o.unit = some (.other x) → x ≠ "" ∧ x ≠ "p" ∧ x ≠ "u")

/-- `r` is what the item `o` asks for: its quantity, its unit or the default one, and its IDs or all the
IDs where the quantity exists, each once and in increasing order. -/
def Resolves (s : Sim K) (k : ℤ) : ObsEntry → Reading → Prop
  | .badLength, _ => False
  | .item o, r =>
    r.1 = o.key ∧ (o.unit = some r.2.2 ∨ (o.unit = none ∧ IsDefault o.key r.2.2)) ∧
    (o.nodes = .list r.2.1 ∨
      (o.nodes = .all ∧ r.2.1.Nodup ∧
        r.2.1.Pairwise (fun i j => ∀ m n, i = .node m → j = .node n → m < n) ∧ ∀ i, i ∈ r.2.1 ↔ Located s k o.key i))

/-- `x` is the value of the variable `v` (quantity, unit, ID) in a reported state `st` and a state vector
`state` whose last `k` components are the auxiliary variables. -/
def ReadsAs (st : SimState K) (state : List (X K)) (k : ℕ) (v : Key × QUnit × Ident) (x : X K) : Prop :=
  (v.1 ≠ .aux ∧ reading st v.1 v.2.1 v.2.2 = some x) ∨
  (v.1 = .aux ∧ ∃ n : ℕ, v.2.2 = .node n ∧ (lastN k state)[n]? = some x)

/-- The variables of resolved items, in order. -/
def allVars (vs : List Reading) : List (Key × QUnit × Ident) :=
  (vs.map fun r => r.2.1.map fun i => (r.1, r.2.2, i)).flatten

/-- `b` are the bounds of the variable `v`: those of the bounds dictionary, for an auxiliary variable the
row of `aux_bounds` with its index, or no bounds. -/
def BoundedBy (sb : StateBounds K) (aux : Option (List (X K × X K))) (v : Key × QUnit × Ident) (b : X K × X K) :
    Prop :=
  (v.1 ≠ .aux ∧ bound sb v.1 v.2.1 v.2.2 = some b) ∨
  (v.1 = .aux ∧ ((aux = none ∧ b = (.ninf, .pinf)) ∨
    ∃ l n, aux = some l ∧ v.2.2 = .node (n : ℕ) ∧ l[n]? = some b))

/-- The item does not ask for `branch_i_magn` without a unit. -/
def NamesUnit : ObsEntry → Prop
  | .badLength => True
  | .item o => o.key = .branchIMagn → o.unit ≠ none


end Anm.Spec
