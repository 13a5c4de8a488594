import Verif.Model.Anm6
import Verif.Model.Mpc

/-!
# The scripts in `examples/`

`random_agent.py`, `mpc_constant.py` and `mpc_perfect.py`.  Not modelled: the wrappers that `gym.make` puts
around the environment, `time.sleep` and `print`.  The actions sampled from the action space and the behaviour
of the display are parameters; the name of the module in `gym.make` plays no role.
-/

namespace Anm

variable {K ρ : Type} [Field K] [LinearOrder K] [FloorRing K]

namespace Anm6

/-- `ANM6.render` (`anm6.py:46-111`) on the whole object: the frame that is displayed, if any.  The first message is
composed before the servers are started (`:88-90`, `:158-183`), the frame before it is sent (`:101-111`). -/
def render (a : Anm6 K ρ) (w : World) (title mode : String) (skip : ℤ) : Anm6 K ρ × Except PyErr (Option (Frame K)) :=
  let first : Except PyErr Unit :=
    if a.screen.mode = none ∧ mode = "human" then (a.firstMessage title).map fun _ => () else .ok ()
  match first with
  | .error e => ({ a with screen := { a.screen with mode := some mode, skipped := 0 } }, .error e)
  | .ok _ =>
    let r := a.screen.render (match a.frame with | .ok _ => w | .error e => { w with update := some e }) mode skip
    ({ a with screen := r.1 },
      match r.2 with
      | .error e => .error e
      | .ok false => .ok none
      | .ok true => a.frame.map some)

end Anm6

/-- The loop of `random_agent.py` (`random_agent.py:16-23`): what `step` returned and what was displayed. -/
def randomLoop (c : EnvCtx K ρ) (g : Rng K ρ) (w : World) :
    Anm6 K ρ → List (List (X K)) → Except PyErr (Anm6 K ρ × List (Env.StepOut K × Option (Frame K)))
  | a, [] => .ok (a, [])
  | a, u :: us => do
    let (a, o) ← a.step c u                                                 -- :18
    let (a, f) := a.render w "ANM6Easy" "human" 0                           -- :19
    let f ← f
    let a ← if o.terminated then (do let (a, _) ← a.easyReset c g none none; pure a) else pure a -- :22-23
    let (a, l) ← randomLoop c g w a us
    pure (a, (o, f) :: l)

/-- `random_agent.py` (`random_agent.py:12-24`), for any number of iterations; `us` are the sampled actions. -/
def randomScript (c : EnvCtx K ρ) (g : Rng K ρ) (w : World) (args : EnvArgs K) (us : List (List (X K))) :
    Except PyErr (Anm6 K ρ × List (Env.StepOut K × Option (Frame K))) := do
  let a ← mkAnm6 c args                                                     -- :13
  let (a, _) ← a.easyReset c g none none                                    -- :14
  let (a, l) ← randomLoop c g w a us                                        -- :16-23
  let (s, r) := a.screen.close                                              -- :24
  let _ ← r
  pure ({ a with screen := s }, l)

/-- The loop of the MPC scripts (`mpc_constant.py:24-27`, `mpc_perfect.py:23-26`; the line numbers below are those of
`mpc_constant.py`). -/
def mpcLoop (c : EnvCtx K ρ) (cv : Cvx K) (pi : K) (m : Mpc K) (perfect : Bool) :
    ℕ → Anm6 K ρ → Except PyErr (Anm6 K ρ × List (Env.StepOut K))
  | 0, a => .ok (a, [])
  | n + 1, a =>
    match a.env.dyn with
    | none => .error .attributeError
    | some y => do
      let fc ← if perfect then m.perfectForecast y.state else m.constantForecast a.env.sim
      let u ← m.act cv pi a.env.sim fc                                      -- :25
      let (a, o) ← a.step c u                                               -- :26
      let (a, l) ← mpcLoop c cv pi m perfect n a
      pure (a, o :: l)

/-- `mpc_constant.py:15-27` and `mpc_perfect.py:14-26`, for any safety margin, number of planning steps and number
of iterations; `Y` is the imaginary part of the admittance matrix. -/
def mpcScript (c : EnvCtx K ρ) (g : Rng K ρ) (args : EnvArgs K) (cv : Cvx K) (pi : K) (Y : ℕ → ℕ → K) (perfect : Bool)
    (margin : X K) (steps n : ℕ) : Except PyErr (Anm6 K ρ × List (Env.StepOut K)) := do
  let a ← mkAnm6 c args                                                     -- :16
  let (a, _) ← a.easyReset c g none none                                    -- :17
  let m ← mkMpc cv a.env.sim Y a.env.actionSpace a.env.gamma margin steps   -- :20-21
  mpcLoop c cv pi m perfect n a                                             -- :24-27

end Anm
