import Verif.Model.Env

/-! # The updates of one time step with rounded arithmetic

The rest of the model computes with exact numbers.  The definitions below are the same functions with a rounding
`fl` after every arithmetic operation, in the order in which python evaluates it.  `fl` is arbitrary here; the
assumptions that the theorems need are those of `Spec.IsRounding`.  Comparison, negation, `np.abs`, `np.sign`,
`np.maximum` and `np.clip` are exact on floats and are not rounded. -/

namespace Anm

variable {K : Type} [Field K] [LinearOrder K]

namespace Device

/-- `Load.map_pq` (`devices.py:156-167`), rounded. -/
def mapLoadR (fl : X K → X K) (d : Device K) (p : X K) : Device K :=
  let p' := X.clip p d.pMin d.pMax
  { d with p := p', q := fl (p' * d.qpRatio) }

/-- `StorageUnit.update_soc` (`devices.py:524-545`), rounded: `delta_t * self.eff * self.p` is evaluated from the
left, and so is `delta_t * self.p / self.eff`. -/
def updateSocR (fl : X K → X K) (d : Device K) (dt : X K) : Except PyErr (Device K) :=
  match d.soc with
  | none => .error .typeError
  | some soc =>
    let soc' := if d.p ≤ 0 then fl (soc - fl (fl (dt * d.eff) * d.p)) else fl (soc - fl (fl (dt * d.p) / d.eff))
    .ok { d with soc := some (X.clip soc' d.socMin d.socMax) }

end Device

namespace Sim

/-- The device loop of `transition` (`simulator.py:503-523`) for one device, rounded.  The right-hand sides of the
storage constraints (`devices.py:511-512`) are left exact: they are only seen by the solver of the projection, which
is an arbitrary function in the theorems, so that their rounding is part of that function. -/
def stepDeviceR (fl : X K → X K) (qp : QP K) (baseMVA dt : X K) (a : Args K) (d : Device K) :
    Except PyErr (Device K) :=
  if d.isLoad then do                                                       -- :506-507
    let x ← a.pLoad.getE d.id
    pure (d.mapLoadR fl (fl (x / baseMVA)))
  else if d.isNonSlackGen then do                                           -- :510-512
    let pot ← a.pPot.getE d.id
    let d := d.setPPot (X.clip (fl (pot / baseMVA)) d.pMin d.pMax)
    let p ← a.pSet.getE d.id
    let q ← a.qSet.getE d.id
    d.mapGen qp (fl (p / baseMVA)) (fl (q / baseMVA))
  else if d.isStorage then do                                               -- :516-518
    let p ← a.pSet.getE d.id
    let q ← a.qSet.getE d.id
    let d ← d.mapStorage qp (fl (p / baseMVA)) (fl (q / baseMVA)) dt
    d.updateSocR fl dt
  else if d.isSlack then pure { d with p := 0, q := 0 }                     -- :521-523
  else pure d

/-- `_get_bus_total_injections` (`simulator.py:539-549`), rounded. -/
def busInjectionsR (fl : X K → X K) (devices : List (Device K)) (b : Bus K) : Bus K :=
  let here := devices.filter (fun d => d.busId = b.id)
  { b with p := here.foldl (fun a d => fl (a + d.p)) 0, q := here.foldl (fun a d => fl (a + d.q)) 0 }

/-- Steps 1-5 of `transition` (`simulator.py:503-529`), rounded.  The load flow is the arbitrary function `c.pf`. -/
def solveStepR (fl : X K → X K) (c : Ctx K) (s : Sim K) (a : Args K) : Except PyErr (Sim K) := do
  let devices ← mapE (stepDeviceR fl c.qp s.baseMVA s.deltaT a) s.devices
  let s := { s with devices, buses := s.buses.map (busInjectionsR fl devices) }
  let o ← c.pf s.pfIn
  let s ← s.applyPF o
  pure { s with pfeConverged := some o.stable }

/-- Contribution of a device to `e_loss` (`simulator.py:660-665`), rounded. -/
def eLossStepR (fl : X K → X K) (e : X K) (d : Device K) : X K :=
  let e := if d.isGen || d.isLoad then fl (e + d.p) else e                  -- :661-662
  if d.isRenewable then fl (e + X.maximum 0 (fl (d.pPot - d.p))) else e     -- :664-665

/-- Contribution of a bus to the penalty (`simulator.py:672-673`), rounded. -/
def busPenaltyR (fl : X K → X K) (b : Bus K) : Except PyErr (X K) :=
  match b.vMin with
  | none => .error .typeError
  | some vMin => .ok (fl (X.maximum 0 (fl (b.v.abs - b.vMax)) + X.maximum 0 (fl (vMin - b.v.abs))))

/-- Contribution of a branch to the penalty (`simulator.py:676`), rounded. -/
def branchPenaltyR (fl : X K → X K) (b : Branch K) : X K :=
  X.maximum 0 (fl (X.abs b.flow.sApparentMax - b.line.rate))

/-- `_compute_reward` (`simulator.py:638-683`), rounded: `(reward, e_loss, penalty)`. -/
def computeRewardR (fl : X K → X K) (s : Sim K) : Except PyErr (X K × X K × X K) := do
  let eLoss := fl (s.devices.foldl (eLossStepR fl) 0 * s.deltaT)            -- :659-667
  let bp ← mapE (busPenaltyR fl) s.buses                                    -- :670-673
  let pen := bp.foldl (fun a x => fl (a + x)) 0
  let pen := s.branches.foldl (fun a b => fl (a + branchPenaltyR fl b)) pen -- :675-676
  let pen := fl (pen * fl (s.deltaT * s.lamb))                              -- :678
  pure (-(fl (eLoss + pen)), eLoss, pen)                                    -- :681-683

end Sim

/-- The clipped costs and the reward of a step that does not terminate (`anm_env.py:425-427`), rounded:
`(reward, e_loss, penalty)`. -/
def rewardOfR (fl : X K → X K) (c1 c2 eLoss penalty : X K) : X K × X K × X K :=
  let el := fl (X.sign eLoss * X.clip (X.abs eLoss) 0 c1)                   -- :425
  let p := X.clip penalty 0 c2                                              -- :426
  (-(fl (el + p)), el, p)                                                   -- :427

end Anm
