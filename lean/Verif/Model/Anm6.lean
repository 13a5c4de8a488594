import Verif.Model.Env
import Verif.Model.Render
import Mathlib.Data.Rat.Cast.Defs

/-! # Model of `gym_anm/envs/anm6_env` (`network.py`, `utils.py`, `anm6.py`, `anm6_easy.py`)

The sockets are not modelled: `rendering.start` and `rendering.update` are represented by their messages
(`Anm6.firstMessage`, `Anm6.frame`) and by the way they end (`World`). -/

namespace Anm

section
variable {K : Type} [Field K] [LinearOrder K]

/-! ## The network -/

/-- A number of a network file. -/
def cel (x : ℚ) : Cell K := some (.fin (x : K))

/-- `network` (`network.py:49-82`). -/
def anm6Net : Network K :=
  Network.ofLists (.fin 100)
    [[cel 0, cel 0, cel 132, cel 1, cel 1],                                 -- :51-60
     [cel 1, cel 1, cel 33, cel (11/10), cel (9/10)],
     [cel 2, cel 1, cel 33, cel (11/10), cel (9/10)],
     [cel 3, cel 1, cel 33, cel (11/10), cel (9/10)],
     [cel 4, cel 1, cel 33, cel (11/10), cel (9/10)],
     [cel 5, cel 1, cel 33, cel (11/10), cel (9/10)]]
    [[cel 0, cel 1, cel (36/10000), cel (1834/10000), cel 0, cel 32, cel 1, cel 0],
     [cel 1, cel 2, cel (3/100), cel (22/1000), cel 0, cel 25, cel 1, cel 0],
     [cel 1, cel 3, cel (307/10000), cel (621/10000), cel 0, cel 18, cel 1, cel 0],
     [cel 2, cel 4, cel (303/10000), cel (611/10000), cel 0, cel 18, cel 1, cel 0],
     [cel 2, cel 5, cel (159/10000), cel (502/10000), cel 0, cel 18, cel 1, cel 0]]
    [[cel 0, cel 0, cel 0, none, cel 200, cel (-200), cel 200, cel (-200), none, none, none, none, none, none, none],
     [cel 1, cel 3, cel (-1), cel (2/10), cel 0, cel (-10), none, none, none, none, none, none, none, none, none],
     [cel 2, cel 3, cel 2, none, cel 30, cel 0, cel 30, cel (-30), cel 20, none, cel 15, cel (-15), none, none, none],
     [cel 3, cel 4, cel (-1), cel (2/10), cel 0, cel (-30), none, none, none, none, none, none, none, none, none],
     [cel 4, cel 4, cel 2, none, cel 50, cel 0, cel 50, cel (-50), cel 35, none, cel 20, cel (-20), none, none, none],
     [cel 5, cel 5, cel (-1), cel (2/10), cel 0, cel (-30), none, none, none, none, none, none, none, none, none],
     [cel 6, cel 5, cel 3, none, cel 50, cel (-50), cel 50, cel (-50), cel 30, cel (-30), cel 25, cel (-25), cel 100,
      cel 0, cel (9/10)]]

/-! ## The time series -/

/-- `np.linspace(a, b, n)`. -/
def linspace (a b : ℚ) (n : ℕ) : List ℚ :=
  (List.range n).map fun i : ℕ => a + i * ((b - a) / (n - 1))

/-- `np.concatenate((s1, s12, s2, s23, s3, s23[::-1], s2, s12[::-1], s1[:4]))`
(`anm6_easy.py:86`, `:94`, `:102`, `:119`, `:127`), where `s1`, `s2`, `s3` are constant vectors of 25, 13
and 13 elements. -/
def dayOf (v1 v2 v3 : ℚ) (s12 s23 : List ℚ) : List ℚ :=
  let s1 := List.replicate 25 v1
  let s2 := List.replicate 13 v2
  let s3 := List.replicate 13 v3
  s1 ++ s12 ++ s2 ++ s23 ++ s3 ++ s23.reverse ++ s2 ++ s12.reverse ++ s1.take 4

/-- `_get_load_time_series` (`anm6_easy.py:77-107`): devices 1, 3 and 5. -/
def loadSeries : List (List ℚ) :=
  [dayOf (-1) (-5) (-2) (linspace (-1.5) (-4.5) 7) (linspace (-4.625) (-2.375) 7),
   dayOf (-4) (-10) (-20) (linspace (-4.75) (-9.25) 7) (linspace (-11.25) (-18.75) 7),
   dayOf 0 (-25) 0 (linspace (-3.125) (-21.875) 7) (linspace (-21.875) (-3.125) 7)]

/-- `_get_gen_time_series` (`anm6_easy.py:110-132`): devices 2 and 4. -/
def genSeries : List (List ℚ) :=
  [dayOf 0 4 30 (linspace 0.5 3.5 7) (linspace 7.25 36.75 7),
   dayOf 40 11 40 (linspace 36.375 14.625 7) (linspace 14.725 36.375 7)]

/-- A time series as an array of floats. -/
def floats (l : List ℚ) : List (X K) := l.map fun x : ℚ => .fin (x : K)

/-- `self.P_loads` and `self.P_maxs` (`anm6_easy.py:22-23`). -/
def pLoads : List (List (X K)) := loadSeries.map floats
def pMaxs : List (List (X K)) := genSeries.map floats

/-! ## Random numbers -/

/-- The methods of `np.random.Generator` that are used. -/
structure Rng (K ρ : Type) where
  /-- `integers(low, high)`. -/
  integers : ρ → ℤ → ℤ → ℤ × ρ
  /-- `uniform(low, high)`. -/
  uniform : ρ → X K → X K → X K × ρ

/-! ## The hooks of ANM6Easy -/

/-- `a % b` of floats for a finite `b ≠ 0` (NaN for other `b`, which do not occur here). -/
def X.fmod [FloorRing K] : X K → X K → X K
  | .fin a, .fin b => if b = 0 then .nan else .fin (a - b * ⌊a / b⌋)
  | _, _ => .nan

/-- `self.simulator.devices[i]`. -/
def deviceOf (s : Sim K) (i : ℤ) : Except PyErr (Device K) :=
  match s.devices.find? (fun d => d.id = i) with
  | some d => .ok d
  | none => .error .keyError

/-- The loop over the loads of `init_state` (`anm6_easy.py:34-36`); `nDev = 7`. -/
def initLoads (s : Sim K) (t : ℤ) : List (ℤ × List (X K)) → List (X K) → Except PyErr (List (X K))
  | [], v => .ok v
  | (i, series) :: l, v => do
    let p ← pyGet series t
    let v ← pyPut v i p
    let d ← deviceOf s i
    let v ← pyPut v (7 + i) (p * d.qpRatio)
    initLoads s t l v

/-- The loop over the generators of `init_state` (`anm6_easy.py:39-44`); `nDev = 7`, `nDes = 1`.
The reactive power is drawn between the limits of the device, which are in per-unit. -/
def initGens {ρ : Type} (g : Rng K ρ) (s : Sim K) (t : ℤ) : List (ℕ × ℤ × List (X K)) → List (X K) → ρ →
    Except PyErr (List (X K) × ρ)
  | [], v, r => .ok (v, r)
  | (idx, i, series) :: l, v, r => do
    let p ← pyGet series t
    let v ← pyPut v (2 * 7 + 1 + idx) p
    let v ← pyPut v i p
    let d ← deviceOf s i
    let (q, r) := g.uniform r d.qMin d.qMax
    let v ← pyPut v (7 + i) q
    initGens g s t l v r

/-- The loop over the storage units of `init_state` (`anm6_easy.py:47-50`).  The state of charge is drawn
between the limits of the device, which are in per-unit. -/
def initDes {ρ : Type} (g : Rng K ρ) (s : Sim K) : List (ℕ × ℤ) → List (X K) → ρ →
    Except PyErr (List (X K) × ρ)
  | [], v, r => .ok (v, r)
  | (idx, i) :: l, v, r => do
    let d ← deviceOf s i
    let (soc, r) := g.uniform r d.socMin d.socMax
    let v ← pyPut v (2 * 7 + idx) soc
    initDes g s l v r

/-- `24 / self.delta_t` for `delta_t = 0.25`. -/
def dayLength : X K := .fin 24 / .fin (1/4)

/-- `ANM6Easy.init_state` (`anm6_easy.py:25-52`); `s` is `self.simulator`, of which only constants are
read, and `self.K = 1`. -/
def easyInit {ρ : Type} [FloorRing K] (g : Rng K ρ) (s : Sim K) (r : ρ) : Except PyErr (List (X K) × ρ) := do
  let n ← (dayLength (K := K)).toInt
  let (t, r) := g.integers r 0 n                                            -- :30
  let v := Env.zeros (2 * 7 + 1 + 2 + 1)                                    -- :28
  let v ← pyPut v (-1) (.fin (t : K))                                       -- :31
  let v ← initLoads s t (List.zip [1, 3, 5] pLoads) v                       -- :34-36
  let (v, r) ← initGens g s t (List.zip [0, 1] (List.zip [2, 4] pMaxs)) v r -- :39-44
  initDes g s [(0, 6)] v r                                                  -- :47-50

/-- `ANM6Easy.next_vars` (`anm6_easy.py:54-65`). -/
def easyNext [FloorRing K] (st : List (X K)) : Except PyErr (List (X K)) := do
  let x ← pyGet st (-1)
  let t ← (X.fmod (x + .fin 1) dayLength).toInt                             -- :55
  let l ← mapE (fun series => pyGet series t) pLoads                        -- :58-59
  let m ← mapE (fun series => pyGet series t) pMaxs                         -- :60-61
  pure (l ++ m ++ [.fin (t : K)])                                           -- :63-65

/-- External code used by an ANM6Easy environment. -/
structure EasyWorld (K ρ : Type) where
  sim : Ctx K
  box : List (X K) → List (X K) → Except PyErr Unit
  seeded : ℤ → ρ
  fresh : ρ
  rng : Rng K ρ

/-- The hooks and the external code of an ANM6Easy environment whose simulator is `s` (possibly before
some use). -/
def easyCtx {ρ : Type} [FloorRing K] (w : EasyWorld K ρ) (s : Sim K) : EnvCtx K ρ where
  sim := w.sim
  box := w.box
  seeded := w.seeded
  fresh := w.fresh
  initState := easyInit w.rng s
  nextVars := fun st r => (easyNext st).map fun v => (v, r)

/-- The arguments of `ANM6Easy.__init__` (`anm6_easy.py:11-19`). -/
def easyArgs : EnvArgs K where
  network := anm6Net
  observation := .state
  nAux := 1
  deltaT := .fin (1/4)
  gamma := .fin (995/1000)
  lamb := .fin 100
  auxBounds := some [(0, dayLength - .fin 1)]
  clipping := some (some (.fin 1), some (.fin 100))

end

/-! ## Dates

A `datetime` is the number of microseconds since midnight of 1 January of year 1, a `timedelta` is a
number of microseconds (the limits of `timedelta`, a billion days, are not modelled). -/

/-- One day. -/
def dayMicros : ℤ := 24 * 60 * 60 * 1000000

/-- `datetime + timedelta`: raises `OverflowError` outside years 1 to 9999. -/
def dateAdd (d t : ℤ) : Except PyErr ℤ := do
  guardE (0 ≤ d + t ∧ d + t < 3652059 * dayMicros) .overflowError
  pure (d + t)

/-- `datetime.datetime(year, 1, 1)`. -/
def newYear (y : ℤ) : Except PyErr ℤ := do
  guardE (1 ≤ y ∧ y ≤ 9999) .valueError
  pure (((y - 1) * 365 + (y - 1) / 4 - (y - 1) / 100 + (y - 1) / 400) * dayMicros)

/-- `random_date` (`utils.py:5-23`). -/
def randomDate {K ρ : Type} (g : Rng K ρ) (r : ρ) (year : ℤ) : Except PyErr (ℤ × ρ) := do
  let (n, r) := g.integers r 1 365                                          -- :22
  let d ← newYear year
  let d ← dateAdd d (n * dayMicros)                                         -- :23
  pure (d, r)

/-- `timedelta.days`. -/
def days (t : ℤ) : ℤ := t / dayMicros

section
variable {K : Type} [Field K] [LinearOrder K] [FloorRing K]

/-- Rounding to the nearest integer, ties to even. -/
def roundEven (a : K) : ℤ :=
  if a - ⌊a⌋ < 1/2 then ⌊a⌋
  else if 1/2 < a - ⌊a⌋ then ⌊a⌋ + 1
  else if ⌊a⌋ % 2 = 0 then ⌊a⌋ else ⌊a⌋ + 1

/-- `float * timedelta`. -/
def timesDelta (x : X K) (t : ℤ) : Except PyErr ℤ :=
  match x with
  | .fin a => .ok (roundEven (a * t))
  | .nan => .error .valueError
  | _ => .error .overflowError

end

/-! ## Rendering -/

/-- How `rendering.start` and `rendering.update` end: `none`, or the exception raised. -/
structure World where
  start : Option PyErr := none
  update : Option PyErr := none

/-- The attributes of an ANM6 object used for rendering, and the server processes.  `live` says that
`reset` has succeeded, so that the attributes read by `render` exist.  A pair of servers (HTTP and
WebSocket) is identified by a number; `servers` is the pair stored in the object, `running` lists the
pairs of processes that run, `launched` counts the pairs started. -/
structure Screen where
  mode : Option String := none
  skipped : ℤ := 0
  isRendering : Bool := false
  live : Bool := false
  servers : Option ℕ := none
  running : List ℕ := []
  launched : ℕ := 0
deriving DecidableEq

namespace Screen

/-- `_init_render` (`anm6.py:148-187`) and `rendering.start` (`rendering.py:12-107`): the processes are
started first (`rendering.py:53-54`); an exception raised after that leaves them running and the
attributes unset. -/
def launch (s : Screen) (w : World) : Screen × Option PyErr :=
  let n := s.launched
  let s := { s with launched := n + 1, running := n :: s.running }
  match w.start with
  | some e => (s, some e)
  | none => ({ s with servers := some n }, none)

/-- `render` when `render_mode` is set (`anm6.py:97-111`): whether the display was refreshed. -/
def refresh (s : Screen) (w : World) (k : ℤ) : Screen × Except PyErr Bool :=
  if k + 1 = 0 then (s, .error .zeroDivision)
  else
    let s := { s with skipped := Int.fmod (s.skipped + 1) (k + 1) }         -- :97
    if s.skipped ≠ 0 then (s, .ok false)                                    -- :98-99
    else if s.live = false then (s, .error .typeError)                      -- :101-109
    else
      match s.servers with
      | none => (s, .error .attributeError)                                 -- :216
      | some _ =>
        match w.update with
        | some e => (s, .error e)
        | none => (s, .ok true)

/-- `render` (`anm6.py:46-111`). -/
def render (s : Screen) (w : World) (mode : String) (k : ℤ) : Screen × Except PyErr Bool :=
  if s.mode = none then
    if mode ≠ "human" then (s, .error .notImplemented)                      -- :82-83
    else
      let s := { s with mode := some mode, skipped := 0 }                   -- :86-87
      match s.launch w with                                                 -- :90
      | (s, some e) => (s, .error e)
      | (s, none) =>
        match s.refresh w k with                                            -- :93
        | (s, .error e) => (s, .error e)
        | (s, .ok shown) => ({ s with isRendering := true }, .ok shown)     -- :94
  else s.refresh w k

/-- `rendering.close` (`rendering.py:168-181`): the processes that still run. -/
def terminate (s : Screen) : Except PyErr (List ℕ) :=
  match s.servers with
  | none => .error .attributeError
  | some n => .ok (s.running.filter (· ≠ n))

/-- `close` (`anm6.py:229-239`); `is_rendering` stays as it is. -/
def close (s : Screen) : Screen × Except PyErr Unit :=
  if s.isRendering then
    match s.terminate with
    | .ok l => ({ s with running := l, mode := none }, .ok ())
    | .error .attributeError => ({ s with mode := none }, .ok ())           -- :237-238
    | .error e => (s, .error e)
  else ({ s with mode := none }, .ok ())

/-- The effect of `reset` (`anm6.py:124-141`): `ANMEnv.reset` sets `render_mode` to `None`
(`anm_env.py:260`) and it is restored unless `ANMEnv.reset` raises an exception. -/
def reset (s : Screen) (raised : Bool) : Screen :=
  let saved := s.mode                                                       -- :126
  let s := { s with mode := none }                                          -- anm_env.py:260
  if raised then s else { s with mode := saved, live := true }              -- :131

end Screen

/-! ## ANM6 objects -/

section
variable {K ρ : Type} [Field K] [LinearOrder K] [FloorRing K]

/-- An ANM6 object: the environment, `network_specs`, the step length, the calendar and the screen. -/
structure Anm6 (K ρ : Type) where
  env : Env K ρ
  tick : ℤ
  specs : Specs K
  date : Option ℤ := none
  dateInit : Option ℤ := none
  yearCount : ℤ := 0
  screen : Screen := {}

/-- `ANM6.__init__` (`anm6.py:32-44`). -/
def mkAnm6 (c : EnvCtx K ρ) (a : EnvArgs K) : Except PyErr (Anm6 K ρ) := do
  let e ← mkEnv c { a with network := anm6Net }                             -- :34
  let n ← e.sim.renderingSpecs c.sim.pi                                     -- :37
  let m ← (.fin 60 * a.deltaT : X K).toInt                                  -- :38
  pure { env := e, specs := n, tick := m * (60 * 1000000) }

namespace Anm6

/-- `ANM6.step` (`anm6.py:113-122`). -/
def step (c : EnvCtx K ρ) (a : Anm6 K ρ) (action : List (X K)) : Except PyErr (Anm6 K ρ × Env.StepOut K) := do
  let (e, out) ← a.env.step c action                                        -- :114
  match a.date, a.dateInit with
  | some d, some d0 => do
    let d ← dateAdd d a.tick                                                -- :117
    pure ({ a with env := e, date := some d, yearCount := days (d - d0) / 365 }, out) -- :120
  | _, _ => .error .typeError

/-- The initial date chosen by `reset` (`anm6.py:135-138`). -/
def startDate (g : Rng K ρ) (r : ρ) : Option ℤ → Except PyErr (ℤ × ρ)
  | some d => .ok (d, r)
  | none => randomDate g r 2020

/-- `ANM6.reset` (`anm6.py:124-141`); `date` is `options["date_init"]`. -/
def reset (c : EnvCtx K ρ) (g : Rng K ρ) (a : Anm6 K ρ) (seed : Option ℤ) (date : Option ℤ) :
    Except PyErr (Anm6 K ρ × List (X K)) := do
  let (e, obs) ← a.env.reset c seed                                         -- :128
  let (d, r) ← startDate g e.rng date                                       -- :135-138
  pure ({ a with env := { e with rng := r }, screen := a.screen.reset false
                 yearCount := 0, dateInit := some d, date := some d }, obs)

/-- `ANM6.reset_date` (`anm6.py:143-146`). -/
def resetDate (a : Anm6 K ρ) (d : ℤ) : Anm6 K ρ := { a with dateInit := some d, date := some d }

/-- `ANM6Easy.reset` (`anm6_easy.py:67-74`). -/
def easyReset (c : EnvCtx K ρ) (g : Rng K ρ) (a : Anm6 K ρ) (seed : Option ℤ) (date : Option ℤ) :
    Except PyErr (Anm6 K ρ × List (X K)) := do
  let (a, obs) ← a.reset c g seed date                                      -- :68
  match a.date, a.env.dyn with
  | some d, some y => do
    let x ← pyGet y.state (-1)
    let t ← timesDelta x a.tick
    let d ← dateAdd d t                                                     -- :71
    pure (a.resetDate d, obs)                                               -- :72
  | _, _ => .error .attributeError

/-- The message sent by the first call of `render` (`anm6.py:88-90`); `title` is the name of the class. -/
def firstMessage (title : String) (a : Anm6 K ρ) : Except PyErr (InitMsg K) :=
  initMessage title a.specs a.env.c1 a.env.c2

/-- The message sent by the other calls of `render` that are not skipped (`anm6.py:101-111`); before `reset`
the attributes do not exist or are `None`. -/
def frame (a : Anm6 K ρ) : Except PyErr (Frame K) :=
  match a.env.sim.state, a.env.dyn, a.date with
  | none, _, _ => .error .typeError                                         -- :101-102
  | some _, none, _ => .error .attributeError                               -- :108
  | some _, some _, none => .error .attributeError                          -- rendering.py:144
  | some st, some y, some d => do
    let p ← stateValues st .devP .mw                                        -- :102
    let q ← stateValues st .devQ .mvar                                      -- :103
    let s ← stateValues st .branchS .mva                                    -- :104
    let soc ← stateValues st .desSoc .mwh                                   -- :105
    let pot ← stateValues st .genPMax .mw                                   -- :106
    let v ← stateValues st .busVMagn .pu                                    -- :107
    let (month, day, hour, minute) := timeArray d
    pure { month, day, hour, minute, yearCount := a.yearCount, pInjections := p, qInjections := q, sFlows := s
           socStorage := soc, pPotential := pot, vMagn := v, energyLoss := y.eLoss, penalty := y.penalty -- :108
           networkCollapsed := !(a.env.sim.pfeConverged.getD false) }       -- :109

end Anm6
end

end Anm
