import Verif.Model.Simulator

/-! # Model of the visualisation: `get_rendering_specs`, the messages of `rendering.py`, and `rendering/js`

Of the browser side, the numbers computed from the messages are modelled: heights of bars, crosses, arrows
and the date.  The elements of the picture that show them are not. -/

namespace Anm

section
variable {K : Type}

/-- `dev.type` (`devices.py:85-93`): -1 for a load, 0 for the slack generator, 1 and 2 for other generators, 3 for
a storage unit. -/
def Device.type (d : Device K) : ℤ :=
  match d.kind with
  | .load => -1
  | .classical => if d.isSlack then 0 else 1
  | .renewable => 2
  | .storage => 3

/-- Bounds of a quantity for each element, in each unit. -/
abbrev Ranges (K : Type) := Dict Ident (Dict QUnit (X K × X K))

/-- The dictionary returned by `get_rendering_specs`. -/
structure Specs (K : Type) where
  busP : Ranges K
  busQ : Ranges K
  devP : Ranges K
  devQ : Ranges K
  busV : Ranges K
  devType : Dict ℤ ℤ
  desSoc : Ranges K
  branchS : Ranges K

variable [Field K] [LinearOrder K]

/-- The limits of the voltage of a bus (`simulator.py:320-322`); `None * float` raises `TypeError`. -/
def busVSpec (b : Bus K) : Except PyErr (Ident × Dict QUnit (X K × X K)) :=
  match b.vMin with
  | none => .error .typeError
  | some lo => .ok (.node b.id, [(.pu, (lo, b.vMax)), (.kv, (lo * b.baseKV, b.vMax * b.baseKV))])

/-- `get_rendering_specs` (`simulator.py:295-339`); `pi` is `np.pi`. -/
def Sim.renderingSpecs (pi : K) (s : Sim K) : Except PyErr (Specs K) := do
  let devType := s.devices.map fun d => (d.id, d.type)                      -- :316-318
  let busV ← mapE busVSpec s.buses                                          -- :320-322
  let branchS := s.branches.map fun b =>                                    -- :324-326
    (Ident.br b.line.fBus b.line.tBus,
      [(QUnit.mva, ((0, b.line.rate * s.baseMVA) : X K × X K)), (.pu, (0, b.line.rate))])
  let sb := s.stateSpace pi
  let busP ← sb.getE .busP                                                  -- :328-337
  let busQ ← sb.getE .busQ
  let devP ← sb.getE .devP
  let devQ ← sb.getE .devQ
  let desSoc ← sb.getE .desSoc
  pure { busP, busQ, devP, devQ, busV, devType, desSoc, branchS }

/-! ## Messages -/

/-- The message sent by `rendering.start` (`rendering.py:88-103`). -/
structure InitMsg (K : Type) where
  deviceType : List ℤ
  pMax : List (X K)
  qMax : List (X K)
  sRate : List (X K)
  vMagnMin : List (X K)
  vMagnMax : List (X K)
  socMax : List (X K)
  energyLossMax : X K
  penaltyMax : X K
  title : String

/-- `np.max(np.abs([lo, hi]))`. -/
def absMax (b : X K × X K) : X K := X.maximum (X.abs b.1) (X.abs b.2)

/-- `[specs[i][unit] for i in specs.keys()]`. -/
def rangesIn (r : Ranges K) (u : QUnit) : Except PyErr (List (X K × X K)) :=
  mapE (fun e : Ident × Dict QUnit (X K × X K) => e.2.getE u) r

/-- `_init_render` (`anm6.py:148-187`) up to the message of `rendering.start`.  `c1` and `c2` are the elements
of `self.costs_clipping`, which are numbers (`anm_env.py:125-130`), so that the defaults of
`anm6.py:181-182` are never used. -/
def initMessage (title : String) (n : Specs K) (c1 c2 : X K) : Except PyErr (InitMsg K) := do
  let ps ← mapE (fun e : Ident × Dict QUnit (X K × X K) => do               -- :164-166
    let r ← n.devP.getE e.1
    let b ← r.getE .mw
    pure (absMax b)) n.devP
  let qs ← mapE (fun e : Ident × Dict QUnit (X K × X K) => do               -- :167-168
    let r ← n.devQ.getE e.1
    let b ← r.getE .mvar
    pure (absMax b)) n.devP
  let rate ← rangesIn n.branchS .mva                                        -- :169-171
  let v ← rangesIn n.busV .pu                                               -- :172-175
  let soc ← rangesIn n.desSoc .mwh                                          -- :176-178
  pure { deviceType := n.devType.map (·.2), pMax := ps, qMax := qs, sRate := rate.map (·.2)
         vMagnMin := v.map (·.1), vMagnMax := v.map (·.2), socMax := soc.map (·.2)
         energyLossMax := c1, penaltyMax := c2, title }

/-- The message sent by `rendering.update` (`rendering.py:144-159`). -/
structure Frame (K : Type) where
  month : ℕ
  day : ℕ
  hour : ℕ
  minute : ℕ
  yearCount : ℤ
  pInjections : List (X K)
  qInjections : List (X K)
  sFlows : List (X K)
  socStorage : List (X K)
  pPotential : List (X K)
  vMagn : List (X K)
  energyLoss : X K
  penalty : X K
  networkCollapsed : Bool

/-- `list(full_state[key][unit].values())`. -/
def stateValues (st : SimState K) (k : Key) (u : QUnit) : Except PyErr (List (X K)) := do
  let d ← st.getE k
  let e ← d.getE u
  pure (e.map (·.2))

/-! ## `datetime` attributes -/

/-- Whether a year is a leap year, as `calendar.isleap`. -/
def isLeap (y : ℕ) : Bool := y % 4 = 0 && (y % 100 ≠ 0 || y % 400 = 0)

/-- The lengths of the months of a year. -/
def monthDays (y : ℕ) : List ℕ := [31, if isLeap y then 29 else 28, 31, 30, 31, 30, 31, 31, 30, 31, 30, 31]

/-- The year, and the days since its first day, of a number of days since 1 January of year `y`; the first
argument limits the search. -/
def findYear : ℕ → ℕ → ℕ → ℕ × ℕ
  | 0, y, n => (y, n)
  | fuel + 1, y, n => if n < (monthDays y).sum then (y, n) else findYear fuel (y + 1) (n - (monthDays y).sum)

/-- The month and day of the month, of a number of days since the first day of month `m`. -/
def findMonth : List ℕ → ℕ → ℕ → ℕ × ℕ
  | [], m, n => (m, n + 1)
  | l :: ls, m, n => if n < l then (m, n + 1) else findMonth ls (m + 1) (n - l)

/-- `[d.month, d.day, d.hour, d.minute]` (`rendering.py:144`) for a `datetime` in microseconds. -/
def timeArray (d : ℤ) : ℕ × ℕ × ℕ × ℕ :=
  let days := (d / (24 * 60 * 60 * 1000000)).toNat
  let minutes := (d % (24 * 60 * 60 * 1000000) / (60 * 1000000)).toNat
  let (y, n) := findYear 11000 1 days
  let (m, k) := findMonth (monthDays y) 1 n
  (m, k, minutes / 60, minutes % 60)

/-! ## The browser -/

/-- `JSON.parse` rejects the tokens `NaN`, `Infinity` and `-Infinity`, which `json.dumps` writes for these
floats. -/
def X.isNumber : X K → Bool
  | .fin _ => true
  | _ => false

/-- The numbers of the first message. -/
def InitMsg.numbers (m : InitMsg K) : List (X K) :=
  m.pMax ++ m.qMax ++ m.sRate ++ m.vMagnMin ++ m.vMagnMax ++ m.socMax ++ [m.energyLossMax, m.penaltyMax]

/-- The numbers of an update. -/
def Frame.numbers (f : Frame K) : List (X K) :=
  f.pInjections ++ f.qInjections ++ f.sFlows ++ f.socStorage ++ f.pPotential ++ f.vMagn ++ [f.energyLoss, f.penalty]

/-- `Math.min` (NaN if an argument is NaN). -/
def X.jsMin (x y : X K) : X K := X.minimum x y

/-- The sizes of the full bars (`svgLabels.js:20`, `:27-29`): powers and energies of devices, flows of lines,
costs. -/
def fullDevice : X K := .fin (198/10)
def fullLine : X K := .fin (246/10)
def fullCost : X K := .fin (938/10)

/-- What is shown of a device: the bars of its powers, whether they are coloured as a production, the bar of
the potential production with its offset (generators other than the slack one), and whether its arrow is
turned. -/
structure DeviceView (K : Type) where
  pBar : X K
  qBar : X K
  pGen : Bool
  qGen : Bool
  pot : Option (X K × X K)
  turned : Bool

/-- The height of a bar (`devices.js:76-83`), with the minimum 0 of `graph.js:63-64`. -/
def barHeight (full x mx : X K) : X K := X.jsMin (full * (X.abs x - 0) / (mx - 0)) full

/-- `PowerInjection.update` (`devices.js:73-149`); `pot = none` for a missing value. -/
def deviceView (type : ℤ) (pMax qMax p q : X K) (pot : Option (X K)) : DeviceView K :=
  let pBar := barHeight fullDevice p pMax
  { pBar, qBar := barHeight fullDevice q qMax
    pGen := decide (0 ≤ p), qGen := decide (0 ≤ q)                          -- :86-97
    pot := if type = 1 ∨ type = 2 then                                      -- :24, :114-127
        match pot with
        | some x => if p < x then some (fullDevice * (x - 0) / (pMax - 0) - pBar, pBar) else some (0, 0)
        | none => some (0, 0)
      else none
    turned := if type < 0 then decide (0 < p) else decide (p < 0) }         -- :137-149

/-- The loop over the devices of `Graph.update` (`graph.js:102-110`), with the values of `Graph`'s constructor
(`graph.js:62-65`). -/
def deviceViews : List ℤ → List (X K) → List (X K) → List (X K) → List (X K) → List (X K) → List (DeviceView K)
  | t :: ts, pm :: pms, qm :: qms, p :: ps, q :: qs, pots =>
    if t = 1 ∨ t = 2 then
      deviceView t pm qm p q pots.head? :: deviceViews ts pms qms ps qs pots.tail
    else deviceView t pm qm p q none :: deviceViews ts pms qms ps qs pots
  | _, _, _, _, _, _ => []

/-- What is shown of a line: its bar, the percentage, whether it is crossed out, whether its arrows are
turned. -/
structure LineView (K : Type) where
  bar : X K
  percent : X K
  cross : Bool
  turned : Bool

/-- `TransmissionLine.update` (`devices.js:209-259`). -/
def lineView (rate s : X K) : LineView K :=
  let percent := .fin 100 * (X.abs s - 0) / (rate - 0)                      -- :218
  { bar := X.jsMin (fullLine * (X.abs s - 0) / (rate - 0)) fullLine         -- :213-215
    percent
    cross := decide (.fin 100 < percent)                                    -- :231
    turned := decide (s < 0) }                                              -- :253

/-- Whether a bus is crossed out (`devices.js:299`). -/
def busCross (lo hi v : X K) : Bool := decide (v < lo ∨ hi < v)

/-- The bar of a storage unit (`devices.js:347-348`), with the minimum 0 of `graph.js:74`; it is not cut
off. -/
def socBar (mx x : X K) : X K := fullDevice * (x - 0) / (mx - 0)

/-- The picture after an update. -/
structure Picture (K : Type) where
  devices : List (DeviceView K)
  lines : List (LineView K)
  storage : List (X K)
  buses : List Bool
  lossBar : X K
  lossCost : Bool
  penaltyBar : X K
  collapsed : Bool
  month : ℕ
  day : ℕ
  hour : ℕ
  minute : ℕ
  yearCount : ℤ

/-- `Graph.update`, `updateDate`, `updateTime`, `updateYearCount`, `reward.update` and `networkCollapsed`
(`init.js:63-73`).  The loops run over the elements of the drawing (7 devices, 5 lines, 1 storage unit,
6 buses: those of the ANM6 network); here they run over the elements of the messages. -/
def picture (m : InitMsg K) (f : Frame K) : Picture K where
  devices := deviceViews m.deviceType m.pMax m.qMax f.pInjections f.qInjections f.pPotential
  lines := List.zipWith lineView m.sRate f.sFlows                           -- graph.js:113-115
  storage := List.zipWith socBar m.socMax f.socStorage                      -- graph.js:118-120
  buses := List.zipWith (fun b v => busCross b.1 b.2 v) (List.zip m.vMagnMin m.vMagnMax) f.vMagn -- graph.js:123-125
  lossBar := X.jsMin (fullCost * X.abs f.energyLoss / m.energyLossMax) fullCost -- reward.js:25-26
  lossCost := decide (0 < f.energyLoss)                                     -- reward.js:30
  penaltyBar := X.jsMin (fullCost * f.penalty / m.penaltyMax) fullCost      -- reward.js:37-38
  collapsed := f.networkCollapsed                                           -- text.js:7-28
  month := f.month
  day := f.day
  hour := f.hour
  minute := f.minute
  yearCount := f.yearCount

/-- A page in a browser: the data of the first message, and the picture. -/
structure Page (K : Type) where
  graph : Option (InitMsg K) := none
  shown : Option (Picture K) := none

/-- A message to a page. -/
inductive Msg (K : Type) where
  | init (m : InitMsg K)
  | update (f : Frame K)

/-- `onmessage` (`init.js:44-75`).  An exception (of `JSON.parse`, or because `graph` is not set) leaves the
page as it is. -/
def Page.receive (g : Page K) : Msg K → Page K
  | .init m => if m.numbers.all X.isNumber then { g with graph := some m } else g
  | .update f =>
    if f.numbers.all X.isNumber then
      match g.graph with
      | some m => { g with shown := some (picture m f) }
      | none => g
    else g

end

end Anm
