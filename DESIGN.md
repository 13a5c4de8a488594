# Formal model of gym-anm: design

The properties are listed in `properties.jsonl` (generated by `tools/gen_properties.py`).
The Lean project is in `lean/`; `MANIFEST.json` maps every property to exact theorem names.

## 1. Method

* The model is written function by function from `/repo/gym_anm`, as pure Lean functions.
  Python mutation becomes state passing; exceptions are values of `PyErr` in the `Except` monad.
* Each definition cites the file and lines it models and says where it simplifies.
* Specifications (`Verif/Spec/*`) are written from the documentation, without using the helper
  functions of the model.  Property theorems are in `Verif/Props/*`, each with a concrete
  `example` that meets its hypotheses.
* Where the code does *not* satisfy the claim, the file contains (a) a theorem giving a concrete
  counterexample and (b) the strongest version we could prove (suffix `_partial`), with the missing
  hypothesis named.

## 2. Trusted base

* The Lean 4.33 kernel; Mathlib definitions used in statements (ℝ, ℂ, `Complex.exp`, `HasDerivAt`,
  matrices, lists).
* Axioms: only `propext`, `Quot.sound`, `Classical.choice`.  No own axioms, no `sorry`, no
  `native_decide`, no `bv_decide`.
* The model's faithfulness to the python text (read, never run).

### Numbers
`X K` = NaN | -inf | finite `K` | +inf, where `K` is any linearly ordered field (ℚ in examples, ℝ in
theorems about the power flow).  Comparison and arithmetic follow IEEE-754 for the special values.
Idealised: rounding, overflow of finite values and the sign of zero (C132 treats rounding and overflow in the device updates
and the costs, see `Model/Rounding.lean`).  A python `None` cell is
`Option.none`.

### External code (oracles)
| External | Model | Assumed |
|---|---|---|
| cvxpy/OSQP QP solve (`map_pq`) | `QP K`: function from constraints and request to `Option` point | nothing, or an explicit hypothesis of the theorem: `QPSound` (feasible up to a tolerance), `QPKeeps` (feasible requests are kept), `QPExact` (optimal) |
| scipy `spsolve` | arbitrary function, `none` = non-finite output | nothing |
| numpy RNG, user hooks `init_state`/`next_vars` | arbitrary functions of an abstract RNG state | nothing |
| numpy, libm | `PF K`/`LFOracle`: the linear solver, and what the load flow does on input that is not finite (`garbage`, `blowup`, `other`) are arbitrary functions | nothing |
| gymnasium `Box`, seeding, `reset(seed=...)` | `EnvCtx K ρ`: whether the constructor accepts the bounds, the generator and the hooks are arbitrary functions | nothing |
| `rng.integers(a, b)` | arbitrary function | `Fair` (a value of the interval), stated as a hypothesis |
| cvxpy OPF solve (agents) | `Cvx K`: arbitrary outcome (no solution, or any values incl. NaN) | "the plan is a feasible point", stated per theorem |
| rendering processes and browser | whether `start`/`update`/`terminate` raise is an arbitrary function | nothing |
| websocket library | keeps the list of open connections, calls the three handlers | delivers a message to every open connection |

### Modelled
`simulator/check_network.py`, `simulator/components/{bus,branch,devices,constants,errors}.py`,
`simulator/simulator.py`, `simulator/solve_load_flow.py`, `envs/anm_env.py`, `envs/utils.py`,
`envs/anm6_env/{anm6,anm6_easy,network,utils}.py` (clock, series, dates, render bookkeeping),
`agents/{mpc,mpc_constant,mpc_perfect}.py`, `rendering/py/servers.py` (`WsServer` handlers),
`rendering/py/rendering.py` (contents of the messages), `rendering/js/*.js` (numbers computed from the
messages: bars, crosses, arrows, date), `examples/{simple_env,custom_anm6}.py` (the environment
classes), `examples/{random_agent,mpc_constant,mpc_perfect}.py`.

### Not modelled
Logging, warnings, HTTP server, the drawing of the browser (SVG elements, colours, texts), process management, floating-point rounding
(except in C132), OSQP's iterations, gymnasium's wrappers, the encoding of messages (except that `JSON.parse` rejects infinities and NaN), python object identity except
where stated.

### Simplifications, module by module
* **Files** (`Model/CheckNetwork`, `Model/Components`, `Model/Simulator`): cells are numbers, NaN, infinities
  or `None`; a column cannot hold other python objects.  Most theorems assume files whose IDs are integers
  (`CleanFile`, `Numbered`): the code truncates IDs when it fills its dictionaries, and C09/C10 show what
  happens otherwise.
* **Load flow** (`Model/LoadFlow`): exact over ℝ/ℂ when the admittances and injections are finite
  (`FiniteLines`); otherwise the result is an arbitrary oracle value, and the theorems that speak about
  numbers assume finiteness.
* **Environment** (`Model/Env`): a call returns the new object or an exception; what an exception leaves behind
  is described by `Model/Failures`.
  Observation arguments that are neither a string, nor callable, nor a list of tuples appear as the nodes `iter`/`other`.
  Whether a callable returned an array castable to float32 is a flag of its result.  `gamma` is a python float (so that `1/(1-gamma)` raises).
* **Exceptions** (`Model/Failures`): `transition`, `reset` and `step` as sequences of changes of an object, those before
  an exception stay.  What a raising hook leaves of the random number generator is an arbitrary function; hooks
  change nothing else.  The power flow assigns nothing before its result is known.
* **Arrays** (`Model/Arrays`): `reset` and `step` on arrays with an identity.  Functions of the user return a new array
  or an existing one, and do not write into existing arrays; arrays that are views of parts of others are not
  modelled.
* **ANM6** (`Model/Anm6`): sockets and the browser are not modelled; dates are day numbers with
  microseconds in the proleptic Gregorian calendar without the range check of years 1..9999; `%` is exact.
  `render` after a first `reset` that raised is taken to raise.
* **Examples** (`Model/Examples`): the global generator of numpy is part of the abstract generator state; reseeding
  the environment may change it arbitrarily.
* **Scripts** (`Model/Scripts`): the wrappers that `gym.make` puts around an environment, `time.sleep` and `print` are not
  modelled; the sampled actions and the behaviour of the display are parameters.
* **MPC** (`Model/Mpc`): a CVXPY problem is the list of its constraints and its objective.  Broadcasting of
  length-1 vectors is not modelled; whether CVXPY accepts empty shapes is an oracle; infinite bounds are
  left to the solver oracle; an efficiency of 0 is excluded by hypothesis where it matters.
* **Picture** (`Model/Render`): loops of the browser over the elements of the drawing run over the elements of the
  messages; an exception in the browser leaves the page as it is; the colours of lines are not modelled.
* **Rendering server** (`Model/Server`): callbacks run one after the other, sending succeeds, the library removes a
  client that leaves or whose handler raises.

## 3. Properties
One line each; the exact theorem names are in `MANIFEST.json`.

| Id | How it is modelled and proved |
|---|---|
| C01 C02 | `checkNetwork` on raw rows; iff with a declarative `WellFormed` spec; error class characterised by first violated rule |
| C03 C04 | `parseLoad`; inversion of the checks; C04 false (PMAX not divided by baseMVA), counterexample + partial for PMAX in {None, 0} or baseMVA = 1 |
| C05 C06 C07 | inversion of the parser's checks into the spec |
| C08 | false: NaN rows accepted (counterexamples); partial: NaN-free rows are checked (C05-C07) |
| C09 C10 C11 | `loadCase`, insertion in dict + sort; permutation argument; C10 false for non-integral IDs (counterexample), partial for integral IDs |
| C12 C13 | set equality of the half-plane system with the documented polygon |
| C14 C15 | explicit feasible points; false with PMAX=None resp. EFF=0 (counterexamples) |
| C16 | abstract: uniqueness/idempotence/non-expansiveness of projection on a convex set, existence over ℝ |
| C17 C18 | per-device invariants lifted to `transition` |
| C19 C20 C21 C22 C23 C24 | storage dynamics, induction on sequences; C20, C23 false as stated, counterexamples |
| C25 C26 C27 C28 | Newton-Raphson loop over an arbitrary linear solver; `HasDerivAt` for the Jacobian |
| C29 C30 C31 C32 | Y-bus algebra over ℂ |
| C33 C34 C35 C36 | counterexamples (slack bus sharing, p_from = 0, numpy complex sign, ID gaps...) + partial |
| C37 C38 C39 C40 C41 C42 | `computeReward`, `gatherState`, `getStateSpace`, transition as a function |
| C43 | `checkEnvArgs`; iff with a documented `GoodArgs` for arguments without NaN and with natural auxiliary indices; three counterexamples (NaN, negative index, strings that are not units) |
| C44 | the observation list is interpreted by an independent `meaning` function; accepted lists give that value for every state; counterexamples: `branch_i_magn` without unit, negative auxiliary index |
| C45 | decoding of the action by position in the action space, for every environment |
| C46 C55 | invariants of runs (lists of calls) by induction |
| C47 C48 | reward as an explicit clipped sum; `gamma = 1` raises ZeroDivisionError (counterexample) |
| C49 C50 C76 | layout of the vectors exchanged with the hooks, position by position |
| C51 C75 | observation against its space; false for the zero vector of terminal steps; callables returning float64 never reset |
| C52 C53 | inversion of `reset`/`step`; the 100th attempt raises AttributeError (counterexample) |
| C54 C74 | equality of whole runs from two arbitrary pasts |
| C56 C77 | clock of ANM6Easy by induction on runs, against the calendar |
| C57 | the five series are literals of the source: finite statements, decided by the kernel, universally quantified over scenario positions; false for one solar and one wind transition |
| C58 | the initial vector, for every generator; false (p.u. limits used as MW, MWh) |
| C59 C60 | calendar by induction; dates as day numbers |
| C61 C62 | render bookkeeping as a state machine over arbitrary outcomes of the rendering code |
| C63 C64 | `act` over an arbitrary solver outcome, decoded by the model of `step` |
| C65 C66 | forecasts against the environment's own later exogenous values |
| C67 C68 C69 C78 C79 | the constraint list of the DC-OPF; sum over buses, physical DC flow, battery dynamics; C69 false when the slack device and the slack bus have different positions |
| C80 C81 | the objective for every plan, and both directions of "feasible iff the documented model is satisfied in each stage" |
| C82 | totality of `step` and `reset` of the environment, by composing C72, C36 with the layout of the state vector and the bounds of the observation space |
| C83 | the simulator of ANM6 evaluated symbolically over any ordered field (`anm6_mk`), then C82 |
| C84 | the lists of a frame from the layout of `full_state`; the calendar arithmetic of `datetime` |
| C85 C86 C87 | the first message and the frames of ANM6Easy evaluated symbolically, with the device limits kept by every transition; the page as a state machine over messages |
| C88 | a plan with idle storage unit and generators at 0 is given explicitly and checked against C81, also for a terminal state (its vector is zero, so the forecast is that of midnight); then C83 |
| C89 | from the regions of C12 and C13: a feasible request is the solution of the projection, and the clip of the state of charge does nothing |
| C90 | C88 gives the plan; the exogenous variables are 100 times the forecasts (tables of ANM6Easy); then C18 and C89 |
| C91 | potential function: the energy the storage units can deliver; C32 bounds the loss of a transition, C21 the change of the states of charge; induction on the run. C91_sharp attains the bound in a constructed environment |
| C92 | bounds of C47 summed as a geometric series; counterexample decided over ℚ |
| C93 | a relation between two environments, kept by every call: both calls raise the same exception or give related results |
| C94 | the regions are convex; the closest point within a window of active powers lies on its border or is the closest point of the region (variational inequality) |
| C95 | the currents leaving the buses of an island sum to the flows entering its branches (induction over the branches); the residual criterion bounds the difference to the injections |
| C96 | the methods are described a second time as sequences of in-place changes (Model/Failures.lean); calls that return agree with the first model; every change, before or after an exception, keeps what a reset reads (`Keeps SameObj`) |
| C97 | false; three counterexamples evaluated on the demo environment; the positive parts by following the exception through the sequence of changes |
| C98 | the costs after a step are the clipped ones of the last transition (C85's analysis of a frame gives that they are numbers); the bound of the return is by induction over the steps |
| C99 | the admittance matrix is a sum over the lines that a turned line without transformer leaves unchanged, so the iterations of both networks are the same; measurements are compared line by line. The counterexample is a line with charging and resistance to an idle bus |
| C100 | the hooks of both classes are modelled over an arbitrary numpy generator (`Model/Examples`); the networks are evaluated to explicit simulators and C82 is applied; the clock is an invariant of all calls |
| C101 | the clock of the state by C50; the observation by C51 with the bounds of the space |
| C102 | the distribution of the vector (C50's counterpart) composed with C17/C18 and the layout of the state (C49), rescaled from p.u. to MW |
| C103 | C102 with the five numbers of `next_vars` and the limits of the devices of ANM6 |
| C104 | erase from the environment everything a step does not read and show that the state vector fixes the rest (the states of charge, by dividing by the base power); the step commutes with the erasure |
| C105 | C104, plus: a step with a `next_vars` that ignores the generator commutes with replacing the generator |
| C106 | balance of the converged load flow (C25) at a bus with one branch, losses of the branch (C30) |
| C107 | C106 at the buses 3, 4 and 5 of ANM6, the tables of the day, and the energy balance of the storage unit summed over the steps |
| C108 | the reset is a transition with the requested powers (C10); clipping and projection keep feasible values (C17, C18); tables of the day by kernel computation |
| C109 | the action reaches the devices in p.u. (C47, C48), where an exact projection keeps it (C16, C17) |
| C110 | currents of a solution for each of the 96 times, checked with rational numbers in the kernel (`plan_ok`); a linear solver that leads the first Newton step to the solution (`playOracle`) |
| C111 | C108 for the energy after the reset, C107 for the energy needed, summed with rational numbers in the kernel |
| C112 | the rating may be exceeded, but the penalty (25 per p.u.) outweighs the energy saved (1/4 per p.u.); a total violation of 0.1 p.u. or more costs more than all forced costs; otherwise the voltages are at least 0.8 p.u. and the case of an idle line end (C34) is excluded; the storage unit is accounted for with a potential (energy/90), induction over the episode, tables summed in the kernel |
| C113 | a plan for a day, checked with rational numbers in the kernel: renewable production up to 17.98 MW per line, reactive power compensated at each bus, the storage unit discharged as needed and charged around noon and at night; losses bounded from the balance of powers and the voltage limits, whatever solution the load flow finds; C112 for the comparison |
| C114 | derivative of each mismatch along the segment between two guesses, with `hasDerivAt_power` of C27, equals the row of the Jacobian matrix times the solution of the linear system |
| C115 | for radial networks a step of Newton's method is expressed in line currents; bounds on missing currents, voltages and relative changes are propagated from iteration to iteration (`Radial.lean`), as a table of rational numbers checked in the kernel (`RadialLoop.lean`); one table for each range, 4 to 7 iterations |
| C116 | the powers of the buses at the 96 times, with bounds for the reactive powers drawn, are in the four ranges of C115; at the four times at which the production drawn exceeds the rating of generator 2 (C108) the projection gives 30 MW and the reactive power drawn |
| C117 | the powers of a solution within the limits are at most 0.18 p.u. per bus, in a range of C115, so that Newton's method converges to voltages above 0.82; two approximate solutions of a radial network with high voltages are close, bounded line by line from the leaves up and from the slack bus down (`Radial.close`); small enough for the margins |
| C118 | the daily plan of C110 charges the storage unit only shortly before the vehicles need it, so that it can be started at any of these times with any energy; it meets the margins of C117 (checked with rational numbers in the kernel); C107 and C111 for the other times |
| C119 | the plan of C113 with the margins of C117; it holds no energy at these times, so that it can be shifted by the energy drawn |
| C120 | specification of coherent rows in MW; the constructors compared with it cell by cell, equivalence in both directions; false for loads with PMAX < 0, counterexample |
| C121 | C01 and C120 put together through the loading loop, the sorting of the dictionaries and the size of the admittance matrix |
| C122 | for an arbitrary load flow; the slack device copies the slack bus |
| C123 | `Model/Arrays`: `reset` and `step` on arrays with an identity; triples of Hoare for the arrays written; false for an `observation` method that returns the state vector (counterexample), partial for functions that make new arrays |
| C124 | simulation of the values of `Model/Failures` by the programs on arrays; false and partial as C123 |
| C125 | the projection of a point above the region on the segment at the top of the region (generators), points within the region are kept (storage units), `easy_inputs` for the inputs of a step |
| C126 | the penalty is at least the weighted sum of any lower bounds of the overloads; a leaf branch carries what its bus exchanges; convergence from C115; sums over the day with a table of lower bounds, moved step by step to any start of the day |
| C127 | the devices follow the action exactly (C109); voltages fall along the lines, so that the losses bound the reactive power of the transformer from below; its voltage equation then has no solution |
| C128 | the energies of the storage units are replaced by points on the straight line; feasibility is convex in the energy; device loop, bus injections, load flow and costs commute with the replacement; then induction over the steps with transition_wipe (C74) |
| C129 | closest points in two windows of the same convex region: the active powers are ordered, and differ only if one is at the border of its window (`window_order`); at a border the unit ends up empty or full; induction over the runs |
| C130 | projections on convex regions are non-expansive; the energy is a Lipschitz function of the active power |
| C131 | inversion of the checks of the list; the same checks pass with the unit MVAr |
| C132 | `Model/Rounding.lean`: the device loop, the bus totals, `_compute_reward` and the clipping of `step` with a rounding `fl` after every operation; the load flow and the solver of the projection stay arbitrary functions. Proved from `Spec.IsRounding` alone; equal to the exact model for `fl = id`; rounding to the nearest multiple of a step is an instance |
| C133 | `Lemmas/Units.lean`: multiplication by a positive factor commutes with all operations on numbers, including infinities and NaN. `Props/BaseUnits.lean`: a second simulator with every per-unit quantity multiplied by `k` is what the constructors build from the rewritten file, and `reset` and `transition` commute with the change of unit. `Props/BaseFlow.lean`: the same for the admittances, the residual, the Jacobian and the loop of the load flow; `tolPF` is `realPF` with the tolerance as a parameter. `Props/BaseEx.lean`: counterexamples |
| C134 | Simulation between the simulators of the two files (`SameBut`: equal up to the IDs and the order of the device list): every loop over the devices commutes with renaming and with permutations of the list, the sums over devices are sums in a commutative monoid, and dictionaries are read by key. `reset` reads vectors by position, so the vectors are compared at the place of each device (`place`: the number of devices with a smaller ID). Environments (`SameEnvBut`): for renumberings that keep the order, the dictionaries built from actions and from `next_vars`, the expansion of `"all"`, the bounds and the readings commute with the renaming of keys; `C134_episode` puts construction, reset and any sequence of steps together. |
| C135 | The projection onto a convex region is firmly non-expansive (from the variational inequality at both points), which gives the monotonicity in the moved coordinate. For two different stored energies the regions are the same convex curve cut by two windows of active powers: if the smaller request injects more, then one of the two powers is at the end of its window, i.e. the unit is empty or full afterwards (`window_more`). |
| C136 | `StepRel` of two devices with the same data, stored energy and arguments gives the same powers (`stepRel_same`); the state files them under the device's ID, which occurs once in the sorted lists (`listed_same`); induction over the run. |
| C137 | Two agents of one simulator differ only in the parameters; the constraints of a stage (`StageInv`) do not mention them. The costs are compared with the objective of C80, term by term; optima are compared through the feasible set of the other problem. |
| C138 | With the exact descriptions of feasibility (C81) and objective (C80): every requirement of `PlanAt` is affine in the plan, planned states of charge by induction over the stages; violations are convex functions of affine flows. |
| C139 | the input of the load flow is the list of totals (`injected_total`), so that the solver is called with equal inputs; sums of extended numbers do not depend on the order; two finite demands within the limits are added; for the slack bus, the iteration reads the other buses only (`solved_input`) |
| C140 | The two generators of a process are modelled separately (`Model/Generators.lean`). General lemma: environments that differ in the state of the generators only, by a relation which the hooks respect, behave alike (`reset_respect`, `step_respect`); the refutation uses it with "same global state", the positive part with "same own state" and C54. |
| C141 | Plans are points of a product of real lines. A feasible plan is first made tidy, which changes neither its cost nor its feasibility: variables that no constraint mentions become 0, and a unit with efficiency 1 does not charge and discharge at once. Tidy plans lie in a box (angles within ±π bound the slack; the energy limits bound charging and discharging), the constraints of C81 are closed and the cost of C80 is continuous, so a compact set has a minimum. |
| C142 | `Props/SoftLimits.lean`. Erasing the limits from a simulator commutes with every operation except the penalty; relational proof over transition, reset, the search of the initial state, step and sessions. The penalty is antitone in the limits. The load flow of `Model/LoadFlow.lean` does not look at the ratings (`C142_realPF`). |
| C143 | `Props/Losses.lean`. From the π-model (C71): complex power of a branch = impedance times squared current less the charging of both ends. Totals from Kirchhoff's law (C29) and the mismatch certified by convergence (C25). |
| C144 | `Props/BusNames.lean`. The Newton-Raphson iteration (currents, powers, mismatch, its maximum norm, Jacobian, update, stopping rule) commutes with a permutation of the buses; bus, branch and device objects, their bounds, the state dictionary and the reward follow. The constructor is compared row by row (`renumbered`), including the eight rules of `check_network`. |
| C145 | `Props/BaseVolt.lean`. A simulator with every base voltage erased (`plainSim`) makes the same transition, value by value; two simulators with the same erased form therefore agree, also in which error they raise. Environments are compared command by command; the files row by row. |
| C146 | `Props/Capacity.lean`. The power entering the branches at a region is summed line by line; inner lines lose power (C30), and a border line takes at least -|V|²/(4r), by completing the square in the current. The balance of C25 turns this into a bound on the devices; for the region of all buses but the slack bus the outer voltage is 1 p.u. |
| C147 | `Props/VoltageDrop.lean`. The power arriving through the border line is bounded by the losses and the consumption behind it, for the active and the reactive part (inner lines lose both, as r, x >= 0 and b = 0); writing the outer voltage as inner voltage plus impedance times current gives the drop. The feeder is an induction along the path from the slack bus. The example uses a solver that leads to the solution in one step. |
| C148 | `Props/Recompute.lean`. A specification that reads the state dictionary only (and the kinds and limits of the network); the sums are compared device by device, bus by bus and branch by branch, with IEEE infinities and NaN. |
| C149 | `Props/ImportCost.lean`. The current in the series impedance carries the power of either end, so `P² ≤ V²·|I|²` there; Cauchy-Schwarz over the branches at the slack bus gives the second statement, and C32 turns the losses into the energy loss. |
| C150 | `Props/OneSolution.lean`. `Spec.FlowOf ε S V` writes the load flow equations of the ANM6 lines for injections `S` up to `ε`; `Spec.InReach` bounds the injections at the three leaves by the corners of the device regions (0.44, 0.76 and 0.98 p.u.). The difference of two solutions is propagated through the tree of lines with the comparison of NewtonClose (C117): the bound on the voltage differences contracts, with rational certificates checked by `decide +kernel`; for exact solutions the contraction gives equality, for tolerances a bound. C25 supplies the equations of a converged transition and C33 the power of the slack device, so that the energy losses differ only by a quarter of the difference in the slack power. Not covered: that a second solution below 80 % does or does not exist. |
| C151 | `Props/ExactPoint.lean`. `sweep` computes the currents from the voltages and powers and the voltages from the currents; it contracts by 0.83 where all voltages are at least 79 % (rational certificate, `decide +kernel`) and moves the converged voltages by at most 0.0001, so Banach's fixed point theorem applies to the ball of radius 0.01 around them. The fixed point solves the load flow equations (`Spec.FlowOf 0`); its distance and uniqueness follow from the comparison of radial solutions used for C150. |
| C152 | `Props/Platforms.lean`. `Spec.OtherSolver`, `Spec.Together`, `Spec.BothRun` and `Spec.SideBySide` state the claim in terms of the environments. Two histories in different contexts leave simulators that differ only in overwritten quantities and states of charge (`forget_history`), so with the same energy they make the same transition but for the load flow (`transition_wipe`); the comparison of solutions of C150 bounds what the load flow changes, and nothing else depends on it. |
| C153 | `Props/SameReward.lean`. The penalty is written as a function of the voltages (`solved_penalty`); voltages and line currents are bounded from the powers of the buses (`line_bounds`) and their differences by the comparison of radial solutions (`near_lines`); a rational certificate (`decide +kernel`) adds up the differences of all violations. `Spec.SameIdle` excludes the jump of C34. |
| C154 | `Props/SeedStart.lean`. The two resets are brought to the same simulator (a reset erases the past, C74), so that both make the same transition but for the linear solver (`draw_both`); the comparison of C150 bounds the differences, C116 gives acceptance and voltages for exact solvers, C152 the rest of the episode. That two generators of random numbers with the same seed draw the same values is an assumption (`w₁.rng = w₂.rng`, `w₁.seeded = w₂.seeded`). |
| C155 | `Props/Scripts.lean`. The scripts are modelled statement by statement (`Model/Scripts.lean`), with `render` on the whole object (first message, servers, frame). A collapse is followed by a reset, which succeeds by C116 and draws a date with room for 35040 further steps; the frame exists by C84 and C85, the servers are followed by the invariant of C62, rewards by C47 and C98. MPC scripts: C88, which also covers terminal states. |
| C156 | `Props/SimpleGrid.lean`. The two-bus network is an instance of the radial networks of C115: a table of two Newton iterations, checked in rational arithmetic, bounds the missing currents for every load of 10 MW at most. `reset` and `step` are reduced to such a transition by C18 and C33. Penalties: C37 and C106 for large loads; for small ones the current is bounded by the voltage equation of the line. |
| C157 | `Props/CustomReset.lean`. Positive demands are cut to 0 (C18). A set-point with both coordinates in [0, 1] MW is projected onto a region that contains the origin, so the projection is within 3 MW in each coordinate (C94's closest point). The powers of the buses are then in the first range of C115, so that the load flow converges. The script follows by C100. |
| C158 | `Props/CustomPlay.lean`. By C103's analysis only the buses 3 and 5 exchange power, 30.1 MVA and 30.6 MVA at most; a projection of a point without reactive power has none (closest points of C94). A table of Newton iterations as in C115 (`tabE`), checked in rational arithmetic, shows convergence and bounds the voltages. Reset: C157, clock and date: C100. |
| C159 | `Props/CustomCollapse.lean`. The targets of the action are feasible, so that exact projections keep them (`closest_stays`); the drawn demands are not positive; by the argument of C127 the load flow then has no solution up to the tolerance. The reward is that of C47 for the discount 0.9 and the bound 100 of the example. |
| C160 | `Props/SimpleCosts.lean`. The Newton table of C156 bounds the current of the line by 0.1042 p.u.; the losses are those of C32 (resistance times the square of the current, up to the tolerance), and the penalty is at most 25 times the excess of the apparent power over the rating. Both are far below the clipping values. |
| C161 | `Props/CustomCosts.lean`. The bounds of C158 on the voltages are extended to the currents of the five lines, which bounds the sum of all violations by 1.66 and thus the penalty by 41.5, below its clipping value. The energy loss is a number (C32), which is clipped to at most 1. The discounted sum is bounded as in C92, and the reward of a collapse is that of C47. |
| C162 | `Props/CustomWorst.lean`. A member of the action space is made of six numbers; the inputs of the transition are then numbers, so the energy loss (C32) and the penalty (C153) of a converged load flow are numbers and C47 bounds the reward. The reward of a collapse is that of C47, the existence of the collapse that of C159. |
| C70 | `WsServer` as a state machine over all event sequences |
| C71 | pi-model over ℂ |
| C72 C36 | totality of `transition`/`reset` for workable networks |
| C73 | the Newton loop returns at once on the flat profile |

Nothing on the list had to be given up as inexpressible.

## 4. Findings
Places where the code differs from its documentation.  Each is a theorem (`*_counterexample*`, or as named).

| Where | What happens | Theorem |
|---|---|---|
| `devices.py` `Load` | PMAX is not divided by baseMVA | C04 |
| `devices.py`, `branch.py`, `bus.py` | NaN cells pass every check | C08 |
| `simulator.py` | fractional IDs are truncated, devices merge silently | C09, C10 |
| `devices.py` `map_pq` | accepted generators/storage units may have an empty feasible set (PMAX None; EFF = 0) | C14, C15 |
| `simulator.reset` | the requested state of charge is not clipped; an overfull unit is stuck | C20 |
| `devices.py` storage | the round-trip efficiency is applied twice (η²) | C23 |
| `solve_load_flow._dfdx` | the Jacobian is wrong for magnitudes ≤ 0 | C27 |
| `simulator` | the slack voltage is taken from the bus at position 0 | C28 |
| `simulator` | the slack device is given the injection of the whole slack bus | C33 |
| `simulator` | a demand at the slack bus changes nothing in the grid but lowers the energy loss: it is rewarded | `C139_slack_demand_pays` |
| `branch.s_apparent_max` | 0 when p_from = 0 | C34 |
| `simulator` | `branch_i_magn` is the real part of the current | C35 |
| `simulator.reset` | raises for ID gaps, one bus, VMIN None on the slack bus, EFF = 0 | C36 |
| `get_state_space` | gen_p_max in MW uses q_max; negative Q/P ratio inverts the q bounds; slack voltage outside its bounds | C39, C40 |
| `check_env_args` | NaN, negative auxiliary indices, non-units accepted; `branch_i_magn` has no default unit | C43, C44 |
| `ANMEnv.step` | `gamma = 1` raises ZeroDivisionError | C48 |
| `ANMEnv.step` | the terminal zero observation may be outside the observation space | C51 |
| `ANMEnv.reset` | the 100th attempt raises AttributeError | C53 |
| `ANMEnv.reset` | a callable returning float64 never resets | C75 |
| `ANM6Easy` | a solar transition exceeds PMAX and is not linear; a wind transition starts off its plateau | C57 |
| `ANM6Easy.init_state` | per-unit limits used as MVAr/MWh: the battery starts nearly empty | C58 |
| `random_date` | 1 January is never drawn | C60_excluded |
| `ANM6.render` | with skip_frames the first call shows nothing | C61 |
| `ANM6.close` | servers leak after a render or reset that raised | C62 |
| `MPCAgent.act` | NaN or missing solutions reach the caller | C63 |
| `MPCAgent` | the reference angle is at the position of the slack *device* | C69 |
| `ANM6._init_render` | without `costs_clipping` the configuration contains Infinity and the page stays empty | C85_blank |
| `ANM6.render` | the frame of a collapse may contain NaN: the page keeps the picture of the step before | C85_collapse_lost |
| `WsServer` | a viewer that connects before the configuration never gets it | C70_early_viewer |
| `ANMEnv.step` | the terminal reward leaves out the clipping value of the energy loss: a collapse can be better than operation | C92_counterexample |
| `ANMEnv.step` | with `costs_clipping` fast charging and slow discharging earns reward from an empty battery | C91_clipped_counterexample |
| `check_network` | a network whose branches do not connect it is accepted; any demand on an island makes every step a collapse | C95_dead_island, C95_split |
| `ANMEnv.step` | a step that raises at the check of the observation has already advanced the simulator, but not the clock | C97_half_step |
| `ANMEnv.step` | with `gamma = 1` a collapse raises after the episode was marked as over | C97_zero_division |
| `ANMEnv.reset` | a reset that raises revives an environment in a terminal state | C97_revived |
| `TransmissionLine.compute_power_flows` | an overloaded line is not penalised if no active power is exchanged at the end that is listed first, so the penalty depends on the orientation of the row | C99_counterexample |
| `examples/custom_anm6.py` | `aux_bounds = [[0, 10]]` for a time in [0, 96): the observed time of day stops at 02:30 | C101_counterexample |
| `examples/custom_anm6.py` | `next_vars` lists the values by device instead of loads first: the industrial load and the wind farm are always at zero | C103_counterexample |
| `_get_gen_time_series` | the solar plant is rated at 30 MW, but the table gives up to 36.75 MW at four times of the day: the initial state drawn then is cut | C108_counterexample |
| `ANM6Easy.init_state` | with at most 1 MWh in storage (C58) no agent can avoid a penalty when the episode starts from 5 to 11 am or from 3 to 9 pm | C111_doomed |
| `anm_env.py:436-437` | `step` writes the auxiliary variables into the old state vector; an `observation` method that returns its argument hands out that vector, so observations returned before change, and agents that write into observations change the environment | C123 C124 |
| `solve_load_flow.py:7` | the tolerance 1e-5 is in per-unit: with a large base power small injections are ignored, and the result depends on the base power of the file | C133_tolerance_counterexample |
| `simulator._compute_reward` | losses and overloads scale with the base power, voltage violations do not: their relative weight depends on the base power of the file | C133_reward_counterexample |
| `quickstart.rst:47` | the observation list of the template is rejected for every network: `dev_q` is not available in MW | C131 |
| `simulator.py:493-494` | `e_loss` is documented in MWh, but is in p.u.: it has to be multiplied by the base power | C148_counterexample |
| `examples/random_agent.py` | the docstring announces 1000 timesteps, the loop makes 10 | (text) |
| `examples/` | the hooks draw from numpy's global generator: the seed has no effect whatsoever | C140 |

Noted while reading, not stated as theorems: the documentation gives λ = 10³ but the task uses 100;
`reset_date` does not reset `year_count`; `ANM6.step` advances the date after termination; `step` before
`reset` raises AttributeError; negative clipping values are not checked;
`_init_render`'s default costs are never used; after `reset` the costs shown are 0 even if limits are
violated; the template of `quickstart.rst` passes `seed` by position, where the constructor expects `aux_bounds`
(a TypeError for an integer); the colour of an idle line has index -1; `rendering.start` opens the browser before it sends the
configuration; `get_rendering_specs` raises TypeError if VMIN of the slack bus is None;
the complete example of `using_env.rst` tests the undefined name `done`.

## 5. Mutation tests
`seeded/LOG.jsonl` lists edits of the model that imitate realistic bugs, made in a scratch copy, with the
theorems that stopped holding.  A theorem counts as failed if its own proof or a lemma it needs no longer
compiles.  The field `tightened` lists the theorems strengthened because of the attempt.
