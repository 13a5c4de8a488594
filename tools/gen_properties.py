#!/usr/bin/env python3
"""Writes /verif/properties.jsonl. Kept as a script so that the list can grow in one place."""
import json, os
P = []
def p(title, statement, quantifier, why, anchors):
    P.append(dict(id="C%02d" % (len(P) + 1), title=title, statement=statement,
                  quantifier=quantifier, why_tests_cant=why, anchors=anchors))
SIM = "gym_anm/simulator/simulator.py"; DEV = "gym_anm/simulator/components/devices.py"
BUS = "gym_anm/simulator/components/bus.py"; BR = "gym_anm/simulator/components/branch.py"
CHK = "gym_anm/simulator/check_network.py"; PF = "gym_anm/simulator/solve_load_flow.py"
ENV = "gym_anm/envs/anm_env.py"; UT = "gym_anm/envs/utils.py"; CST = "gym_anm/simulator/components/constants.py"
A6 = "gym_anm/envs/anm6_env/anm6.py"; A6E = "gym_anm/envs/anm6_env/anm6_easy.py"; A6N = "gym_anm/envs/anm6_env/network.py"
A6U = "gym_anm/envs/anm6_env/utils.py"
MPC = "gym_anm/agents/mpc.py"; MPP = "gym_anm/agents/mpc_perfect.py"; MPK = "gym_anm/agents/mpc_constant.py"
RND = "gym_anm/envs/anm6_env/rendering/py/rendering.py"; JS = "gym_anm/envs/anm6_env/rendering/js/"
SRV = "gym_anm/envs/anm6_env/rendering/py/servers.py"

# ---- network validation -------------------------------------------------------------------
p("Network validation accepts exactly the well-formed topologies",
  "check_network_specs(network) returns without raising if and only if baseMVA > 0, exactly one bus row is a slack bus, exactly one device row is a slack device, that device sits on that bus, bus IDs are pairwise different, device IDs are pairwise different, no branch is a self-loop, no two branches join the same unordered pair of buses, and every branch endpoint is a bus ID.",
  "every network dictionary whose cells are None or non-NaN numbers, any number of rows",
  "The duplicate-branch test counts a set of ordered pairs; that the count test is equivalent to 'no loop, no parallel, no antiparallel' is a statement about all lists of branches.",
  [CHK + ":check_network_specs"])
p("Malformed networks are rejected with the documented exception class",
  "When check_network_specs raises, the class is determined by the first violated rule in the documented order: BaseMVAError for baseMVA <= 0; BusSpecError for not exactly one slack bus or duplicate bus IDs; DeviceSpecError for not exactly one slack device, a slack device not on the slack bus, or duplicate device IDs; BranchSpecError for parallel branches, loops or unknown endpoints. It never raises anything else.",
  "every network dictionary (cells None or any IEEE number, NaN included)",
  "Needs all orders and combinations of violations, including NaN cells.",
  [CHK + ":check_network_specs", "gym_anm/simulator/components/errors.py"])
p("Accepted loads only withdraw power and have ordered limits",
  "A Load constructed without error satisfies p_min <= p_max <= 0, p_min is the PMIN cell divided by baseMVA (or -inf when None), and q limits are the p limits times Q/P.",
  "every device row with non-NaN cells and every baseMVA > 0",
  "Ranges over all combinations of None/finite/infinite cells.",
  [DEV + ":Load._check_type_specific_specs"])
p("Load power limits are expressed in per-unit",
  "The upper active-power limit of a load, reported in MW by the simulator (per-unit limit times baseMVA), equals the PMAX cell of the network file.",
  "every accepted load row and every baseMVA",
  "The shipped networks only use PMAX = 0, where a missing unit conversion is invisible.",
  [DEV + ":Load._check_type_specific_specs", SIM + ":Simulator.get_state_space"])
p("Accepted generators have a coherent capability curve",
  "A non-slack generator constructed without error from NaN-free cells satisfies 0 <= p_min <= P+ <= p_max and q_min <= Q- <= Q+ <= q_max, all in per-unit.",
  "every device row with non-NaN cells and every baseMVA > 0",
  "Needs every combination of defaulted and given cells.",
  [DEV + ":Generator._check_type_specific_specs"])
p("Accepted storage units have a coherent capability curve, capacity and efficiency",
  "A storage unit constructed without error from NaN-free cells satisfies p_min <= 0 <= p_max, p_min <= P- <= P+ <= p_max, q_min <= Q- <= Q+ <= q_max, 0 <= soc_min <= soc_max and 0 <= eff <= 1.",
  "every device row with non-NaN cells and every baseMVA > 0",
  "Needs every combination of defaulted and given cells.",
  [DEV + ":StorageUnit._check_type_specific_specs"])
p("Accepted branches have a well-defined physical model",
  "A TransmissionLine constructed without error from NaN-free cells has r,x,b,rate >= 0, (r,x) != (0,0), tap ratio > 0, shift in [0,360] degrees, endpoints among the bus IDs, and its series admittance times (r+jx) is 1.",
  "every branch row with non-NaN cells",
  "Ranges over all cells; the division 1/(r+jx) must be safe for all accepted rows.",
  [BR + ":TransmissionLine._check_input_specs", BR + ":TransmissionLine._compute_admittances"])
p("NaN cells are rejected",
  "A network row containing NaN in a limit column is rejected by the constructors.",
  "every device, bus and branch row",
  "A test would have to enumerate columns and NaN positions; every comparison with NaN is false so checks written as 'raise if x < y' silently pass.",
  [DEV, BUS, BR, CHK])
p("The simulator does not depend on the row order of the network file",
  "Permuting the bus rows and device rows of an accepted network yields the same simulator: same ordered buses, devices, limits, action space and state space.",
  "every network with distinct integral IDs and every permutation of its rows",
  "All permutations of all networks.",
  [SIM + ":Simulator._load_case"])
p("No device or bus of the network file is silently dropped",
  "After construction the simulator has exactly one bus per bus row, one device per device row and one branch per branch row, with the IDs of the file, sorted increasingly (branches in file order).",
  "every accepted network",
  "Dictionaries keyed by int(ID) overwrite silently; must hold for all ID values.",
  [SIM + ":Simulator._load_case", CHK + ":check_network_specs"])
p("Device counters partition the devices",
  "N_device = 1 + N_load + N_non_slack_gen + N_des, N_gen_rer <= N_non_slack_gen, N_bus is the number of buses, so the advertised vector sizes are mutually consistent.",
  "every accepted network",
  "All networks.",
  [SIM + ":Simulator.__init__"])
# ---- devices: mapping to the feasible set ----------------------------------------------------
p("The generator constraint set is the documented capability region",
  "The inequality system handed to the projection solver for a generator describes exactly: p_min <= P <= min(p_max, p_pot), q_min <= Q <= q_max, and for P above P+, Q at most the straight line from (P+, q_max) to (p_max, Q+) and at least the straight line from (P+, q_min) to (p_max, Q-).",
  "every accepted non-slack generator with finite limits, every potential, every (P,Q)",
  "Equality of two sets of reals.",
  [DEV + ":Generator.map_pq", DEV + ":Generator._check_type_specific_specs"])
p("The storage constraint set is the documented capability region and SoC window",
  "The inequality system handed to the projection solver for a storage unit describes exactly the box, the four capability lines, and the power window [(soc - soc_max)/(delta_t*eff), eff*(soc - soc_min)/delta_t].",
  "every accepted storage unit with finite limits and eff > 0, every soc, delta_t > 0 and (P,Q)",
  "Equality of two sets of reals.",
  [DEV + ":StorageUnit.map_pq", DEV + ":StorageUnit._check_type_specific_specs"])
p("A generator set-point can always be mapped: the projection problem is feasible",
  "For every accepted generator and every potential, the constraint set of map_pq is non-empty, so map_pq never fails with 'NoneType is not subscriptable'.",
  "every accepted non-slack generator, every potential and every set-point",
  "Non-emptiness over all parameter combinations.",
  [DEV + ":Generator.map_pq"])
p("A storage set-point can always be mapped: the projection problem is feasible",
  "For every accepted storage unit and every state of charge within its limits, the constraint set of map_pq is non-empty, so map_pq never fails.",
  "every accepted storage unit, every soc in [soc_min, soc_max], delta_t > 0 and every set-point",
  "Non-emptiness over all parameter combinations, including the corner values of eff.",
  [DEV + ":StorageUnit.map_pq"])
p("Mapping returns the unique closest feasible point, leaves feasible points alone and is idempotent",
  "The point selected by map_pq is feasible, no feasible point is closer to the request, it is the only such point, it equals the request when the request is feasible, and mapping twice equals mapping once.",
  "every generator and storage unit, every request, for a QP solver meeting its contract",
  "Optimality over the continuum.",
  [DEV + ":Generator.map_pq", DEV + ":StorageUnit.map_pq"])
p("Generator injections respect physical limits and the available potential",
  "After a transition every non-slack generator has p_min <= p <= min(p_max, potential) and q_min <= q <= q_max, whatever the action and the potential.",
  "every network, state, action and exogenous input",
  "All inputs.",
  [SIM + ":Simulator.transition", DEV + ":Generator.map_pq"])
p("Load injections are clipped to their limits and keep a constant power factor",
  "After a transition every load has p_min <= p <= p_max, p equals the demand when the demand is within limits, and q = p * Q/P.",
  "every load and every demand",
  "All demands, including infinite ones.",
  [DEV + ":Load.map_pq"])
# ---- storage dynamics --------------------------------------------------------------------
p("State of charge stays within its limits forever",
  "Starting from a state of charge within [soc_min, soc_max], after any number of transitions with any actions every storage unit's state of charge is still within [soc_min, soc_max], even if the QP solver returns an arbitrary (non-NaN) power.",
  "every storage unit, every finite sequence of transitions, every solver behaviour",
  "Unbounded histories and arbitrary solver output.",
  [DEV + ":StorageUnit.update_soc", SIM + ":Simulator.transition"])
p("State of charge after reset is within its limits",
  "After Simulator.reset(init_state) every storage unit has soc_min <= soc <= soc_max and the next transition can be computed.",
  "every init_state vector",
  "All initial vectors, in particular ones whose SoC entry is outside the limits.",
  [SIM + ":Simulator.reset"])
p("Storage energy accounting is exact",
  "With an exact projection, a transition changes the state of charge by exactly -delta_t*eff*p when charging (p <= 0) and -delta_t*p/eff when discharging (p > 0): the final clip never creates or destroys energy.",
  "every accepted storage unit with eff > 0, every soc in limits, every request, delta_t > 0",
  "All inputs; the clip silently hides accounting errors.",
  [DEV + ":StorageUnit.map_pq", DEV + ":StorageUnit.update_soc"])
p("Storage never creates energy; the round trip yields eff squared of what went in",
  "Over any sequence of transitions, energy delivered to the grid is at most eff^2 times energy drawn plus eff times the initial stored energy above soc_min; and a charge followed by a discharge back to the same SoC returns exactly eff^2 of the energy drawn.",
  "every finite sequence of transitions of an accepted storage unit",
  "Needs induction over unbounded histories.",
  [DEV + ":StorageUnit.update_soc"])
p("The efficiency column is the round-trip efficiency",
  "A full charge/discharge cycle returns the fraction EFF of the energy drawn from the grid (the column is documented as round-trip efficiency).",
  "every storage unit with 0 < EFF < 1",
  "Claim about all cycles.",
  [DEV + ":Device", DEV + ":StorageUnit.update_soc"])
p("Reset reproduces the requested storage injection when the battery is large enough",
  "If the requested (P,Q) of a storage unit is inside its capability region and |P| is sustainable for one step from the extreme SoC selected by reset, the device injects exactly the requested (P,Q) after reset; its SoC is then exactly the requested one.",
  "every init_state vector and storage unit",
  "All requests.",
  [SIM + ":Simulator.reset"])
# ---- power flow -----------------------------------------------------------------------------
p("pfe_converged certifies the power-flow equations",
  "When the load-flow reports convergence, at every non-slack bus the active and reactive power V*conj(YV) differ from the bus injection by at most 1e-5 p.u. in absolute value, whatever the sparse linear solver returned along the way.",
  "every contiguous-ID network with the slack first, every injection vector, every linear-solver behaviour",
  "All networks, injections and solver behaviours.",
  [PF + ":solve_pfe_newton_raphson", PF + ":_newton_raphson_sparse", PF + ":_f"])
p("The Newton-Raphson loop always stops",
  "The load-flow performs at most 100 linear solves and then stops; it reports failure whenever the residual is NaN or above tolerance.",
  "every network, injection and linear-solver behaviour",
  "Termination over all behaviours.",
  [PF + ":_newton_raphson_sparse"])
p("The Jacobian used by Newton-Raphson is the derivative of the mismatch",
  "Every entry of _dfdx is the partial derivative of the corresponding entry of _f with respect to the corresponding angle or magnitude.",
  "every admittance matrix, every guess",
  "A derivative is a limit; finite differences only sample.",
  [PF + ":_dfdx", PF + ":_f"])
p("The slack bus is held at 1 p.u. and zero angle",
  "After every load flow the slack bus voltage is exactly 1+0j.",
  "every network with any position of the slack bus, every injection",
  "All networks; shipped examples always number the slack bus 0.",
  [PF + ":_construct_v_from_guess", PF + ":solve_pfe_newton_raphson"])
p("Kirchhoff's current law holds between bus and branch currents",
  "For every bus, the current injected (row of Y times V) equals the sum of the currents entering the branches attached to it.",
  "every accepted network with contiguous IDs and every voltage vector",
  "All graphs and voltages.",
  [SIM + ":Simulator._build_admittance_matrix", BR + ":TransmissionLine.compute_currents"])
p("Branches never generate active power",
  "For every accepted branch and all end voltages, p_from + p_to = g*|v_f/tap - v_t|^2 with g = r/(r^2+x^2), hence >= 0, and = 0 when r = 0.",
  "every accepted branch, every pair of complex voltages",
  "Continuum of voltages and parameters.",
  [BR + ":TransmissionLine.compute_currents", BR + ":TransmissionLine.compute_power_flows"])
p("Total injected power equals total line losses",
  "The sum over buses of Re(V*conj(I)) equals the sum over branches of p_from + p_to, hence is non-negative.",
  "every accepted network with contiguous IDs and every voltage vector",
  "All graphs and voltages.",
  [SIM + ":Simulator._build_admittance_matrix", PF + ":solve_pfe_newton_raphson"])
p("The reported energy loss is line losses plus curtailment plus net storage charging",
  "After a converged transition of a network whose slack device is alone on the slack bus, |e_loss - delta_t*(sum of line losses + sum of renewable curtailment - sum of storage injections)| <= delta_t*(N_bus-1)*1e-5.",
  "every contiguous-ID network with the slack first and finite line parameters, every state and action",
  "All histories; combines the solver tolerance with an exact balance.",
  [SIM + ":Simulator._compute_reward", PF + ":solve_pfe_newton_raphson"])
p("Bus injections equal the sum of the injections of their devices",
  "After a transition the reported p and q of each bus equal the sums of p and q over the devices connected to it.",
  "every network and transition",
  "All device placements, including devices on the slack bus.",
  [SIM + ":Simulator._get_bus_total_injections", PF + ":solve_pfe_newton_raphson"])
p("Branch apparent power is the larger end flow, signed by direction",
  "|s_apparent_max| = max(|S_from|, |S_to|) and its sign is + when p_from >= 0 and - otherwise.",
  "every branch and voltages",
  "Needs the boundary p_from = 0 exactly.",
  [BR + ":TransmissionLine.compute_power_flows"])
p("Branch current magnitude is the magnitude of the current",
  "The reported branch_i_magn equals |i_from| up to sign.",
  "every branch current",
  "All complex currents; depends on numpy's definition of sign for complex numbers.",
  [SIM + ":Simulator._gather_state"])
p("Accepted networks can be simulated",
  "For every network accepted by the constructor, reset with a correctly sized finite vector raises no exception.",
  "every accepted network and every correctly sized init vector",
  "Quantifies over all accepted networks: ID gaps, zero efficiency, missing VMIN, infinite PMAX.",
  [SIM + ":Simulator.__init__", SIM + ":Simulator.reset", PF, DEV])
# ---- reward and state -----------------------------------------------------------------------
p("The penalty is non-negative and zero exactly when all operating limits hold",
  "The penalty computed by transition is >= 0, is 0 when lamb = 0 (and the limits are finite), and for lamb > 0 it is 0 iff every bus voltage magnitude is within [v_min, v_max] and every |branch_s| is at most the branch rate; the reward is -(e_loss + penalty).",
  "every transition of every network to a state whose reported magnitudes are numbers, in particular every converged one",
  "All states.",
  [SIM + ":Simulator._compute_reward"])
p("All units of a quantity agree",
  "In the state dictionary every MW/MVAr/MVA/MWh entry is baseMVA times the p.u. entry, every kV entry is baseKV times the p.u. entry, every degree entry is 180/pi times the radian entry, for the same set of IDs.",
  "every state",
  "All states and all IDs.",
  [SIM + ":Simulator._gather_state"])
p("Bounds agree across units",
  "For every quantity and ID of the state-space dictionary, the bounds in MW/MVAr/MWh are baseMVA times the bounds in p.u.",
  "every accepted network",
  "All networks; shipped networks have PMAX = QMAX for generators.",
  [SIM + ":Simulator.get_state_space"])
p("State variables respect the advertised state-space bounds at every timestep",
  "After every transition each reported dev_p, dev_q, des_soc, gen_p_max, bus_p, bus_q, bus_v_magn lies within the bounds returned by get_state_space (documented: 'respected at all timesteps').",
  "every network and history",
  "All histories.",
  [SIM + ":Simulator.get_state_space", SIM + ":Simulator.transition"])
p("Bus limits are the sums of the limits of the connected devices",
  "The p/q bounds of a bus are the sums of the p/q bounds of the devices connected to it (0 for a bus without devices).",
  "every accepted network",
  "All networks.",
  [SIM + ":Simulator._compute_bus_bounds"])
p("A transition depends only on the network, the states of charge and its arguments",
  "Two simulators of the same network whose storage units have the same state of charge return the same state, reward and convergence flag for the same arguments, whatever happened before.",
  "every pair of histories",
  "All pairs of unbounded histories.",
  [SIM + ":Simulator.transition"])
# ---- environment ----------------------------------------------------------------------------
p("Environment arguments are accepted exactly when documented",
  "check_env_args accepts iff K >= 0, delta_t > 0, lamb >= 0, 0 <= gamma <= 1, the observation is 'state', a callable or a list of supported items, and aux_bounds (if given) has length K; numeric violations raise ArgsError.",
  "all arguments",
  "All observation lists.",
  [UT + ":check_env_args", UT + ":_check_observation_vars"])
p("An accepted observation list can always be observed",
  "If check_env_args accepts an observation list then building the observation space and observing any state raise no KeyError/IndexError, and every item reads the variable it names.",
  "every accepted observation list and every state",
  "All observation lists, including default units and auxiliary indices.",
  [UT + ":_check_observation_vars", ENV + ":ANMEnv._build_observation_space", ENV + ":ANMEnv.observation_bounds", CST + ":STATE_VARIABLES"])
p("The action vector is decoded device by device in the order of the action space",
  "Component k of the action is applied to the device, and to P or Q, whose bounds are component k of action_space; every non-slack generator and storage unit gets exactly one P and one Q set-point and nobody else does.",
  "every network and every action vector of the right length",
  "All networks.",
  [ENV + ":ANMEnv._build_action_space", ENV + ":ANMEnv.step", SIM + ":Simulator.get_action_space"])
p("Terminal states are absorbing",
  "Once terminated, every later step returns the zero observation, reward 0.0, terminated = True and changes neither the simulator nor the timestep, until reset.",
  "every finite sequence of actions after termination",
  "Unbounded sequences.",
  [ENV + ":ANMEnv.step"])
p("Rewards are clipped",
  "For every non-terminal step the reward equals -(e_loss + penalty) of the clipped costs, with |e_loss| <= c1 and 0 <= penalty <= c2, hence -(c1+c2) <= r <= c1; the terminating step returns -c2/(1-gamma).",
  "every step of every environment with finite, non-negative clipping values and costs that are not NaN",
  "All states.",
  [ENV + ":ANMEnv.step"])
p("Every accepted discount factor works",
  "With gamma in [0,1] accepted by the constructor, a step that collapses the network returns a reward instead of raising.",
  "every gamma accepted by check_env_args",
  "gamma = 1 is a boundary value only reached when the network collapses.",
  [ENV + ":ANMEnv.step", UT + ":check_env_args"])
p("State vectors always have the advertised size and layout",
  "After reset and after every step the state vector has length 2*N_device + N_des + N_non_slack_gen + K = state_N and lists dev_p (MW), dev_q (MVAr), des_soc (MWh), gen_p_max (MW) by increasing ID and then the K auxiliary variables; a terminal state is the zero vector of the same length.",
  "every environment and history",
  "All histories.",
  [ENV + ":ANMEnv._construct_state", ENV + ":ANMEnv._extract_state_variables", ENV + ":ANMEnv.__init__"])
p("Auxiliary variables flow unchanged into the state",
  "After a non-terminal step the last K components of the state are exactly the last K components of the vector returned by next_vars; after reset they are the last K components of the vector returned by init_state.",
  "every K, environment and history",
  "All K and histories; relies on negative indexing into the previous array.",
  [ENV + ":ANMEnv.step", ENV + ":ANMEnv._extract_state_variables"])
p("Observations lie in the observation space",
  "For built-in observations whose bounds are ordered, the observation returned by reset and step has the length of the observation space, every component lies within its bounds, and equals the requested quantity when that is within bounds.",
  "every environment, state and action",
  "All states.",
  [ENV + ":ANMEnv.observation", ENV + ":ANMEnv.observation_bounds"])
p("Wrong-sized user vectors are rejected with the documented error",
  "reset raises EnvInitializationError iff init_state returns a vector of the wrong size, and step raises EnvNextVarsError iff next_vars does, before touching the simulator.",
  "all vector lengths",
  "All sizes.",
  [ENV + ":ANMEnv.reset", ENV + ":ANMEnv.step"])
p("reset tries at most 100 initial states and reports failure as EnvInitializationError",
  "reset calls init_state at most 100 times; if one of the first 100 converges it succeeds with the first that does, otherwise it raises EnvInitializationError.",
  "every stream of initial states",
  "All convergence patterns; the 100th attempt is a boundary.",
  [ENV + ":ANMEnv.reset"])
p("reset erases history",
  "After reset with a given seed, all later observations, rewards and flags are a function of the seed and the actions only: two environments with different pasts behave identically.",
  "every pair of histories and every action sequence; built-in observations and callables that return vectors of one length",
  "Unbounded histories; hidden mutable state.",
  [ENV + ":ANMEnv.reset", SIM + ":Simulator.reset"])
p("timestep counts the non-terminal steps since reset",
  "timestep is 0 after reset, increases by 1 for each step taken in a non-terminal state, and is unchanged by steps taken after termination.",
  "every action sequence",
  "Unbounded sequences.",
  [ENV + ":ANMEnv.step", ENV + ":ANMEnv.reset"])
# ---- ANM6 / ANM6Easy -------------------------------------------------------------------------
p("ANM6Easy's clock is the time of day modulo 96",
  "After reset the auxiliary variable is an integer t0 in [0,96); after n non-terminal steps it is (t0+n) mod 96; the time-series lookups are never out of range and the exogenous inputs have period 96.",
  "every seed and every number of steps",
  "Unbounded horizon.",
  [A6E + ":ANM6Easy.next_vars", A6E + ":ANM6Easy.init_state"])
p("ANM6Easy's time series have 96 entries, within the physical limits, and move linearly between scenario levels",
  "All five series have length 96, loads are within [PMIN,0], maximum generations within [0,PMAX] of their device, and the 7-point transitions interpolate linearly between the adjacent plateaus (documented).",
  "every time of day",
  "A finite table, but no test reads it against the network file and the documentation.",
  [A6E + ":_get_load_time_series", A6E + ":_get_gen_time_series", A6N + ":network"])
p("ANM6Easy samples the initial state in the simulator's units",
  "The initial state's reactive set-points range over [q_min,q_max] MVAr and the state of charge over [soc_min, soc_max] MWh, i.e. the battery can start anywhere between empty and full.",
  "every random draw",
  "All draws.",
  [A6E + ":ANM6Easy.init_state", SIM + ":Simulator.reset"])
p("ANM6's calendar follows the step count",
  "date = date_init + n*timestep after n steps since reset (terminal or not) and year_count = (whole days elapsed) // 365.",
  "every number of steps",
  "Unbounded horizon.",
  [A6 + ":ANM6.step", A6 + ":ANM6.reset", A6E + ":ANM6Easy.reset"])
p("random_date stays within the year",
  "random_date(rng, year) is midnight of a day of that year, for leap and non-leap years.",
  "every draw and every year",
  "All years and draws.",
  [A6U + ":random_date"])
p("Rendering with skip_frames=k updates every k+1 calls",
  "Calling render(skip_frames=k) after every step refreshes the display on exactly one call out of every k+1 consecutive ones, including the initial state on the first call.",
  "every k and every number of calls",
  "Unbounded sequences; the first call is special.",
  [A6 + ":ANM6.render"])
p("reset keeps the rendering mode and close is safe at any time",
  "reset leaves render_mode unchanged; close never raises, sets render_mode to None, and terminates the servers iff rendering was started.",
  "every sequence of render/reset/close",
  "All interleavings of calls.",
  [A6 + ":ANM6.reset", A6 + ":ANM6.close", A6 + ":ANM6.render"])
# ---- agents -----------------------------------------------------------------------------------
p("MPC actions are always valid actions",
  "The vector returned by act has the length of the action space and lies within its bounds, so env.step accepts it, whatever the OPF solver returned.",
  "every network with ordered action bounds and every solver output",
  "All solver outputs.",
  [MPC + ":MPCAgent.act", MPC + ":MPCAgent._solve"])
p("MPC set-points reach the device they were planned for",
  "For a plan within the limits, decoding the MPC action in env.step gives each non-slack generator and storage unit its own planned P (in MW) and Q = 0.",
  "every network and plan",
  "All networks: composes two independently written index computations.",
  [MPC + ":MPCAgent._solve", ENV + ":ANMEnv.step"])
p("Perfect forecasts equal the future",
  "Column j of MPCAgentPerfect.forecast is what next_vars will return j+1 steps later (in p.u.), for any horizon, also across midnight.",
  "every time of day and horizon length",
  "Unbounded horizon; loop that tiles the series.",
  [MPP + ":MPCAgentPerfect.forecast", A6E + ":ANM6Easy.next_vars"])
p("Constant forecasts repeat the present",
  "Every column of MPCAgentConstant.forecast equals the current load injections and maximum generations in p.u., with planning_steps columns ordered by device ID.",
  "every state and horizon",
  "All horizons.",
  [MPK + ":MPCAgentConstant.forecast"])
p("DC plans balance power",
  "In every feasible point of the single-stage DC-OPF of a network without phase shifters, the planned device injections sum to zero.",
  "every network and feasible plan",
  "All graphs and plans.",
  [MPC + ":MPCAgent._single_step_optimization_problem", MPC + ":MPCAgent._create_p_bus_expressions"])
p("MPC plans never over-discharge a battery",
  "If a plan satisfies the storage constraints then applying its P to the real storage dynamics keeps the state of charge at least at the planned one, hence at least soc_min, over the whole horizon.",
  "every horizon and every feasible plan (including simultaneous charge and discharge)",
  "Unbounded horizon, relaxation argument.",
  [MPC + ":MPCAgent._single_step_optimization_problem", DEV + ":StorageUnit.update_soc"])
p("The MPC reference angle is the slack bus angle",
  "The DC-OPF fixes to zero the voltage angle of the slack bus.",
  "every accepted network",
  "Shipped networks have slack device and slack bus at the same position.",
  [MPC + ":MPCAgent._single_step_optimization_problem"])
# ---- rendering server ---------------------------------------------------------------------------
p("Every viewer gets the configuration and every update",
  "A client that connects after the init message was received gets that message on connection (unless it is the sender's own connection), every update message is broadcast to all connected clients, and the server's client table is exactly the set of connected clients, for any interleaving of connections, messages and disconnections.",
  "every finite sequence of connect/message/disconnect events",
  "All interleavings.",
  [SRV + ":WsServer.new_client", SRV + ":WsServer.msg_received", SRV + ":WsServer.client_left"])
# ---- further properties (appended) ---------------------------------------------------------------
p("Branch flows are those of the two-port pi-model",
  "After every finite load flow the currents at the two ends of each branch are those of the documented pi-model (series impedance r+jx, half of the line charging at each end, ideal transformer tap*exp(j*shift) at the from-end) for the reported bus voltages, and the reported p/q are V*conj(I) of each end.",
  "every contiguous-ID network with finite line parameters, every injection and every linear-solver behaviour",
  "All line parameters and all voltages; the code computes it through admittance matrix entries.",
  [BR + ":Branch.compute_power_flows", PF + ":solve_pfe_newton_raphson"])
p("A transition of a workable network raises no exception",
  "If every bus has a lower voltage limit, all limits of the generators and storage units are finite, every storage efficiency is positive and every state of charge is within its limits, then transition raises no exception on arguments that cover every device with finite numbers, provided the load-flow does not raise.",
  "every such network, state and finite arguments; every QP solver that fails only on infeasible problems",
  "Absence of exceptions over all states, including dictionary look-ups and divisions.",
  [SIM + ":Simulator.transition", SIM + ":Simulator._compute_reward", DEV])
p("An idle network converges to the flat profile",
  "If no bus except the slack bus injects power and no branch has line charging or a transformer, the load flow reports convergence, every bus is at exactly 1+0j and the slack bus injects nothing, whatever the linear solver does.",
  "every contiguous-ID network with the slack first and finite line parameters",
  "All topologies.",
  [PF + ":solve_pfe_newton_raphson", SIM + ":Simulator.transition"])
p("A reset erases the past",
  "After any two histories of transitions and resets of a simulator, a reset with the same vector gives the same outcome: the same exception, or the same flag, state dictionary, and the same response to every later call.",
  "every pair of histories and every reset vector",
  "All pairs of unbounded histories; the reset goes through a transition on the stale objects.",
  [SIM + ":Simulator.reset", SIM + ":Simulator.transition"])
p("A callable observation must return a single-precision vector",
  "If the observation argument is a callable that returns an array that cannot be cast safely to float32 (such as the float64 arrays numpy creates by default) and observation_bounds is not overridden, no call of reset ever succeeds.",
  "every such callable and every history",
  "All callables; the cause is a data type chosen in another method.",
  [ENV + ":ANMEnv.reset", ENV + ":ANMEnv.observation_bounds"])
p("The vector returned by next_vars reaches the devices it is meant for",
  "In every step from a non-terminal state the first N_load components of the vector returned by next_vars are the demands of the loads by increasing device ID, the next N_non_slack_gen ones are the potentials of the non-slack generators by increasing device ID, and no other device gets a value.",
  "every environment, history and vector of the right size",
  "All networks: the order depends on two running indices over a sorted dictionary.",
  [ENV + ":ANMEnv.step", SIM + ":Simulator.transition"])

p("ANM6Easy's calendar and its clock agree",
  "As long as an ANM6Easy episode has not terminated, and if it was reset to a day (midnight) or to no date, the time of day of env.date equals the auxiliary variable of the state times 15 minutes.",
  "every seed, every initial day, every number of steps",
  "The two clocks are kept separately (a float in the state vector, a datetime in the object) and only coincide because of an adjustment in reset; checking it needs induction over the number of steps.",
  [A6E+":reset", A6E+":next_vars", A6+":step"])
p("Feasible MPC plans satisfy the DC power flow equations",
  "In every stage of a feasible plan for a network without phase shifters, the power planned for the devices of each bus equals the sum, over the branches at that bus, of x/(r^2+x^2)/tap times the difference of the voltage angles at the two ends of the branch.",
  "every network with buses 0..m, every feasible plan and every stage",
  "All graphs and plans; the code mixes three different indexings of buses and devices.",
  [MPC + ":MPCAgent._single_step_optimization_problem", MPC + ":MPCAgent._create_p_bus_expressions", MPC + ":MPCAgent.__init__"])
p("Feasible MPC plans respect forecasts and device limits",
  "In every stage of a feasible plan each load gets exactly its forecast, each non-slack generator a power within its P limits and at most its forecast, each storage unit a power within its P limits and a planned state of charge within its limits, and all angles are between -pi and pi.",
  "every accepted network, every forecast, every feasible plan and every stage",
  "All networks and horizons: the constraints are assembled from several lists that must be in the same order.",
  [MPC + ":MPCAgent._single_step_optimization_problem", MPC + ":MPCAgent.__init__"])
p("The objective of the MPC agents is the one documented",
  "For a network without phase shifters the objective given to the solver is, for every plan, the sum over the stages k of gamma^k times (the total power of the conventional generators, including the slack, plus lamb times the sum over the branches of max(0, |P_ij| - safety_margin * rate_ij)), with P_ij the DC flow; branches without limit cost nothing.",
  "every network with buses 0..m, every plan, horizon, discount factor, penalty and positive safety margin",
  "All networks, horizons and plans: the solver only returns a minimiser, from which the objective cannot be reconstructed.",
  [MPC + ":MPCAgent._single_step_optimization_problem", MPC + ":MPCAgent._solve_mpc_opt", MPC + ":MPCAgent.__init__"])
p("The plans the MPC agents consider feasible are exactly those of the documented model",
  "For a network without phase shifters a plan is feasible if and only if in each stage it satisfies the DC power flow equations, loads get their forecasts, non-slack generators are within limits and forecasts, storage units are within their power and state-of-charge limits (power = discharging - charging, both non-negative), angles are in [-pi, pi] and the angle at the position of the slack device is 0. In particular no plan of the documented model is excluded.",
  "every documented network with buses 0..m, every forecast and state of charge, every plan and horizon",
  "That nothing else is required cannot be seen from the plans returned by a solver.",
  [MPC + ":MPCAgent._single_step_optimization_problem", MPC + ":MPCAgent._solve_mpc_opt"])
p("step and reset of a state-observing environment raise no exception",
  "For an environment with observation 'state' on a documented network with finite generator and storage limits, positive time step, gamma != 1, loads with a non-negative Q/P ratio and ordered observation bounds: after a reset, step succeeds for every action of the action space provided next_vars returns finite values of the right number; reset either succeeds or raises AttributeError after at least 99 initial states whose load flow did not converge; and the state of charge stays finite and within its limits.",
  "every such environment and history, every action in the action space, every seed, every hook that returns finite vectors of the right size",
  "All networks, actions and histories: an exception could arise in any of a dozen functions, including from infinities that only appear after divergence.",
  [ENV + ":ANMEnv.step", ENV + ":ANMEnv.reset", SIM + ":Simulator.transition", SIM + ":Simulator.reset"])
p("ANM6Easy can be made, reset and stepped without exceptions, in the documented spaces",
  "Constructing ANM6Easy raises no exception. Its action space is [0,30]x[0,50]x[-30,30]x[-50,50]x[-50,50]x[-50,50] (MW, MW, MVAr, MVAr, MW, MVAr) and its observation space is the 18-dimensional box of the device limits in MW, MVAr and MWh with the time of day in [0,95]. After a reset every sequence of actions of the action space can be played; step raises an exception only (OverflowError) if the date would pass year 9999. reset succeeds unless 99 successive initial states have no load flow solution (AttributeError) or the requested date is the last day of year 9999.",
  "every random generator that draws from the requested interval, every seed and date, every sequence of actions of any length",
  "All action sequences of all lengths and all random draws; exceptions could arise in any part of the simulator.",
  [A6E+":ANM6Easy", A6+":ANM6.step", A6+":ANM6.reset", A6N+":network", ENV + ":ANMEnv.__init__"])
p("Rendered frames show the current state, costs and time",
  "Each frame that render sends lists, in MW, MVAr, MWh and p.u., the powers of the devices, the potentials of the non-slack generators, the energies of the storage units, the branch flows and the voltage magnitudes of the current state, in increasing order of the IDs; the energy loss and the penalty of the last step, whose negated sum is the last reward (0 after reset, the bounds after a collapse); whether the network has collapsed; and month, day, hour and minute of the current date. In ANM6Easy the time shown is the time variable of the state times a quarter of an hour.",
  "every ANM6 environment and history, every date of years 1 to 9999, every state",
  "All histories and dates; what is shown is only seen by a person in front of a browser.",
  [A6+":ANM6.render", A6+":ANM6._init_render", RND+":update"])
p("The browser shows every frame that is sent",
  "The configuration and the frames that ANM6Easy sends are valid JSON for the browser (no Infinity or NaN), so that a page that received the configuration always shows the last frame; in particular a collapse is shown.",
  "every ANM6Easy environment, every history and every sequence of frames",
  "All histories: a single infinite number makes JSON.parse throw, and the page silently keeps its old picture.",
  [A6+":ANM6._init_render", A6+":ANM6.render", RND+":start", RND+":update", JS+"init.js"])
p("The picture marks exactly the violated limits",
  "In the picture of a state of ANM6Easy a line is crossed out if and only if its apparent power flow exceeds its rate, and a bus if and only if its voltage magnitude is outside its range; no cross is shown exactly if all operating limits hold. After a step without collapse the penalty shown is 0 if and only if no cross is shown.",
  "every non-terminal state of every ANM6Easy environment",
  "All states; the limits are transmitted once, the values each time, in different lists and units.",
  [JS+"devices.js", JS+"graph.js", A6+":ANM6._init_render", SIM+":Simulator.get_rendering_specs", SIM+":Simulator._compute_reward"])
p("The bars of the picture are to scale and never leave their frames",
  "In the picture of a state of ANM6Easy all bars are within their frames. Except for the slack generator the bars of powers have the length of the power relative to the capacity of the device; the bar of a potential production ends at the potential; the bar of the storage unit shows its energy, and those of the costs the costs relative to the clipping parameters. Arrows of loads point to the load, arrows of renewable generators from it, and the arrow of the storage unit is turned exactly while it charges. The bars and percentages of the lines show their flows relative to the rates, and the arrow of a line is turned exactly if active power leaves it at its first end. Date, time and number of years are the current ones, the energy loss is coloured as a cost exactly if it is positive, and a collapse is marked exactly in terminal states.",
  "every non-terminal state of every ANM6Easy environment",
  "All states: it follows from the limits enforced on devices, energies and costs over whole histories.",
  [JS+"devices.js", JS+"reward.js", A6+":ANM6._init_render", SIM+":Simulator.transition"])
p("The MPC agents always have a feasible plan in ANM6Easy, and never crash it",
  "An MPC agent (with constant or perfect forecasts, at least one planning step) can be made for every ANM6Easy environment. In every state, even after the network has collapsed, its optimisation problem has a feasible plan. With a solver that finds a feasible plan if there is one, act raises no exception, and its action lies in the action space: the active powers of the first stage of the plan in MW, unclipped, and no reactive powers. Hence the loop of act and step runs without exceptions for any number of steps, whether or not the network collapses.",
  "every ANM6Easy environment and history, every horizon, discount factor and safety margin, both agents, every number of steps",
  "All states, horizons and episode lengths; an infeasible problem would only show as a TypeError in some rare state.",
  [MPC+":MPCAgent.act", MPC+":MPCAgent._solve", MPK+":MPCAgentConstant.forecast", MPP+":MPCAgentPerfect.forecast", A6E+":ANM6Easy", A6+":ANM6.step"])
p("Set-points that a device can follow are followed exactly",
  "In a transition, a non-slack generator whose requested (P, Q) lies in its capability region and does not exceed its potential injects exactly the request; so does a storage unit whose request lies in its capability region and keeps its state of charge within its limits for the whole time step, and its new state of charge is then exactly the old one minus the energy that the request takes (with the charging or discharging efficiency).",
  "every network file with finite limits, every history, every transition, every request and potential",
  "All devices, states and requests; a projection that moves feasible points slightly is invisible in a few examples with tolerances.",
  [SIM+":Simulator.transition", DEV+":Generator.map_pq", DEV+":StorageUnit.map_pq", DEV+":StorageUnit.update_soc"])
p("With perfect forecasts ANM6Easy carries out the plans of the MPC agent",
  "In every non-terminal state of ANM6Easy, stepping with the action of the MPC agent with perfect forecasts carries out the first stage of its plan: loads and non-slack generators get exactly the planned active powers, and the generators no reactive power. The storage unit gets exactly the planned power if that power is not negative, or if the plan does not ask it to charge and discharge at the same time; in the latter case its next state of charge is the planned one as well.",
  "every ANM6Easy environment and history, every horizon, discount factor and safety margin",
  "All states: the forecasts of the agent, the exogenous variables of the environment and the projections on the capability regions must agree at all times of day.",
  [MPC+":MPCAgent.act", MPP+":MPCAgentPerfect.forecast", A6E+":ANM6Easy.next_vars", ENV+":ANMEnv.step", SIM+":Simulator.transition"])
p("No policy earns more than the energy initially stored",
  "In an environment made without costs_clipping, the rewards of any sequence of steps without a collapse add up to at most the energy that the storage units could deliver at its beginning (the sum of efficiency times usable state of charge), up to the tolerances of the load flow and of the projection solver. More precisely, over any run of converging transitions the energy losses add up to at least the energy that can be delivered at the end minus that at the beginning. So cycling the storage units is never a source of reward.",
  "every network file, every history, every number of steps, every actions and exogenous variables, every solution of the load flow within its tolerance",
  "All policies and episode lengths; a small error in the bookkeeping of the storage losses would be exploited by a learning agent long before a test shows it.",
  [ENV+":ANMEnv.step", SIM+":Simulator.transition", SIM+":Simulator._compute_reward", DEV+":StorageUnit.update_soc"])
p("Collapsing the network is never better than keeping it in operation",
  "The reward of the step that collapses the network is a very large penalty: in any non-terminal state, for a discount factor below 1, the discounted return of any number of steps in operation is at least the reward of collapsing at once, and collapsing later is at least as good as collapsing now.",
  "every environment with finite costs_clipping, every history, every pair of action sequences",
  "All environments, histories and horizons; whether the terminal reward is large enough depends on the two clipping values and the discount factor together.",
  [ENV+":ANMEnv.step", ENV+":ANMEnv.__init__"])
p("The weights of the reward do not influence what happens",
  "Two environments created with the same arguments, except for gamma, lamb and costs_clipping, behave alike: the constructors raise the same exception or both succeed, and then every sequence of calls of reset and step gives the same observations and the same terminated flags, or raises the same exception. Only the rewards differ. (With gamma = 1 a collapse raises a ZeroDivisionError; this value is excepted.)",
  "every network file, every arguments of the constructor, every sequence of calls with every actions and seeds, every subclass hooks that do not read the weights",
  "A comparison of two environments over all call sequences; a test compares at most a few episodes.",
  [ENV+":ANMEnv.__init__", ENV+":ANMEnv.step", ENV+":ANMEnv.reset", SIM+":Simulator._compute_reward"])
p("Limits cut injections no more than necessary",
  "With an exact projection, the active power that a non-slack generator injects is what it would inject with a larger potential, cut to its potential (but not below P_MIN); so more wind or sun never means less power, and raises the injection by at most the additional potential. The active power of a storage unit is what it would be with unlimited energy, cut to the window that its state of charge allows. When nothing is cut, the reactive power does not change either.",
  "every network file with finite limits, every history, every pair of transitions from a state that differ in a potential (and in other devices), every requests",
  "A comparison of pairs of transitions for all requests; a projection on a two-dimensional region with sloped edges could well trade active against reactive power.",
  [SIM+":Simulator.transition", DEV+":Generator.map_pq", DEV+":StorageUnit.map_pq"])
p("Every island of the network is balanced on its own",
  "The checks of a network file do not ask its branches to connect all buses. Whenever the load flow of a transition converges, every set of buses that no branch leaves is balanced on its own: what is injected at its buses is what is lost on its branches, up to 1e-5 p.u. for each of its buses other than the slack bus, and the losses are not negative. Hence a network with an island, away from the slack bus, whose devices together consume more than the tolerance always collapses, whatever the linear solver returns.",
  "every network file with slack bus 0, every history, every transition, every set of buses no branch leaves, every linear solver",
  "A statement about all networks and all partitions of them; a test sees one network, in practice a connected one.",
  [CHK+":check_network_specs", PF+":solve_pfe_newton_raphson", SIM+":Simulator.transition"])
p("After an exception the environment can be reset as if nothing had happened",
  "Whatever calls of step and reset were made on an environment, whichever of them raised an exception, and wherever inside they raised (an action outside the space, a user function that raises or returns nonsense, an observation outside the space, a division by zero), the next reset returns exactly what it would have returned on the environment as constructed with the same random number generator, and leaves the same object. With a seed nothing of the past is left at all, so the episodes after it are those of a new environment.",
  "every network, every constructed environment whose observation has one length, every sequence of calls returning or raising, every user-defined function, every power flow and projection solver",
  "The changes made before an exception stay in the objects; a test exercises one place where an exception comes from, after one history.",
  [ENV+":ANMEnv.reset", ENV+":ANMEnv.step", SIM+":Simulator.reset", SIM+":Simulator.transition", DEV+":StorageUnit.update_soc"])
p("A call that raises leaves the environment as it was",
  "A call of step or reset that raises an exception changes nothing: the time step, the state of charge of the storage units and the terminal flag are those before the call.",
  "every environment, every call, every exception",
  "Where an exception comes from depends on user functions, on the power flow and on the numbers; a test sees that it was raised, not everything it left behind.",
  [ENV+":ANMEnv.step", ENV+":ANMEnv.reset", SIM+":Simulator.transition"])
p("The rewards of ANM6Easy are between -101 and 1, and a collapse costs 20000",
  "Every reward of ANM6Easy is a number: between -101 and 1 while the network stays in operation, -20000 for the step in which it collapses, 0 afterwards. The sum of the rewards of any sequence of steps, discounted by the factor of the task (0.995), lies between -20200 and 200.",
  "every history of an ANM6Easy environment, every action, every sequence of actions of any length, every linear solver",
  "A bound over all reachable states and action sequences of any length; tests sample a few episodes.",
  [A6E+":ANM6Easy.__init__", ENV+":ANMEnv.step", SIM+":Simulator._compute_reward"])
p("Neither the order nor the orientation of the branch rows matters",
  "Listing the branches of a network in another order, or exchanging the two ends of lines without transformers, changes nothing but the direction in which the flows of these lines are reported: the network is still accepted, the load flow converges in the same cases, and voltages, injections, devices, losses, penalty and reward are the same for the same actions.",
  "every accepted network with buses 0, ..., m and slack bus 0, every reordering and every choice of turned lines, every state, action and sequence of actions, every linear solver",
  "The set of orders and orientations is exponential in the number of branches, and the claim compares two runs of an iterative solver from every state.",
  [SIM+":Simulator._build_admittance_matrix", BR+":TransmissionLine.compute_power_flows", PF+":solve_pfe_newton_raphson", SIM+":Simulator._compute_reward", CHK+":check_network_specs"])
p("The example environments run without exceptions",
  "The two environments shipped as examples (examples/simple_env.py and examples/custom_anm6.py) can be constructed, have the action and observation spaces of their networks, and can be reset and stepped any number of times with actions of their action space without an exception (other than the documented reset failure when no initial state converges, and the end of the calendar).",
  "every behaviour of the random number generators within their intervals, every sequence of actions of the action space, every history of calls, every load flow that raises nothing, every exact projection",
  "The claim ranges over all random numbers, all actions and episodes of any length.",
  ["examples/simple_env.py:SimpleEnvironment", "examples/custom_anm6.py:CustomANM6Environment", ENV+":ANMEnv.reset", ENV+":ANMEnv.step", A6+":ANM6.reset", A6+":ANM6.step"])
p("The six-bus example shows the time of day",
  "The auxiliary variable of CustomANM6Environment is the time of day as an index of quarter hours in [0, 96]: it is 0 after a reset, every step adds one modulo 96, and the observation shows it.",
  "every history, every behaviour of the random number generators, every action",
  "Needs all times of day in episodes of any length and every random number.",
  ["examples/custom_anm6.py:CustomANM6Environment.next_vars", "examples/custom_anm6.py:CustomANM6Environment.__init__", ENV+":ANMEnv.step", ENV+":ANMEnv.observation"])
p("The demands and maximum productions drawn by next_vars show in the next state",
  "After a step that does not end the episode, the active power in the state of the j-th load by increasing ID is the j-th value returned by next_vars, and the maximum production in the state of the j-th non-slack generator is the j-th value after those of the loads; values outside the limits of the device are replaced by the limit they violate.",
  "every network file, environment, history, action and vector returned by next_vars, including infinite values",
  "All networks, orders of devices and values on both sides of every limit.",
  [ENV+":ANMEnv.step", ENV+":ANMEnv.next_vars", SIM+":Simulator.transition", DEV+":Load.map_pq", DEV+":Generator.p_pot"])
p("The six-bus example draws every demand and maximum production at random within the limits of the device",
  "In CustomANM6Environment the demands of the residential area, the industrial complex and the charging station and the maximum productions of the PV plant and the wind farm after a step are random values within [-10, 0], [-30, 0], [-30, 0], [0, 30] and [0, 50] MW.",
  "every history, every behaviour of the random number generator, every action",
  "The claim is about every number drawn; a run shows only some of them.",
  ["examples/custom_anm6.py:CustomANM6Environment.next_vars", ENV+":ANMEnv.next_vars", ENV+":ANMEnv.step"])
p("The state vector is all that matters",
  "Two environments made with the same arguments that have the same state vector, the same generator state and are both or neither in a terminal state answer every sequence of actions with the same observations, rewards, flags and exceptions, whatever happened to them before.",
  "every network file with finite numbers, every environment, every two histories of calls that lead to the same state vector, every action and every sequence of actions, every behaviour of the hooks and the solvers",
  "The claim compares all pairs of pasts; a test runs a few of them, and hidden state left by an earlier call only shows on the right pair.",
  [ENV+":ANMEnv.step", ENV+":ANMEnv.reset", SIM+":Simulator.transition", "docs/source/topics/design_new_env.rst"])
p("ANM6Easy is fully deterministic",
  "What follows in ANM6Easy is a function of the state vector and the actions: two objects with the same state vector and flag give the same observations, rewards, flags and states for the same actions, whatever their seeds, dates, years and pasts. More generally this holds for every environment whose next_vars() draws no random numbers.",
  "every two ANM6Easy objects and their histories, every behaviour of the generator and the solvers, every sequence of actions that runs in both",
  "Determinism is about all pairs of runs with different seeds and dates.",
  [A6E+":ANM6Easy.next_vars", A6+":ANM6.step", ENV+":ANMEnv.step", "docs/source/topics/anm6_easy.rst"])
p("Devices at the end of a line are limited by its rating",
  "At a bus with a single branch everything the devices of the bus inject or draw flows through that branch: after a converged step the flow at the bus equals the net injection up to 1e-5 p.u. Hence a penalty-free state with such a bus implies that the bus draws at most the rating of the branch (plus 1e-5), and injects at most the rating if the branch is an ordinary line that cannot lose all of it.",
  "every network, every bus with one branch, every set of actions and every linear solver whose load flow converges",
  "It quantifies over all networks with such a bus and all injections; tests fix one network.",
  [SIM+":Simulator.transition", PF+":solve_pfe_newton_raphson", SIM+":Simulator._compute_reward", BR+":TransmissionLine"])
p("What the scenarios of ANM6Easy force an agent to do",
  "In ANM6Easy a step without penalty satisfies: the two devices at each of the buses 3, 4 and 5 exchange at most 18.001 MW with the network; at night (11 pm to 6 am) at least 17.999 of 40 MW of wind are curtailed; while the vehicles are charged (8 to 11 am, 6 to 9 pm) the storage unit supplies at least 6.999 MW; around noon (1 to 4 pm) at least 9.999 of 30 MW of sun and 1.999 of 40 MW of wind are curtailed. An agent that gets through a charging period without penalty has at least 27.8 MWh in the storage unit when it begins.",
  "every ANM6Easy object and history, every action or sequence of actions, every projection that is exact and every linear solver",
  "The bounds hold for all actions; a test can only try some agents.",
  [A6E+":_get_load_time_series", A6E+":_get_gen_time_series", A6N+":network", SIM+":Simulator.transition", "docs/source/topics/anm6_easy.rst"])
p("A reset sets exactly a feasible initial state",
  "After reset() every load, generator and storage unit has exactly the powers, maximum production and energy requested by init_state(), if they are within its limits and its capability region (for a load the reactive power follows from the active one). In ANM6Easy this holds for every state drawn, except at 12:30, 12:45, 4:15 and 4:30 pm, where the maximum production drawn for the 30 MW solar plant is up to 36.75 MW and is cut.",
  "every network, every initial state vector; for ANM6Easy every generator, seed and exact projection",
  "Feasible initial states form a continuum, and the exception needs one of four of the 96 times to be drawn.",
  [SIM+":Simulator.reset", SIM+":Simulator.transition", A6E+":ANM6Easy.init_state", DEV+":Generator", DEV+":StorageUnit"])
p("ANM6Easy carries out every feasible action exactly",
  "If the two generators and the storage unit can carry out an action at the next time of day, with the maximum productions of the tables and the energy in storage, then after the step the devices have exactly the powers of the action, the loads have those of the tables with a fifth as reactive power, the energy in storage has changed by the energy exchanged and the efficiency, and the episode ends exactly if the load flow does not converge.",
  "every ANM6Easy object and history, every feasible action, every exact projection, every load flow solver",
  "Feasible actions form a continuum that depends on the time and the stored energy.",
  [A6E+":ANM6Easy.next_vars", ENV+":ANMEnv.step", SIM+":Simulator.transition", DEV+":StorageUnit"])
p("ANM6Easy can be played without penalty",
  "For some behaviour of the linear solver of the load flow and some draws of the generator an environment ANM6Easy can be made and reset, and a fixed daily plan of actions can be followed for a year without any penalty and without the end of the episode. More generally a step with a feasible action for which the load flow equations have a solution within all limits, by 0.01 % of the nominal voltages and 0.1 % of the ratings, up to the tolerance of the solver, is free of penalty if the linear solver leads the iteration to such a solution (C117: exact linear solvers do).",
  "every time of the day, all lengths up to a year; every feasible action with a solution within the limits",
  "That 35040 steps are free of any penalty rests on the solution of the load flow equations at each of them.",
  [A6E+":ANM6Easy", PF+":solve_pfe_newton_raphson", SIM+":Simulator._compute_reward", "docs/source/topics/anm6_easy.rst"])
p("From half of the initial states of ANM6Easy an agent cannot avoid a penalty",
  "If a reset of ANM6Easy draws a time from 5 to 11 am or from 3 to 9 pm (50 of 96 times), then no agent gets to 11:30 am or 9:30 pm without penalty: the initial energy is at most 1 MWh (the unit error of C58), and what the line to the vehicles can supply beyond their demand does not charge enough.",
  "every ANM6Easy object, seed, generator, exact projection and linear solver, every sequence of actions",
  "It excludes all sequences of actions.",
  [A6E+":ANM6Easy.init_state", A6E+":_get_load_time_series", SIM+":Simulator.reset"])
p("No agent of ANM6Easy can do better than the costs forced by the ratings of the lines",
  "Whatever an agent does in ANM6Easy, with or without penalties and whether or not the network collapses: the reward of a step in operation is at most (energy taken from the storage unit in MWh)/90 minus the costs forced at that time of day, up to 2e-5. The forced costs are 1/400 for every MW of sun or wind beyond what the bus demands and its line of 18 MW carries, and 19/81 of that for every MW of the vehicles' demand beyond the 18 MW of their line. Hence the rewards of a day sum up to at most -2.077 plus the initial energy/90, and after a reset the sum of rewards discounted with 0.995 is at most -3.9 for every agent that is run for ten days or more.",
  "every ANM6Easy object, seed, generator, exact projection and linear solver, every sequence of actions",
  "It bounds the best agent: no set of tried agents can. Benchmarks of ANM6Easy compare agents by this number.",
  [SIM+":Simulator._compute_reward", ENV+":ANMEnv.step", A6E+":ANM6Easy", A6E+":_get_load_time_series", A6E+":_get_gen_time_series"])
p("ANM6Easy can be played within 3% of the best possible rewards",
  "There is a linear solver, a generator and a seed with which an ANM6Easy environment can be made, reset (to 12:15 pm, with a storage unit that holds 0.5 MWh) and played for up to a year without any penalty such that the rewards of N days sum up to at least -2.138 N, and to at least -4.66 if they are discounted with the factor 0.995. From the same state no sequence of actions of the same length achieves a sum that is larger by more than 0.0603 N + 0.006, or a discounted sum that is larger by more than 0.29.",
  "some linear solver and generator; every number of days up to a year; for the comparison every sequence of actions",
  "It compares with all agents. That the bound of C112 is nearly attained shows what a benchmark result on ANM6Easy is worth; running agents gives no upper bound and no certainty of a plan without penalty.",
  [SIM+":Simulator._compute_reward", ENV+":ANMEnv.step", A6E+":ANM6Easy", A6E+":_get_load_time_series", A6E+":_get_gen_time_series"])
p("The load flow is Newton's method",
  "If the sparse linear systems are solved exactly, then on the straight way from a guess with positive voltage magnitudes and a regular Jacobian matrix to the next guess of the load flow, every mismatch of active and reactive power starts to fall at the rate that would bring it to zero at the next guess. In particular the Jacobian matrix, the signs, and the order of angles and magnitudes in the update fit together.",
  "every network, all powers, every guess with positive magnitudes and a regular Jacobian matrix, every exact linear solver",
  "Tests see whether the iteration converges in a few cases; a wrong entry of the Jacobian matrix still converges, slowly, near the flat start.",
  [PF+":_newton_raphson_sparse", PF+":_dfdx", PF+":_f", PF+":solve_pfe_newton_raphson"])
p("The load flow of ANM6 converges at moderate powers",
  "If the linear systems are solved exactly, then a transition of the ANM6 simulator converges whenever the powers exchanged at the buses 3, 4 and 5 are in one of four ranges: at most 20, 20 and 20 MVA; 5, 40 and 10 MVA; 5, 25 and 26 MVA; or 30, 22 and 10 MVA. The voltages are then between 82% and 118% of their nominal values, and the powers at the buses differ from those of the devices by at most 0.003 MVA.",
  "every ANM6 simulator, history, set of arguments, projection and exact linear solver; all powers in the ranges",
  "Convergence of Newton's method from the flat start for a continuum of powers.",
  [PF+":_newton_raphson_sparse", PF+":solve_pfe_newton_raphson", SIM+":Simulator.transition", A6N+":network"])
p("Every reset of ANM6Easy succeeds, with the first initial state drawn",
  "If the linear systems and projections are solved exactly, then the load flow converges at every initial state that ANM6Easy draws (96 times of day, all reactive powers and energies drawn), so that every reset, to no date or to a date before the last day of year 9999, succeeds and uses the first state drawn; the search for a feasible initial state with up to 99 attempts is never needed.",
  "every ANM6Easy object and history, every seed, generator, exact projection and exact linear solver",
  "Reactive powers are drawn from intervals; a failing state could have any probability.",
  [ENV+":ANMEnv.reset", A6E+":ANM6Easy.init_state", A6E+":ANM6Easy.reset", SIM+":Simulator.reset"])
p("The load flow finds the solutions within the limits",
  "If the linear systems are solved exactly and the load flow equations of ANM6 have a solution, up to the tolerance of the solver, that is within the limits by 0.01 % of the nominal voltages and 0.1 % of the line ratings, then a transition of the simulator with these injections converges and ends within all limits, at voltages that differ by at most 0.00004 p.u. from those of this solution and with losses larger by at most 0.0005 MW.",
  "every transition of a simulator of ANM6, all injections, every exact linear solver",
  "The load flow equations have several solutions; that Newton's method started from a flat profile ends at the one wanted is a statement about all injections.",
  [SIM+":Simulator.transition", PF+":solve_pfe_newton_raphson", PF+":_newton_raphson_sparse"])
p("From which initial states ANM6Easy can be played without penalty",
  "If linear systems and projections are solved exactly, then after a reset of ANM6Easy to no date there is a sequence of actions without any penalty for every length up to a year if the time of day drawn is at most 4:45 am, from 11:30 am to 2:45 pm, or from 9:30 pm on, whatever else is drawn, and at 11:15 am and 9:15 pm if the storage unit holds at least 0.24 MWh. Otherwise (at 11:15 am and 9:15 pm with less than 0.208 MWh) no agent avoids a penalty until 11:30 am or 9:30 pm.",
  "every ANM6Easy object and history, every seed, generator, exact projection and exact linear solver; every sequence of actions",
  "It decides for every initial state whether some sequence of 35040 actions exists, or excludes all sequences.",
  [A6E+":ANM6Easy.init_state", A6E+":ANM6Easy.reset", A6E+":_get_load_time_series", SIM+":Simulator.transition", SIM+":Simulator._compute_reward"])
p("ANM6Easy can be played within 3% of the best possible rewards, whatever is drawn at noon or at night",
  "If linear systems and projections are solved exactly, then after a reset of ANM6Easy to no date that draws a time from 11:30 am to 12:30 pm or from 9:30 to 10:45 pm there are, for every number N of days up to a year, actions without any penalty for which the rewards sum up to at least -2.138 N (-4.97 if discounted with the factor 0.995); no sequence of actions of the same length achieves a sum that is larger by more than 0.0603 N + 0.012, or a discounted sum that is larger by more than 0.296.",
  "every ANM6Easy object and history, every seed, generator, exact projection and exact linear solver, every number of days up to a year; for the comparison every sequence of actions",
  "It compares with all agents, for every draw.",
  [SIM+":Simulator._compute_reward", ENV+":ANMEnv.step", A6E+":ANM6Easy", PF+":solve_pfe_newton_raphson"])
p("A row of a network file is accepted exactly if its data are coherent",
  "A bus is accepted if and only if it has a positive base voltage and voltage limits with 0 <= VMIN <= VMAX (VMIN may be missing at the slack bus only); a line if and only if its resistance, reactance, susceptance and rating are not negative, it is not without impedance, its tap is positive and its shift within [0, 360]; a generator if and only if PMIN <= P+ <= PMAX and QMIN <= Q- <= Q+ <= QMAX with the documented defaults, and PMIN >= 0 unless it is the slack device; a storage unit if and only if PMIN <= P- <= P+ <= PMAX, PMIN <= 0 <= PMAX, QMIN <= Q- <= Q+ <= QMAX, 0 <= SOC_MIN <= SOC_MAX and the efficiency is in [0, 1]; a load if and only if PMIN <= PMAX <= 0 and it has a ratio Q/P. Otherwise the exception is the specification error of that kind of component, or DeviceSpecError for a device at an unknown bus.",
  "every row without NaN whose IDs and type are integers, every positive base power and every list of buses",
  "The limits of a row are a dozen real numbers, any of which may be missing.",
  [BUS+":Bus", BR+":TransmissionLine", DEV+":Load", DEV+":Generator", DEV+":StorageUnit"])
p("The simulator accepts exactly the coherent networks",
  "Simulator(network, delta_t, lamb) succeeds if and only if the network satisfies the eight rules of check_network_specs, every row is coherent (C120), every device is at a bus of the file, and the bus numbers can index the rows of the admittance matrix (always so if none is negative).",
  "every network file of any size without NaN whose IDs and types are integers, every time step and penalty weight",
  "It is an equivalence over all files.",
  [SIM+":Simulator.__init__", SIM+":Simulator._load_case", SIM+":Simulator._build_admittance_matrix", CHK+":check_network_specs"])
p("The reported power of the slack bus is never NaN",
  "After every transition the active and reactive power of the slack bus and of the slack device are those that the load flow computed, with infinity in the place of NaN; they are never NaN, even if the load flow diverged.",
  "every simulator with one slack bus and device, every transition and every behaviour of the load flow, divergence included",
  "Which inputs make the load flow diverge to NaN is not known in advance.",
  [PF+":solve_pfe_newton_raphson", SIM+":Simulator.transition"])
p("Observations do not change after they have been returned",
  "The array returned by reset or step as observation keeps its contents: no later call of reset or step writes into it, so observations can be collected (for example in a replay buffer) without copying them.",
  "for all environments, functions of the user (init_state, next_vars, observation), earlier calls, later sequences of calls and writes of the agent into other arrays; all outcomes of the power flow and the projections, calls that raise included",
  "The sharing of arrays between environment, user functions and agent depends on what the functions return and on the whole history; a test sees one class and one history.",
  [ENV+":ANMEnv.reset", ENV+":ANMEnv.step", ENV+":ANMEnv.observation", ENV+":ANMEnv._construct_state"])
p("Writing into observations and actions has no influence on the environment",
  "An agent may write into the observation arrays it has received and into the action arrays it has passed (for example to normalise them in place): all later answers of the environment are the same as without these writes.",
  "for all environments, functions of the user whose results depend on the contents of their arguments only, and sequences of calls and writes of the agent; all outcomes of the power flow and the projections, calls that raise included",
  "Interference through shared arrays shows only for particular combinations of user functions, agents and histories.",
  [ENV+":ANMEnv.reset", ENV+":ANMEnv.step", ENV+":ANMEnv.observation", ENV+":ANMEnv._construct_state"])
p("The action that the documentation calls doing nothing does nothing",
  "A generator asked for its rated power and no reactive power is not curtailed and produces no reactive power; a storage unit asked for nothing exchanges nothing and keeps its energy. The action [30, 50, 0, 0, 0, 0] of ANM6Easy therefore has the three effects that the documentation lists, and in each of the three documented scenarios the step has a penalty.",
  "for all network files without infinite values, simulators, states and inputs for the general part; for all states between steps and random draws for ANM6Easy; any exact solver of the projections",
  "That nothing is changed must hold at every state of charge and every time of day.",
  [SIM+":Simulator.transition", DEV+":Generator.map_pq", DEV+":StorageUnit.map_pq", A6E+":ANM6Easy", "docs/source/topics/anm6_easy.rst"])
p("Doing nothing in ANM6Easy never ends the episode and costs at least 246.3 a day",
  "An agent that always takes the action [30, 50, 0, 0, 0, 0] of ANM6Easy can go on for a year; the storage unit keeps its energy; the rewards sum up to at most -246.3 a day, and the return discounted with the factor of the environment over ten days or more is at most -477.",
  "for all seeds and random draws, all initial energies, all numbers of days up to 365; exact solvers of the linear systems and projections, load flow stopped by its tolerance",
  "A lower bound of the costs of a policy over every start and a year of steps is a statement about infinitely many simulations.",
  [SIM+":Simulator.transition", SIM+":Simulator._compute_reward", A6E+":ANM6Easy", ENV+":ANMEnv.step", "docs/source/topics/anm6_easy.rst"])
p("One action collapses ANM6Easy, whatever its state",
  "In every state of ANM6Easy between two steps, the action [0, 0, -30, -50, 0, -50] of its action space makes the load flow fail: step returns terminated=True and the reward -20000.",
  "for all states of ANM6Easy that can be reached, all random draws, any behaviour of the linear solver within the load flow, exact projections",
  "That no iteration of the load flow succeeds, for any linear solver, needs that the equations have no solution, not even up to the tolerance.",
  [PF+":solve_pfe_newton_raphson", SIM+":Simulator.transition", ENV+":ANMEnv.step", A6E+":ANM6Easy"])
p("The length of the time step does not matter while the storage units can follow",
  "Take one step of length t, or k steps of length t/k with the same inputs. If the storage units can follow their set-points in the long step, then the electrical state after every short step is the one after the long step, every short step costs a k-th of the long one, and after k short steps the state, stored energies included, is the one after the long step.",
  "for all valid networks, all states, all inputs, all k, all time steps; projections that leave feasible points alone; any load flow",
  "Tests compare a few time steps; that the discretisation has no influence at all is a statement about every k.",
  [SIM+":Simulator.transition", SIM+":Simulator._compute_reward", DEV+":StorageUnit.map_pq", DEV+":StorageUnit.update_soc"])
p("More stored energy stays more, and the difference never grows",
  "Take two runs of the same network in which a storage unit is given the same set-points; loads, weather, costs and the other devices may differ. If the second run begins with at least as much energy in the unit, it always has at least as much, and the gap between the two never grows.",
  "for all valid networks, all pairs of runs of any length, all set-points; efficiencies above 0; exact projections",
  "The set-points are projected on a region that depends on the energy; that this keeps the order and never amplifies a difference is a statement about pairs of runs.",
  [SIM+":Simulator.transition", DEV+":StorageUnit.map_pq", DEV+":StorageUnit.update_soc"])
p("Small changes of the set-points have small effects on the devices",
  "Compare two transitions from the same state with different set-points. The injections of a generator (with the same maximum production) or of a storage unit differ by no more than its set-points do, as points of the P-Q plane; the stored energies differ by no more than the time step times the difference of the active powers divided by the efficiency.",
  "for all valid networks, all states, all pairs of set-points; exact projections",
  "A Lipschitz bound is about all pairs of actions.",
  [SIM+":Simulator.transition", DEV+":Generator.map_pq", DEV+":StorageUnit.map_pq", DEV+":StorageUnit.update_soc"])
p("The environment template of the documentation works",
  "The observation list of the quickstart page, [('bus_p', [0,1], 'MW'), ('dev_q', [2], 'MW')], is accepted for a network with the buses 0 and 1 and a device 2.",
  "for all networks and all other arguments",
  "That no network and no arguments make the list acceptable is not visible in tests of single environments.",
  [UT+":_check_observation_vars", CST+":STATE_VARIABLES", ENV+":ANMEnv.__init__", "docs/source/topics/quickstart.rst"])
p("Limits of stored energy, loads and costs survive floating-point rounding",
  "Compute every arithmetic operation of a time step with rounded numbers (any rounding that is monotone, symmetric, idempotent and maps NaN exactly to NaN, as IEEE round-to-nearest). Then, over any number of steps with any inputs: the level of every storage unit stays finite and within its limits; charging never lowers it and discharging never raises it; loads and generation potentials stay within their limits; the penalty is never negative and is exactly 0 when all limits hold; the clipped costs and the reward stay within the bounds given by the clipping values.",
  "for all roundings with the stated properties, all devices, all inputs, all solvers that return finite powers, any number of steps",
  "Whether a clip is in the right place to absorb rounding shows only for particular operands; no test enumerates the roundings.",
  [DEV+":StorageUnit.update_soc", DEV+":Load.map_pq", SIM+":Simulator.transition", SIM+":Simulator._compute_reward", ENV+":ANMEnv.step"])
p("The base power of a network file is only a unit",
  "Take a network file and rewrite it for another base power: impedances and line charging converted, everything given in MW, MVAr, MVA, MWh, kV left alone. The two files are accepted together; the action spaces are the same; and after the same reset vector and the same actions, every value that is read in MW, MVAr, MVA, MWh, kV, kA, degrees or radians is the same at all times, values in per-unit differ by the ratio of the base powers (voltages not at all), and the rewards differ by that ratio too.",
  "for all networks, all ratios of base powers, all reset vectors, all sequences of actions of any length",
  "The conversion to and from per-unit is spread over the constructors, the time step, the reset, the state and the load flow; one forgotten or doubled conversion is invisible with the one base power of a test network.",
  [DEV+":Load", DEV+":Generator", DEV+":StorageUnit", BR+":TransmissionLine", SIM+":Simulator.__init__", SIM+":Simulator.reset", SIM+":Simulator.transition", SIM+":Simulator._gather_state", PF+":solve_pfe_newton_raphson"])
p("The IDs of the devices are only names",
  "Give other IDs to the devices of a network file (any other distinct integers), and use the new IDs in the arguments: the simulator accepts the file, every reset and every time step succeeds or raises as before, with the same energy loss, penalty, reward and convergence flag, and the state is the same with the entries of the devices filed under the new IDs. Vectors list the devices in the order of their IDs; a renumbering that keeps this order changes no vector, so that an agent cannot notice it: the environment has the same spaces and gives the same observations and rewards in every episode.",
  "All network files with integer IDs, all injective renamings, all initial vectors of the documented size, all arguments, runs of any length, and any solver of the projections and of the load flow.",
  "Tests use one numbering (0, 1, 2, ...); that nothing depends on it is a statement about pairs of runs, for all renamings.",
  [SIM+":Simulator._load_case", SIM+":Simulator.reset", SIM+":Simulator.transition", SIM+":Simulator._gather_state", SIM+":Simulator.get_action_space", ENV+":ANMEnv.reset", ENV+":ANMEnv.step"])
p("Asking a device for more power gives no less",
  "Two time steps from the same state, the second of which asks a generator (with the same potential) or a storage unit for more active power and the same reactive power: the second injects at least as much active power, and at most the additional amount more; likewise for reactive power. A storage unit keeps no more energy after the larger injection. A run that at every time step asks a storage unit for no more active power than another run does (same reactive power), and begins with no less energy in it, never has less energy in it - whatever else differs between the two runs.",
  "All network files of the documented form, all states and arguments, all pairs of set-points, runs of any length, any exact solver of the projections, any load flow.",
  "A monotonicity of the closest point in a two-dimensional region that itself depends on the stored energy: tests compare a few pairs of set-points.",
  [DEV+":Generator.map_pq", DEV+":StorageUnit.map_pq", DEV+":StorageUnit.update_soc", SIM+":Simulator.transition"])
p("Devices do not interfere with each other",
  "What a load, a generator or a storage unit does in a run depends on nothing but its own data, the energy stored in it at the beginning, and what the arguments of the time steps say about it: two runs - of two networks, with other devices, branches, arguments and load-flow results - that agree about these report the same active and reactive power, stored energy and potential of the device after every time step.",
  "All pairs of network files with integer IDs, the same base power and time step, all devices other than the slack that occur in both, all arguments, runs of any length, and the same solver of the projections.",
  "A statement about pairs of runs in different networks; a test would have to vary everything that must not matter.",
  [SIM+":Simulator.transition", SIM+":Simulator._gather_state", DEV+":Load.map_pq", DEV+":Generator.map_pq", DEV+":StorageUnit.map_pq", DEV+":StorageUnit.update_soc"])
p("What the parameters and forecasts of the MPC agents change in their plans",
  "The safety margin and the discount factor do not influence which plans an MPC agent considers feasible. A larger safety margin (a larger usable fraction of the branch ratings) never makes the best plan more costly. Planning further ahead only adds requirements: the first N stages of a feasible plan for N' > N stages are a feasible plan for N stages. Higher forecasts of the maximum productions allow more plans and never make the best plan more costly.",
  "All networks, simulators, storage levels, forecasts, plans, horizons and values of the parameters (for the margin: networks without phase shifters, ratings, discount factor and penalty weight that are not negative).",
  "A comparison of two optimisation problems over all plans; tests solve a few instances with a numerical solver.",
  [MPC+":MPCAgent.__init__", MPC+":MPCAgent._create_optimization_problem", MPC+":MPCAgent._single_step_optimization_problem"])
p("The optimisation problem of the MPC agents is convex",
  "Everything between two feasible plans of an MPC agent is a feasible plan, and costs no more than the corresponding mean of their costs. Hence there are no merely local optima: on the straight way from a feasible plan to a cheaper one, every plan is feasible and cheaper.",
  "All networks without phase shifters, all storage levels and forecasts, all horizons and non-negative weights, all pairs of feasible plans and all points between them.",
  "Convexity is a statement about all pairs of plans; a solver that happens to succeed on some instances does not show it.",
  [MPC+":MPCAgent._create_optimization_problem", MPC+":MPCAgent._single_step_optimization_problem"])
p("The grid only sees the total power at each bus",
  "Take two networks with the same buses and branches but other devices, and a time step of each. If afterwards the devices at each bus together inject the same active and reactive power in both, then all voltages, currents and flows are reported equal in all units, and so are the penalty and the convergence. With the load flow of the code the devices at the slack bus need not even agree. In particular, splitting a load into two at the same bus with the same power factor which share its demand changes no voltage, no flow, no loss, no penalty and no reward, in runs of any length.",
  "All pairs of network files with the same buses and branches, all states, arguments, load-flow solvers (the slack-bus part: the Newton iteration of the code, when it converges); for split loads, demands within the limits of the loads and runs of any length.",
  "A statement about all pairs of networks with the same totals.",
  [SIM+":Simulator.transition", SIM+":Simulator._get_bus_total_injections", SIM+":Simulator._compute_reward", SIM+":Simulator._gather_state", PF+":solve_pfe_newton_raphson", DEV+":Load.map_pq"])
p("A seed makes an episode reproducible",
  "After a reset with a seed, the observations, rewards and flags are a function of the seed and the actions, whatever has happened before, whatever other code has drawn from numpy's global generator, and in whichever process the environment was made.",
  "All environments, in particular the two example environments and environments whose hooks draw from their own generator; all seeds, pasts, states of the global generator and sequences of actions.",
  "The past, the state of the global generator and the actions are unbounded; a test that compares two runs in a fresh process with the same global seed passes.",
  [ENV+":ANMEnv.reset", ENV+":ANMEnv.__init__", ENV+":ANMEnv.step", "examples/simple_env.py:SimpleEnvironment", "examples/custom_anm6.py:CustomANM6Environment"])
p("The optimisation problem of the MPC agents has an optimal plan whenever it has a feasible one",
  "If the power limits of the generators and storage units and the storage levels are finite, the problem that an MPC agent hands to the solver is never unbounded and its optimum is reached: if there is a feasible plan, there is one that costs no more than any other. In ANM6Easy, both agents have an optimal plan in every state, for every number of planning steps.",
  "All networks whose bus IDs are 0, 1, 2, ... with the slack at bus 0 and no phase shifters, in which the position of the slack device among the devices is less than the number of buses (as for the slack as first device), finite limits, storage efficiencies in (0, 1], all simulators, storage levels, forecasts, horizons, discount factors and positive safety margins; for ANM6Easy, all states that can be reached.",
  "The existence of a minimum over all (unboundedly many) plans; a test solves a few instances numerically and cannot tell an unbounded problem of another state.",
  [MPC+":MPCAgent._create_optimization_problem", MPC+":MPCAgent._single_step_optimization_problem", MPC+":MPCAgent.act"])
p("Branch ratings and voltage limits are soft: they change nothing but the penalty",
  "Two network files that differ only in the RATE of the branches, the VMIN of the buses and the VMAX of the buses other than the slack bus give environments with the same action and observation spaces. Whatever calls of reset and step are made, both show the same observations and terminal flags, or raise the same exception: no operating limit is enforced on the network. With looser limits no reward is smaller (comparisons with NaN aside).",
  "for all pairs of such network files accepted by the simulator, all observation arguments, all hooks, all load flows that do not look at the ratings (that of the code does not), and all finite sequences of calls",
  "Tests compare a few steps on fixed networks; that a limit never leaks into the dynamics, the spaces or an exception over any session on any network is a relation between two unbounded executions.",
  [SIM+":Simulator.transition", SIM+":Simulator.reset", SIM+":Simulator._compute_reward", BUS+":Bus.__init__", BR+":TransmissionLine._check_input_specs", ENV+":ANMEnv.step", ENV+":ANMEnv.reset"])
p("Line losses are r|I|², and reactive power is absorbed as x|I|² less the line charging",
  "After a converged transition, the reported active powers at the two ends of every branch sum to its resistance times the squared magnitude of the current in its series impedance, and the reactive powers to its reactance times that square less the reactive power of its charging capacitors at the reported voltages. The reported powers of all buses sum to the totals of these, up to 1e-5 p.u. per bus other than the slack bus: without resistances the active powers of the buses cancel, and without line charging the network never produces reactive power.",
  "for all networks with finite line parameters and buses numbered 0, 1, 2, ..., all states, actions, loads, potentials and linear solvers, if the load flow reports convergence",
  "A test evaluates the identities at a few operating points; a sign or conjugation error in one term can vanish at points with small angles or no line charging.",
  [BR+":TransmissionLine.compute_currents", BR+":TransmissionLine.compute_power_flows", PF+":solve_pfe_newton_raphson", SIM+":Simulator.transition"])
p("The numbering of the buses does not matter",
  "If the buses other than the slack bus exchange their numbers in the network file (bus array, branch ends, devices), the constructor still accepts the file, and every converged reset and transition returns the same reward, energy loss, penalty and convergence flag, and the same state with each bus and branch quantity found under the new number.",
  "for all networks with finite line parameters and buses numbered 0, ..., m, all injective renumberings of these numbers that keep the slack bus 0, all initial states, actions, loads, potentials and runs of any length in which the load flow converges, and all linear solvers whose result does not depend on the order of unknowns and equations",
  "There are m! numberings of a network, and the code uses bus numbers as matrix indices, dictionary keys and array offsets at once; a test compares a few pairs of files.",
  [SIM+":Simulator.__init__", SIM+":Simulator._build_admittance_matrix", SIM+":Simulator.transition", SIM+":Simulator.reset", PF+":solve_pfe_newton_raphson", PF+":_newton_raphson_sparse"])
p("The base voltages of the buses are only units",
  "If two network files differ only in the base voltages (BASE_KV) of the buses, the simulators built from them return the same energy loss, penalty, reward and convergence flag at every reset and transition, and states that agree in every quantity not expressed in kV or kA. Environments built from them show the same observations and rewards in every session, if nothing is observed in kV or kA.",
  "for all pairs of accepted network files that differ only in base voltages, all potentials, loads, actions, load flow and optimisation backends, and all sequences of resets and steps, failing ones included",
  "The claim is about every pair of files and about sessions of any length; a test compares finitely many steps of a few pairs.",
  [BUS+":Bus", SIM+":Simulator.transition", SIM+":Simulator.reset", SIM+":Simulator._gather_state", ENV+":ANMEnv.step", ENV+":ANMEnv.reset"])
p("More demand than the lines can deliver always ends the episode",
  "After a transition whose load flow converged, the devices of any region without the slack bus together draw no more active power than the lines into the region can deliver: |V|²/(4r) for each line, with the voltage reported at its outer end (behind the transformer ratio). In particular, if the devices away from the slack bus draw more than the sum of 1/(4r) over the lines at the slack bus, the load flow is never reported as converged and the step terminates the episode.",
  "for all accepted networks with finite line parameters and buses numbered 0, ..., m, all regions whose border lines have a resistance, all loads, potentials, actions and histories, all optimisation backends and all linear solvers, up to the tolerance of 1e-5 p.u. per bus",
  "That no iteration of Newton's method ends in a point that looks like a solution is a statement about all demands beyond the limit and all numerical behaviour; a test tries single demands.",
  [SIM+":Simulator.transition", PF+":solve_pfe_newton_raphson", ENV+":ANMEnv.step", BR+":TransmissionLine"])
p("Voltages never rise towards a region that only consumes",
  "After a transition whose load flow converged, take a line that is the only connection to a part of the network without the slack bus where no bus produces active or reactive power and the lines have no charging. The voltage magnitude reported at its inner end is then at most the one at its outer end (compared behind the transformer). Hence, if nothing is produced away from the slack bus, no bus on a feeder without transformer ratios is above 1 p.u.",
  "for all accepted networks with finite line parameters and buses numbered 0, ..., m, all such lines and regions, all loads, actions and histories, all optimisation backends and all linear solvers, up to the tolerance of 1e-5 p.u. per bus times the impedance",
  "The voltage profile of a feeder is the solution of non-linear equations; that it never rises towards consumers concerns every solution the iteration may end in, for every topology behind the line, where a test compares a few stored voltages.",
  [SIM+":Simulator.transition", PF+":solve_pfe_newton_raphson", BR+":TransmissionLine"])
p("Energy loss, penalty and reward can be recomputed from the returned state",
  "The energy loss returned by a transition is in MWh, as documented: it is the length of the time step times the sum, over the powers in MW of the returned state, of the injections of all loads and generators (including the slack) and of what the renewable generators could have produced but did not. The penalty is the weight times the time step times the amounts by which the voltages and apparent powers of the state exceed their limits. The reward is minus the sum of both.",
  "for all accepted networks, all optimisation and load-flow backends, all histories and arguments, including infinite and undefined values",
  "The claim relates two independently filled results for all networks, base powers and states, where a test compares numbers on small networks, mostly with a base power of 1.",
  [SIM+":Simulator.transition", SIM+":Simulator._compute_reward", SIM+":Simulator._gather_state"])
p("Carrying power costs losses that grow with its square",
  "After a converged transition, the losses of a branch are at least its resistance times the square of the active power at either end, divided by the square of the voltage there. The square of the active power exchanged with the main grid, in either direction, is at most four times the limit of the branches at the slack bus (the number of the network file that also limits the demand) times the losses of all branches. Without storage units, the energy loss of the step is therefore at least the length of the time step times that square over four times the limit, up to the tolerance of the load flow.",
  "for all clean network files with finite lines, all linear solvers and optimisation backends, all histories and actions whose load flow converged",
  "A lower bound on a cost over all dispatches, which no finite set of power flows can establish; an error in the loss accounting shows only as a slightly too good reward.",
  [PF+":solve_pfe_newton_raphson", BR+":TransmissionLine.compute_power_flows", SIM+":Simulator._compute_reward"])
p("The load flow of ANM6 has one solution at usual voltages",
  "Load flow equations are non-linear and may have several solutions, and the library returns whichever one its iteration reaches. In ANM6 the choice does not matter as long as the voltages stay at 80 % of their nominal values or above. With exact projections onto the device regions, and whatever the action, the demands and the potentials, the injections that a transition arrives at stay within ranges for which the equations have at most one exact solution with such voltages. And since the library stops at a tolerance: two converged results for the same inputs, obtained with any two linear solvers of any accuracy, differ by at most 0.0002 p.u. in every voltage and by at most 0.0002 p.u. (0.02 MWh) in the reported energy loss.",
  "all simulators of the ANM6 grid, all actions with finite demands, all pairs of linear solvers, and all pairs of exact or approximate solutions of the load flow equations with voltages of at least 80 %",
  "A test computes one solution with one solver. That no second solution lies anywhere in the range of usual voltages, for a continuum of injections, is a statement about all pairs of solutions of a non-linear system.",
  [A6N + ':network', SIM + ':Simulator.transition', PF + ':solve_pfe_newton_raphson', PF + ':_newton_raphson_sparse'])
p("Next to every converged load flow of ANM6 there is an exact operating point",
  "The load flow reports convergence when its equations hold up to a tolerance; that alone does not mean that the grid has an operating point there at all. In ANM6 it does: if a transition converges to voltages of at least 80 % of their nominal values, then the load flow equations for the resulting powers of the devices have an exact solution. No other exact solution has voltages of at least 80 %. The reported voltages differ from the exact ones by at most 0.0002 p.u. and the reported complex power of the slack device by at most 0.0008 p.u. (0.08 MVA), whatever the accuracy of the linear solver.",
  "all simulators of the ANM6 grid, all transitions that converge to voltages of at least 80 %, all linear solvers, and injections within the ranges that the device limits imply",
  "The exact solution is not computed by anything, so a test has nothing to compare with; and existence near the result for every injection and solver is not a matter of samples.",
  [A6N + ':network', SIM + ':Simulator.transition', PF + ':solve_pfe_newton_raphson', PF + ':_newton_raphson_sparse'])
p("Episodes of ANM6Easy do not depend on the linear solver, up to the tolerance of the load flow",
  "The linear systems of the load flow are solved by external code whose results differ between machines and versions. Take two ANM6Easy environments that differ in this solver only (and possibly in their pasts), with the same energy stored and at the same time of day, and apply the same actions to both. While neither episode ends and all voltages are at least 80 % of their nominal values, the two state vectors agree exactly in all entries but the powers of the slack device; these differ by at most 0.08 MW and 0.08 MVAr, the voltages by at most 0.0002 p.u. and the energy losses by at most 0.0002 p.u. The bounds are the same after every number of steps: the differences do not add up.",
  "all pairs of linear solvers, all pairs of environments with the same energy stored and time of day, all sequences of actions, of any length, during which both episodes go on with voltages of at least 80 %",
  "A test runs on one machine with one solver; that no other solver makes the trajectories drift apart, after any number of steps, cannot be tested.",
  [A6E + ':ANM6Easy', ENV + ':ANMEnv.step', SIM + ':Simulator.transition', PF + ':solve_pfe_newton_raphson', PF + ':_newton_raphson_sparse'])
p("Rewards of ANM6Easy hardly depend on the linear solver",
  "Take two ANM6Easy environments that differ in the linear solver of the load flow only (and possibly in their pasts), with the same energy stored and at the same time of day, and apply the same action. If neither episode ends, all voltages are at least 80 % of their nominal values, and the same lines carry exactly no active power at their sending ends, then both rewards are finite and differ by at most 0.171 (rewards lie between -101 and 1). The last condition is needed because a line that carries exactly no active power is reported with an apparent power of 0, whatever its reactive power.",
  "all pairs of linear solvers, all pairs of environments with the same energy stored and time of day, all actions with which both episodes go on with voltages of at least 80 %",
  "A test runs with one solver; how much the reward can change with another one, over all states and actions, cannot be tested.",
  [A6E + ':ANM6Easy', ENV + ':ANMEnv.step', SIM + ':Simulator._compute_reward', BR + ':TransmissionLine.compute_power_flows', PF + ':solve_pfe_newton_raphson'])
p("A seed starts the same episode of ANM6Easy with every linear solver",
  "Reset two ANM6Easy environments, whatever their pasts, with the same seed and the same option for the date; they differ in the linear solver of the load flow only. If both accept the first initial state drawn, at voltages of at least 80 % of the nominal values, then they start at the same date and time of day, with the same energy stored and the same powers and maximum productions of all devices but the slack generator; the powers of the latter differ by at most 0.08 MW and 0.08 MVAr, the voltages of the buses by at most 0.0002 p.u. The same actions then lead both through the same states, up to the same tolerances, while the episodes go on at voltages of at least 80 %. If the linear systems are solved exactly, by whatever method, then both resets always succeed and meet these conditions.",
  "all pairs of linear solvers, all seeds, all dates (or none), all pasts of the environments, all sequences of actions",
  "A test runs with one solver on one machine; that no seed leads to another episode with another solver is a statement about all seeds and solvers.",
  [A6E + ':ANM6Easy.init_state', A6 + ':ANM6.reset', ENV + ':ANMEnv.reset', SIM + ':Simulator.reset', PF + ':solve_pfe_newton_raphson'])
p("The example scripts run to their end",
  "random_agent.py makes an ANM6Easy environment, takes sampled actions, displays every state, resets after a collapse and closes the display; mpc_constant.py and mpc_perfect.py let an MPC agent play and go on after a collapse. None of them raises an exception. In random_agent.py a frame is sent to the display after every step: it signals a collapse if and only if the step has ended the episode, the reward is -20000 then and otherwise minus the two costs in the frame; in the end no server process is left running.",
  "all actions of the action space that may be sampled, all states of the random generator, all safety margins, at least one planning step, up to 35040 iterations (the scripts use 10 and 100)",
  "One run samples ten actions; that no sample and no random initial state makes a script fail needs all of them, collapses included.",
  ['examples/random_agent.py:run', 'examples/mpc_constant.py:run', 'examples/mpc_perfect.py:run', A6 + ':ANM6.render', A6 + ':ANM6.close', A6E + ':ANM6Easy.reset', MPC + ':MPCAgent.act'])
p("The two-bus example never collapses",
  "The environment of examples/simple_env.py can be played for any number of steps: every reset succeeds at the first initial state drawn, no step ends the episode, and the voltage of the load stays within 2% of its nominal value. A step is penalised whenever the demand drawn is more than 3.001 MW, and not if it is 2.9 MW at most: the rating of the line (3 MVA) is the only limit that is ever violated.",
  "all states of the random generator, all seeds, any number of steps",
  "A run of ten steps draws ten of infinitely many demands; that Newton-Raphson converges for all of them needs a bound on the error of every iteration.",
  ['examples/simple_env.py:SimpleEnvironment', PF + ':_newton_raphson_sparse', SIM + ':Simulator.reset', SIM + ':Simulator.transition', ENV + ':ANMEnv.reset', ENV + ':ANMEnv.step'])
p("The six-bus example can always be reset and runs to its end",
  "Every reset of the environment of examples/custom_anm6.py succeeds, whatever the seed and the start date, with the first initial state drawn, although that state is drawn uniformly in [0, 1) regardless of the network (demands are positive, set-points may be outside the capability curves). The initial voltages are between 0.82 and 1.18 pu. The script of the example therefore runs to its end, whatever actions it samples, and so does any longer one up to a year of steps.",
  "all states of the random generator, all seeds, all dates, all sequences of actions of the action space up to a year",
  "A reset draws one of infinitely many initial states; up to 100 draws are tried, so a test does not notice draws that fail, nor show that 100 failures in a row cannot happen.",
  ['examples/custom_anm6.py:CustomANM6Environment', SIM + ':Simulator.reset', SIM + ':Simulator.transition', DEV + ':Load.map_pq', DEV + ':Generator.map_pq', DEV + ':StorageUnit.map_pq', PF + ':_newton_raphson_sparse', ENV + ':ANMEnv.reset', A6 + ':ANM6.reset'])
p("Curtailing alone never ends an episode of the six-bus example",
  "In the environment of examples/custom_anm6.py, an agent that only chooses the active powers of the generators, with no reactive powers and an idle storage unit, never makes the network collapse: no such step ends the episode, whatever is drawn, and the voltages of all buses stay between 0.82 and 1.18 pu. From a reset without a start date it can play any number of steps up to a year.",
  "all states of the random generator, all seeds, all active powers of the action space, all sequences of up to 35040 such actions",
  "Demands and maximum productions are drawn from an interval at every step; that Newton-Raphson converges for all of them needs a bound on the error of every iteration.",
  ['examples/custom_anm6.py:CustomANM6Environment.next_vars', SIM + ':Simulator.transition', DEV + ':Generator.map_pq', DEV + ':StorageUnit.map_pq', PF + ':_newton_raphson_sparse', ENV + ':ANMEnv.step', A6 + ':ANM6.step'])
p("One action collapses the six-bus example, whatever its state",
  "In every state of examples/custom_anm6.py between two steps, the action [0, 0, -30, -50, 0, -50] of its action space makes the load flow fail: step returns terminated=True and the reward -1000, as long as the date of the environment stays before the year 10000.",
  "for all states of the example that can be reached, all random draws, any behaviour of the linear solver within the load flow, exact projections",
  "The demands are drawn from an interval at every step; that no iteration of the load flow succeeds, for any linear solver, needs that the equations have no solution, not even up to the tolerance.",
  ['examples/custom_anm6.py:CustomANM6Environment', SIM + ':Simulator.transition', PF + ':solve_pfe_newton_raphson', ENV + ':ANMEnv.step', A6 + ':ANM6.step'])
p("The rewards of the two-bus example are never clipped",
  "In the environment of examples/simple_env.py the values of costs_clipping, 1 and 100, are never reached: the reward of every step is minus the energy loss and the penalty that the simulator computes, and lies between -1.9101 and 0.00001.",
  "all states of the random generator, all seeds, any number of steps",
  "A run shows the rewards of the demands it draws; that none is ever clipped needs bounds on the currents of the load flow for all of them.",
  ['examples/simple_env.py:SimpleEnvironment', SIM + ':Simulator.transition', SIM + ':Simulator._compute_reward', ENV + ':ANMEnv.step'])
p("In the six-bus example curtailing always pays more than a collapse",
  "In the environment of examples/custom_anm6.py an agent that only curtails the renewable generators, with no reactive powers and an idle storage unit, earns between -42.5 and 1 in every step, so that its discounted rewards never sum up to less than -425. A step that collapses the network is rewarded -1000, so it is worse than curtailing for any number of steps, by 575 or more.",
  "all states of the random generator, all seeds, all setpoints for the two generators, any number of steps, all actions that collapse the network",
  "A run shows the rewards of one agent and one random generator; that the order between them never turns needs bounds on the voltages and currents for all setpoints and all days.",
  ['examples/custom_anm6.py:CustomANM6Environment', A6 + ':ANM6', SIM + ':Simulator.transition', SIM + ':Simulator._compute_reward', ENV + ':ANMEnv.step'])
p("The rewards of the six-bus example are numbers, and a collapse is the worst",
  "Every step of examples/custom_anm6.py that returns is rewarded with a number, never NaN or infinite: -1000 if it ends the episode, otherwise between -101 and 1. In every state between two steps the action [0, 0, -30, -50, 0, -50] is the worst: no action is rewarded less, and those that do not end the episode are rewarded more by 899 or more. The discounted rewards of an episode of any length sum up to a number between -1010 and 10.",
  "all reachable states, all actions, all random draws, any behaviour of the linear solver within the load flow; for the worst action also exact projections and dates before the year 10000",
  "The rewards of all actions in all states are compared; a run shows one reward per state.",
  ['examples/custom_anm6.py:CustomANM6Environment', SIM + ':Simulator.transition', SIM + ':Simulator._compute_reward', ENV + ':ANMEnv.step', A6 + ':ANM6.step'])

with open(os.path.join(os.path.dirname(__file__), "..", "properties.jsonl"), "w") as f:
    for x in P:
        f.write(json.dumps(x) + "\n")
print(len(P))
