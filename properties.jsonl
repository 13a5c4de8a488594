{"id": "C01", "title": "Network validation accepts exactly the well-formed topologies", "statement": "check_network_specs(network) returns without raising if and only if baseMVA > 0, exactly one bus row is a slack bus, exactly one device row is a slack device, that device sits on that bus, bus IDs are pairwise different, device IDs are pairwise different, no branch is a self-loop, no two branches join the same unordered pair of buses, and every branch endpoint is a bus ID.", "quantifier": "every network dictionary whose cells are None or non-NaN numbers, any number of rows", "why_tests_cant": "The duplicate-branch test counts a set of ordered pairs; that the count test is equivalent to 'no loop, no parallel, no antiparallel' is a statement about all lists of branches.", "anchors": ["gym_anm/simulator/check_network.py:check_network_specs"]}
{"id": "C02", "title": "Malformed networks are rejected with the documented exception class", "statement": "When check_network_specs raises, the class is determined by the first violated rule in the documented order: BaseMVAError for baseMVA <= 0; BusSpecError for not exactly one slack bus or duplicate bus IDs; DeviceSpecError for not exactly one slack device, a slack device not on the slack bus, or duplicate device IDs; BranchSpecError for parallel branches, loops or unknown endpoints. It never raises anything else.", "quantifier": "every network dictionary (cells None or any IEEE number, NaN included)", "why_tests_cant": "Needs all orders and combinations of violations, including NaN cells.", "anchors": ["gym_anm/simulator/check_network.py:check_network_specs", "gym_anm/simulator/components/errors.py"]}
{"id": "C03", "title": "Accepted loads only withdraw power and have ordered limits", "statement": "A Load constructed without error satisfies p_min <= p_max <= 0, p_min is the PMIN cell divided by baseMVA (or -inf when None), and q limits are the p limits times Q/P.", "quantifier": "every device row with non-NaN cells and every baseMVA > 0", "why_tests_cant": "Ranges over all combinations of None/finite/infinite cells.", "anchors": ["gym_anm/simulator/components/devices.py:Load._check_type_specific_specs"]}
{"id": "C04", "title": "Load power limits are expressed in per-unit", "statement": "The upper active-power limit of a load, reported in MW by the simulator (per-unit limit times baseMVA), equals the PMAX cell of the network file.", "quantifier": "every accepted load row and every baseMVA", "why_tests_cant": "The shipped networks only use PMAX = 0, where a missing unit conversion is invisible.", "anchors": ["gym_anm/simulator/components/devices.py:Load._check_type_specific_specs", "gym_anm/simulator/simulator.py:Simulator.get_state_space"]}
{"id": "C05", "title": "Accepted generators have a coherent capability curve", "statement": "A non-slack generator constructed without error from NaN-free cells satisfies 0 <= p_min <= P+ <= p_max and q_min <= Q- <= Q+ <= q_max, all in per-unit.", "quantifier": "every device row with non-NaN cells and every baseMVA > 0", "why_tests_cant": "Needs every combination of defaulted and given cells.", "anchors": ["gym_anm/simulator/components/devices.py:Generator._check_type_specific_specs"]}
{"id": "C06", "title": "Accepted storage units have a coherent capability curve, capacity and efficiency", "statement": "A storage unit constructed without error from NaN-free cells satisfies p_min <= 0 <= p_max, p_min <= P- <= P+ <= p_max, q_min <= Q- <= Q+ <= q_max, 0 <= soc_min <= soc_max and 0 <= eff <= 1.", "quantifier": "every device row with non-NaN cells and every baseMVA > 0", "why_tests_cant": "Needs every combination of defaulted and given cells.", "anchors": ["gym_anm/simulator/components/devices.py:StorageUnit._check_type_specific_specs"]}
{"id": "C07", "title": "Accepted branches have a well-defined physical model", "statement": "A TransmissionLine constructed without error from NaN-free cells has r,x,b,rate >= 0, (r,x) != (0,0), tap ratio > 0, shift in [0,360] degrees, endpoints among the bus IDs, and its series admittance times (r+jx) is 1.", "quantifier": "every branch row with non-NaN cells", "why_tests_cant": "Ranges over all cells; the division 1/(r+jx) must be safe for all accepted rows.", "anchors": ["gym_anm/simulator/components/branch.py:TransmissionLine._check_input_specs", "gym_anm/simulator/components/branch.py:TransmissionLine._compute_admittances"]}
{"id": "C08", "title": "NaN cells are rejected", "statement": "A network row containing NaN in a limit column is rejected by the constructors.", "quantifier": "every device, bus and branch row", "why_tests_cant": "A test would have to enumerate columns and NaN positions; every comparison with NaN is false so checks written as 'raise if x < y' silently pass.", "anchors": ["gym_anm/simulator/components/devices.py", "gym_anm/simulator/components/bus.py", "gym_anm/simulator/components/branch.py", "gym_anm/simulator/check_network.py"]}
{"id": "C09", "title": "The simulator does not depend on the row order of the network file", "statement": "Permuting the bus rows and device rows of an accepted network yields the same simulator: same ordered buses, devices, limits, action space and state space.", "quantifier": "every network with distinct integral IDs and every permutation of its rows", "why_tests_cant": "All permutations of all networks.", "anchors": ["gym_anm/simulator/simulator.py:Simulator._load_case"]}
{"id": "C10", "title": "No device or bus of the network file is silently dropped", "statement": "After construction the simulator has exactly one bus per bus row, one device per device row and one branch per branch row, with the IDs of the file, sorted increasingly (branches in file order).", "quantifier": "every accepted network", "why_tests_cant": "Dictionaries keyed by int(ID) overwrite silently; must hold for all ID values.", "anchors": ["gym_anm/simulator/simulator.py:Simulator._load_case", "gym_anm/simulator/check_network.py:check_network_specs"]}
{"id": "C11", "title": "Device counters partition the devices", "statement": "N_device = 1 + N_load + N_non_slack_gen + N_des, N_gen_rer <= N_non_slack_gen, N_bus is the number of buses, so the advertised vector sizes are mutually consistent.", "quantifier": "every accepted network", "why_tests_cant": "All networks.", "anchors": ["gym_anm/simulator/simulator.py:Simulator.__init__"]}
{"id": "C12", "title": "The generator constraint set is the documented capability region", "statement": "The inequality system handed to the projection solver for a generator describes exactly: p_min <= P <= min(p_max, p_pot), q_min <= Q <= q_max, and for P above P+, Q at most the straight line from (P+, q_max) to (p_max, Q+) and at least the straight line from (P+, q_min) to (p_max, Q-).", "quantifier": "every accepted non-slack generator with finite limits, every potential, every (P,Q)", "why_tests_cant": "Equality of two sets of reals.", "anchors": ["gym_anm/simulator/components/devices.py:Generator.map_pq", "gym_anm/simulator/components/devices.py:Generator._check_type_specific_specs"]}
{"id": "C13", "title": "The storage constraint set is the documented capability region and SoC window", "statement": "The inequality system handed to the projection solver for a storage unit describes exactly the box, the four capability lines, and the power window [(soc - soc_max)/(delta_t*eff), eff*(soc - soc_min)/delta_t].", "quantifier": "every accepted storage unit with finite limits and eff > 0, every soc, delta_t > 0 and (P,Q)", "why_tests_cant": "Equality of two sets of reals.", "anchors": ["gym_anm/simulator/components/devices.py:StorageUnit.map_pq", "gym_anm/simulator/components/devices.py:StorageUnit._check_type_specific_specs"]}
{"id": "C14", "title": "A generator set-point can always be mapped: the projection problem is feasible", "statement": "For every accepted generator and every potential, the constraint set of map_pq is non-empty, so map_pq never fails with 'NoneType is not subscriptable'.", "quantifier": "every accepted non-slack generator, every potential and every set-point", "why_tests_cant": "Non-emptiness over all parameter combinations.", "anchors": ["gym_anm/simulator/components/devices.py:Generator.map_pq"]}
{"id": "C15", "title": "A storage set-point can always be mapped: the projection problem is feasible", "statement": "For every accepted storage unit and every state of charge within its limits, the constraint set of map_pq is non-empty, so map_pq never fails.", "quantifier": "every accepted storage unit, every soc in [soc_min, soc_max], delta_t > 0 and every set-point", "why_tests_cant": "Non-emptiness over all parameter combinations, including the corner values of eff.", "anchors": ["gym_anm/simulator/components/devices.py:StorageUnit.map_pq"]}
{"id": "C16", "title": "Mapping returns the unique closest feasible point, leaves feasible points alone and is idempotent", "statement": "The point selected by map_pq is feasible, no feasible point is closer to the request, it is the only such point, it equals the request when the request is feasible, and mapping twice equals mapping once.", "quantifier": "every generator and storage unit, every request, for a QP solver meeting its contract", "why_tests_cant": "Optimality over the continuum.", "anchors": ["gym_anm/simulator/components/devices.py:Generator.map_pq", "gym_anm/simulator/components/devices.py:StorageUnit.map_pq"]}
{"id": "C17", "title": "Generator injections respect physical limits and the available potential", "statement": "After a transition every non-slack generator has p_min <= p <= min(p_max, potential) and q_min <= q <= q_max, whatever the action and the potential.", "quantifier": "every network, state, action and exogenous input", "why_tests_cant": "All inputs.", "anchors": ["gym_anm/simulator/simulator.py:Simulator.transition", "gym_anm/simulator/components/devices.py:Generator.map_pq"]}
{"id": "C18", "title": "Load injections are clipped to their limits and keep a constant power factor", "statement": "After a transition every load has p_min <= p <= p_max, p equals the demand when the demand is within limits, and q = p * Q/P.", "quantifier": "every load and every demand", "why_tests_cant": "All demands, including infinite ones.", "anchors": ["gym_anm/simulator/components/devices.py:Load.map_pq"]}
{"id": "C19", "title": "State of charge stays within its limits forever", "statement": "Starting from a state of charge within [soc_min, soc_max], after any number of transitions with any actions every storage unit's state of charge is still within [soc_min, soc_max], even if the QP solver returns an arbitrary (non-NaN) power.", "quantifier": "every storage unit, every finite sequence of transitions, every solver behaviour", "why_tests_cant": "Unbounded histories and arbitrary solver output.", "anchors": ["gym_anm/simulator/components/devices.py:StorageUnit.update_soc", "gym_anm/simulator/simulator.py:Simulator.transition"]}
{"id": "C20", "title": "State of charge after reset is within its limits", "statement": "After Simulator.reset(init_state) every storage unit has soc_min <= soc <= soc_max and the next transition can be computed.", "quantifier": "every init_state vector", "why_tests_cant": "All initial vectors, in particular ones whose SoC entry is outside the limits.", "anchors": ["gym_anm/simulator/simulator.py:Simulator.reset"]}
{"id": "C21", "title": "Storage energy accounting is exact", "statement": "With an exact projection, a transition changes the state of charge by exactly -delta_t*eff*p when charging (p <= 0) and -delta_t*p/eff when discharging (p > 0): the final clip never creates or destroys energy.", "quantifier": "every accepted storage unit with eff > 0, every soc in limits, every request, delta_t > 0", "why_tests_cant": "All inputs; the clip silently hides accounting errors.", "anchors": ["gym_anm/simulator/components/devices.py:StorageUnit.map_pq", "gym_anm/simulator/components/devices.py:StorageUnit.update_soc"]}
{"id": "C22", "title": "Storage never creates energy; the round trip yields eff squared of what went in", "statement": "Over any sequence of transitions, energy delivered to the grid is at most eff^2 times energy drawn plus eff times the initial stored energy above soc_min; and a charge followed by a discharge back to the same SoC returns exactly eff^2 of the energy drawn.", "quantifier": "every finite sequence of transitions of an accepted storage unit", "why_tests_cant": "Needs induction over unbounded histories.", "anchors": ["gym_anm/simulator/components/devices.py:StorageUnit.update_soc"]}
{"id": "C23", "title": "The efficiency column is the round-trip efficiency", "statement": "A full charge/discharge cycle returns the fraction EFF of the energy drawn from the grid (the column is documented as round-trip efficiency).", "quantifier": "every storage unit with 0 < EFF < 1", "why_tests_cant": "Claim about all cycles.", "anchors": ["gym_anm/simulator/components/devices.py:Device", "gym_anm/simulator/components/devices.py:StorageUnit.update_soc"]}
{"id": "C24", "title": "Reset reproduces the requested storage injection when the battery is large enough", "statement": "If the requested (P,Q) of a storage unit is inside its capability region and |P| is sustainable for one step from the extreme SoC selected by reset, the device injects exactly the requested (P,Q) after reset; its SoC is then exactly the requested one.", "quantifier": "every init_state vector and storage unit", "why_tests_cant": "All requests.", "anchors": ["gym_anm/simulator/simulator.py:Simulator.reset"]}
{"id": "C25", "title": "pfe_converged certifies the power-flow equations", "statement": "When the load-flow reports convergence, at every non-slack bus the active and reactive power V*conj(YV) differ from the bus injection by at most 1e-5 p.u. in absolute value, whatever the sparse linear solver returned along the way.", "quantifier": "every contiguous-ID network with the slack first, every injection vector, every linear-solver behaviour", "why_tests_cant": "All networks, injections and solver behaviours.", "anchors": ["gym_anm/simulator/solve_load_flow.py:solve_pfe_newton_raphson", "gym_anm/simulator/solve_load_flow.py:_newton_raphson_sparse", "gym_anm/simulator/solve_load_flow.py:_f"]}
{"id": "C26", "title": "The Newton-Raphson loop always stops", "statement": "The load-flow performs at most 100 linear solves and then stops; it reports failure whenever the residual is NaN or above tolerance.", "quantifier": "every network, injection and linear-solver behaviour", "why_tests_cant": "Termination over all behaviours.", "anchors": ["gym_anm/simulator/solve_load_flow.py:_newton_raphson_sparse"]}
{"id": "C27", "title": "The Jacobian used by Newton-Raphson is the derivative of the mismatch", "statement": "Every entry of _dfdx is the partial derivative of the corresponding entry of _f with respect to the corresponding angle or magnitude.", "quantifier": "every admittance matrix, every guess", "why_tests_cant": "A derivative is a limit; finite differences only sample.", "anchors": ["gym_anm/simulator/solve_load_flow.py:_dfdx", "gym_anm/simulator/solve_load_flow.py:_f"]}
{"id": "C28", "title": "The slack bus is held at 1 p.u. and zero angle", "statement": "After every load flow the slack bus voltage is exactly 1+0j.", "quantifier": "every network with any position of the slack bus, every injection", "why_tests_cant": "All networks; shipped examples always number the slack bus 0.", "anchors": ["gym_anm/simulator/solve_load_flow.py:_construct_v_from_guess", "gym_anm/simulator/solve_load_flow.py:solve_pfe_newton_raphson"]}
{"id": "C29", "title": "Kirchhoff's current law holds between bus and branch currents", "statement": "For every bus, the current injected (row of Y times V) equals the sum of the currents entering the branches attached to it.", "quantifier": "every accepted network with contiguous IDs and every voltage vector", "why_tests_cant": "All graphs and voltages.", "anchors": ["gym_anm/simulator/simulator.py:Simulator._build_admittance_matrix", "gym_anm/simulator/components/branch.py:TransmissionLine.compute_currents"]}
{"id": "C30", "title": "Branches never generate active power", "statement": "For every accepted branch and all end voltages, p_from + p_to = g*|v_f/tap - v_t|^2 with g = r/(r^2+x^2), hence >= 0, and = 0 when r = 0.", "quantifier": "every accepted branch, every pair of complex voltages", "why_tests_cant": "Continuum of voltages and parameters.", "anchors": ["gym_anm/simulator/components/branch.py:TransmissionLine.compute_currents", "gym_anm/simulator/components/branch.py:TransmissionLine.compute_power_flows"]}
{"id": "C31", "title": "Total injected power equals total line losses", "statement": "The sum over buses of Re(V*conj(I)) equals the sum over branches of p_from + p_to, hence is non-negative.", "quantifier": "every accepted network with contiguous IDs and every voltage vector", "why_tests_cant": "All graphs and voltages.", "anchors": ["gym_anm/simulator/simulator.py:Simulator._build_admittance_matrix", "gym_anm/simulator/solve_load_flow.py:solve_pfe_newton_raphson"]}
{"id": "C32", "title": "The reported energy loss is line losses plus curtailment plus net storage charging", "statement": "After a converged transition of a network whose slack device is alone on the slack bus, |e_loss - delta_t*(sum of line losses + sum of renewable curtailment - sum of storage injections)| <= delta_t*(N_bus-1)*1e-5.", "quantifier": "every contiguous-ID network with the slack first and finite line parameters, every state and action", "why_tests_cant": "All histories; combines the solver tolerance with an exact balance.", "anchors": ["gym_anm/simulator/simulator.py:Simulator._compute_reward", "gym_anm/simulator/solve_load_flow.py:solve_pfe_newton_raphson"]}
{"id": "C33", "title": "Bus injections equal the sum of the injections of their devices", "statement": "After a transition the reported p and q of each bus equal the sums of p and q over the devices connected to it.", "quantifier": "every network and transition", "why_tests_cant": "All device placements, including devices on the slack bus.", "anchors": ["gym_anm/simulator/simulator.py:Simulator._get_bus_total_injections", "gym_anm/simulator/solve_load_flow.py:solve_pfe_newton_raphson"]}
{"id": "C34", "title": "Branch apparent power is the larger end flow, signed by direction", "statement": "|s_apparent_max| = max(|S_from|, |S_to|) and its sign is + when p_from >= 0 and - otherwise.", "quantifier": "every branch and voltages", "why_tests_cant": "Needs the boundary p_from = 0 exactly.", "anchors": ["gym_anm/simulator/components/branch.py:TransmissionLine.compute_power_flows"]}
{"id": "C35", "title": "Branch current magnitude is the magnitude of the current", "statement": "The reported branch_i_magn equals |i_from| up to sign.", "quantifier": "every branch current", "why_tests_cant": "All complex currents; depends on numpy's definition of sign for complex numbers.", "anchors": ["gym_anm/simulator/simulator.py:Simulator._gather_state"]}
{"id": "C36", "title": "Accepted networks can be simulated", "statement": "For every network accepted by the constructor, reset with a correctly sized finite vector raises no exception.", "quantifier": "every accepted network and every correctly sized init vector", "why_tests_cant": "Quantifies over all accepted networks: ID gaps, zero efficiency, missing VMIN, infinite PMAX.", "anchors": ["gym_anm/simulator/simulator.py:Simulator.__init__", "gym_anm/simulator/simulator.py:Simulator.reset", "gym_anm/simulator/solve_load_flow.py", "gym_anm/simulator/components/devices.py"]}
{"id": "C37", "title": "The penalty is non-negative and zero exactly when all operating limits hold", "statement": "The penalty computed by transition is >= 0, is 0 when lamb = 0 (and the limits are finite), and for lamb > 0 it is 0 iff every bus voltage magnitude is within [v_min, v_max] and every |branch_s| is at most the branch rate; the reward is -(e_loss + penalty).", "quantifier": "every transition of every network to a state whose reported magnitudes are numbers, in particular every converged one", "why_tests_cant": "All states.", "anchors": ["gym_anm/simulator/simulator.py:Simulator._compute_reward"]}
{"id": "C38", "title": "All units of a quantity agree", "statement": "In the state dictionary every MW/MVAr/MVA/MWh entry is baseMVA times the p.u. entry, every kV entry is baseKV times the p.u. entry, every degree entry is 180/pi times the radian entry, for the same set of IDs.", "quantifier": "every state", "why_tests_cant": "All states and all IDs.", "anchors": ["gym_anm/simulator/simulator.py:Simulator._gather_state"]}
{"id": "C39", "title": "Bounds agree across units", "statement": "For every quantity and ID of the state-space dictionary, the bounds in MW/MVAr/MWh are baseMVA times the bounds in p.u.", "quantifier": "every accepted network", "why_tests_cant": "All networks; shipped networks have PMAX = QMAX for generators.", "anchors": ["gym_anm/simulator/simulator.py:Simulator.get_state_space"]}
{"id": "C40", "title": "State variables respect the advertised state-space bounds at every timestep", "statement": "After every transition each reported dev_p, dev_q, des_soc, gen_p_max, bus_p, bus_q, bus_v_magn lies within the bounds returned by get_state_space (documented: 'respected at all timesteps').", "quantifier": "every network and history", "why_tests_cant": "All histories.", "anchors": ["gym_anm/simulator/simulator.py:Simulator.get_state_space", "gym_anm/simulator/simulator.py:Simulator.transition"]}
{"id": "C41", "title": "Bus limits are the sums of the limits of the connected devices", "statement": "The p/q bounds of a bus are the sums of the p/q bounds of the devices connected to it (0 for a bus without devices).", "quantifier": "every accepted network", "why_tests_cant": "All networks.", "anchors": ["gym_anm/simulator/simulator.py:Simulator._compute_bus_bounds"]}
{"id": "C42", "title": "A transition depends only on the network, the states of charge and its arguments", "statement": "Two simulators of the same network whose storage units have the same state of charge return the same state, reward and convergence flag for the same arguments, whatever happened before.", "quantifier": "every pair of histories", "why_tests_cant": "All pairs of unbounded histories.", "anchors": ["gym_anm/simulator/simulator.py:Simulator.transition"]}
{"id": "C43", "title": "Environment arguments are accepted exactly when documented", "statement": "check_env_args accepts iff K >= 0, delta_t > 0, lamb >= 0, 0 <= gamma <= 1, the observation is 'state', a callable or a list of supported items, and aux_bounds (if given) has length K; numeric violations raise ArgsError.", "quantifier": "all arguments", "why_tests_cant": "All observation lists.", "anchors": ["gym_anm/envs/utils.py:check_env_args", "gym_anm/envs/utils.py:_check_observation_vars"]}
{"id": "C44", "title": "An accepted observation list can always be observed", "statement": "If check_env_args accepts an observation list then building the observation space and observing any state raise no KeyError/IndexError, and every item reads the variable it names.", "quantifier": "every accepted observation list and every state", "why_tests_cant": "All observation lists, including default units and auxiliary indices.", "anchors": ["gym_anm/envs/utils.py:_check_observation_vars", "gym_anm/envs/anm_env.py:ANMEnv._build_observation_space", "gym_anm/envs/anm_env.py:ANMEnv.observation_bounds", "gym_anm/simulator/components/constants.py:STATE_VARIABLES"]}
{"id": "C45", "title": "The action vector is decoded device by device in the order of the action space", "statement": "Component k of the action is applied to the device, and to P or Q, whose bounds are component k of action_space; every non-slack generator and storage unit gets exactly one P and one Q set-point and nobody else does.", "quantifier": "every network and every action vector of the right length", "why_tests_cant": "All networks.", "anchors": ["gym_anm/envs/anm_env.py:ANMEnv._build_action_space", "gym_anm/envs/anm_env.py:ANMEnv.step", "gym_anm/simulator/simulator.py:Simulator.get_action_space"]}
{"id": "C46", "title": "Terminal states are absorbing", "statement": "Once terminated, every later step returns the zero observation, reward 0.0, terminated = True and changes neither the simulator nor the timestep, until reset.", "quantifier": "every finite sequence of actions after termination", "why_tests_cant": "Unbounded sequences.", "anchors": ["gym_anm/envs/anm_env.py:ANMEnv.step"]}
{"id": "C47", "title": "Rewards are clipped", "statement": "For every non-terminal step the reward equals -(e_loss + penalty) of the clipped costs, with |e_loss| <= c1 and 0 <= penalty <= c2, hence -(c1+c2) <= r <= c1; the terminating step returns -c2/(1-gamma).", "quantifier": "every step of every environment with finite, non-negative clipping values and costs that are not NaN", "why_tests_cant": "All states.", "anchors": ["gym_anm/envs/anm_env.py:ANMEnv.step"]}
{"id": "C48", "title": "Every accepted discount factor works", "statement": "With gamma in [0,1] accepted by the constructor, a step that collapses the network returns a reward instead of raising.", "quantifier": "every gamma accepted by check_env_args", "why_tests_cant": "gamma = 1 is a boundary value only reached when the network collapses.", "anchors": ["gym_anm/envs/anm_env.py:ANMEnv.step", "gym_anm/envs/utils.py:check_env_args"]}
{"id": "C49", "title": "State vectors always have the advertised size and layout", "statement": "After reset and after every step the state vector has length 2*N_device + N_des + N_non_slack_gen + K = state_N and lists dev_p (MW), dev_q (MVAr), des_soc (MWh), gen_p_max (MW) by increasing ID and then the K auxiliary variables; a terminal state is the zero vector of the same length.", "quantifier": "every environment and history", "why_tests_cant": "All histories.", "anchors": ["gym_anm/envs/anm_env.py:ANMEnv._construct_state", "gym_anm/envs/anm_env.py:ANMEnv._extract_state_variables", "gym_anm/envs/anm_env.py:ANMEnv.__init__"]}
{"id": "C50", "title": "Auxiliary variables flow unchanged into the state", "statement": "After a non-terminal step the last K components of the state are exactly the last K components of the vector returned by next_vars; after reset they are the last K components of the vector returned by init_state.", "quantifier": "every K, environment and history", "why_tests_cant": "All K and histories; relies on negative indexing into the previous array.", "anchors": ["gym_anm/envs/anm_env.py:ANMEnv.step", "gym_anm/envs/anm_env.py:ANMEnv._extract_state_variables"]}
{"id": "C51", "title": "Observations lie in the observation space", "statement": "For built-in observations whose bounds are ordered, the observation returned by reset and step has the length of the observation space, every component lies within its bounds, and equals the requested quantity when that is within bounds.", "quantifier": "every environment, state and action", "why_tests_cant": "All states.", "anchors": ["gym_anm/envs/anm_env.py:ANMEnv.observation", "gym_anm/envs/anm_env.py:ANMEnv.observation_bounds"]}
{"id": "C52", "title": "Wrong-sized user vectors are rejected with the documented error", "statement": "reset raises EnvInitializationError iff init_state returns a vector of the wrong size, and step raises EnvNextVarsError iff next_vars does, before touching the simulator.", "quantifier": "all vector lengths", "why_tests_cant": "All sizes.", "anchors": ["gym_anm/envs/anm_env.py:ANMEnv.reset", "gym_anm/envs/anm_env.py:ANMEnv.step"]}
{"id": "C53", "title": "reset tries at most 100 initial states and reports failure as EnvInitializationError", "statement": "reset calls init_state at most 100 times; if one of the first 100 converges it succeeds with the first that does, otherwise it raises EnvInitializationError.", "quantifier": "every stream of initial states", "why_tests_cant": "All convergence patterns; the 100th attempt is a boundary.", "anchors": ["gym_anm/envs/anm_env.py:ANMEnv.reset"]}
{"id": "C54", "title": "reset erases history", "statement": "After reset with a given seed, all later observations, rewards and flags are a function of the seed and the actions only: two environments with different pasts behave identically.", "quantifier": "every pair of histories and every action sequence; built-in observations and callables that return vectors of one length", "why_tests_cant": "Unbounded histories; hidden mutable state.", "anchors": ["gym_anm/envs/anm_env.py:ANMEnv.reset", "gym_anm/simulator/simulator.py:Simulator.reset"]}
{"id": "C55", "title": "timestep counts the non-terminal steps since reset", "statement": "timestep is 0 after reset, increases by 1 for each step taken in a non-terminal state, and is unchanged by steps taken after termination.", "quantifier": "every action sequence", "why_tests_cant": "Unbounded sequences.", "anchors": ["gym_anm/envs/anm_env.py:ANMEnv.step", "gym_anm/envs/anm_env.py:ANMEnv.reset"]}
{"id": "C56", "title": "ANM6Easy's clock is the time of day modulo 96", "statement": "After reset the auxiliary variable is an integer t0 in [0,96); after n non-terminal steps it is (t0+n) mod 96; the time-series lookups are never out of range and the exogenous inputs have period 96.", "quantifier": "every seed and every number of steps", "why_tests_cant": "Unbounded horizon.", "anchors": ["gym_anm/envs/anm6_env/anm6_easy.py:ANM6Easy.next_vars", "gym_anm/envs/anm6_env/anm6_easy.py:ANM6Easy.init_state"]}
{"id": "C57", "title": "ANM6Easy's time series have 96 entries, within the physical limits, and move linearly between scenario levels", "statement": "All five series have length 96, loads are within [PMIN,0], maximum generations within [0,PMAX] of their device, and the 7-point transitions interpolate linearly between the adjacent plateaus (documented).", "quantifier": "every time of day", "why_tests_cant": "A finite table, but no test reads it against the network file and the documentation.", "anchors": ["gym_anm/envs/anm6_env/anm6_easy.py:_get_load_time_series", "gym_anm/envs/anm6_env/anm6_easy.py:_get_gen_time_series", "gym_anm/envs/anm6_env/network.py:network"]}
{"id": "C58", "title": "ANM6Easy samples the initial state in the simulator's units", "statement": "The initial state's reactive set-points range over [q_min,q_max] MVAr and the state of charge over [soc_min, soc_max] MWh, i.e. the battery can start anywhere between empty and full.", "quantifier": "every random draw", "why_tests_cant": "All draws.", "anchors": ["gym_anm/envs/anm6_env/anm6_easy.py:ANM6Easy.init_state", "gym_anm/simulator/simulator.py:Simulator.reset"]}
{"id": "C59", "title": "ANM6's calendar follows the step count", "statement": "date = date_init + n*timestep after n steps since reset (terminal or not) and year_count = (whole days elapsed) // 365.", "quantifier": "every number of steps", "why_tests_cant": "Unbounded horizon.", "anchors": ["gym_anm/envs/anm6_env/anm6.py:ANM6.step", "gym_anm/envs/anm6_env/anm6.py:ANM6.reset", "gym_anm/envs/anm6_env/anm6_easy.py:ANM6Easy.reset"]}
{"id": "C60", "title": "random_date stays within the year", "statement": "random_date(rng, year) is midnight of a day of that year, for leap and non-leap years.", "quantifier": "every draw and every year", "why_tests_cant": "All years and draws.", "anchors": ["gym_anm/envs/anm6_env/utils.py:random_date"]}
{"id": "C61", "title": "Rendering with skip_frames=k updates every k+1 calls", "statement": "Calling render(skip_frames=k) after every step refreshes the display on exactly one call out of every k+1 consecutive ones, including the initial state on the first call.", "quantifier": "every k and every number of calls", "why_tests_cant": "Unbounded sequences; the first call is special.", "anchors": ["gym_anm/envs/anm6_env/anm6.py:ANM6.render"]}
{"id": "C62", "title": "reset keeps the rendering mode and close is safe at any time", "statement": "reset leaves render_mode unchanged; close never raises, sets render_mode to None, and terminates the servers iff rendering was started.", "quantifier": "every sequence of render/reset/close", "why_tests_cant": "All interleavings of calls.", "anchors": ["gym_anm/envs/anm6_env/anm6.py:ANM6.reset", "gym_anm/envs/anm6_env/anm6.py:ANM6.close", "gym_anm/envs/anm6_env/anm6.py:ANM6.render"]}
{"id": "C63", "title": "MPC actions are always valid actions", "statement": "The vector returned by act has the length of the action space and lies within its bounds, so env.step accepts it, whatever the OPF solver returned.", "quantifier": "every network with ordered action bounds and every solver output", "why_tests_cant": "All solver outputs.", "anchors": ["gym_anm/agents/mpc.py:MPCAgent.act", "gym_anm/agents/mpc.py:MPCAgent._solve"]}
{"id": "C64", "title": "MPC set-points reach the device they were planned for", "statement": "For a plan within the limits, decoding the MPC action in env.step gives each non-slack generator and storage unit its own planned P (in MW) and Q = 0.", "quantifier": "every network and plan", "why_tests_cant": "All networks: composes two independently written index computations.", "anchors": ["gym_anm/agents/mpc.py:MPCAgent._solve", "gym_anm/envs/anm_env.py:ANMEnv.step"]}
{"id": "C65", "title": "Perfect forecasts equal the future", "statement": "Column j of MPCAgentPerfect.forecast is what next_vars will return j+1 steps later (in p.u.), for any horizon, also across midnight.", "quantifier": "every time of day and horizon length", "why_tests_cant": "Unbounded horizon; loop that tiles the series.", "anchors": ["gym_anm/agents/mpc_perfect.py:MPCAgentPerfect.forecast", "gym_anm/envs/anm6_env/anm6_easy.py:ANM6Easy.next_vars"]}
{"id": "C66", "title": "Constant forecasts repeat the present", "statement": "Every column of MPCAgentConstant.forecast equals the current load injections and maximum generations in p.u., with planning_steps columns ordered by device ID.", "quantifier": "every state and horizon", "why_tests_cant": "All horizons.", "anchors": ["gym_anm/agents/mpc_constant.py:MPCAgentConstant.forecast"]}
{"id": "C67", "title": "DC plans balance power", "statement": "In every feasible point of the single-stage DC-OPF of a network without phase shifters, the planned device injections sum to zero.", "quantifier": "every network and feasible plan", "why_tests_cant": "All graphs and plans.", "anchors": ["gym_anm/agents/mpc.py:MPCAgent._single_step_optimization_problem", "gym_anm/agents/mpc.py:MPCAgent._create_p_bus_expressions"]}
{"id": "C68", "title": "MPC plans never over-discharge a battery", "statement": "If a plan satisfies the storage constraints then applying its P to the real storage dynamics keeps the state of charge at least at the planned one, hence at least soc_min, over the whole horizon.", "quantifier": "every horizon and every feasible plan (including simultaneous charge and discharge)", "why_tests_cant": "Unbounded horizon, relaxation argument.", "anchors": ["gym_anm/agents/mpc.py:MPCAgent._single_step_optimization_problem", "gym_anm/simulator/components/devices.py:StorageUnit.update_soc"]}
{"id": "C69", "title": "The MPC reference angle is the slack bus angle", "statement": "The DC-OPF fixes to zero the voltage angle of the slack bus.", "quantifier": "every accepted network", "why_tests_cant": "Shipped networks have slack device and slack bus at the same position.", "anchors": ["gym_anm/agents/mpc.py:MPCAgent._single_step_optimization_problem"]}
{"id": "C70", "title": "Every viewer gets the configuration and every update", "statement": "A client that connects after the init message was received gets that message on connection (unless it is the sender's own connection), every update message is broadcast to all connected clients, and the server's client table is exactly the set of connected clients, for any interleaving of connections, messages and disconnections.", "quantifier": "every finite sequence of connect/message/disconnect events", "why_tests_cant": "All interleavings.", "anchors": ["gym_anm/envs/anm6_env/rendering/py/servers.py:WsServer.new_client", "gym_anm/envs/anm6_env/rendering/py/servers.py:WsServer.msg_received", "gym_anm/envs/anm6_env/rendering/py/servers.py:WsServer.client_left"]}
{"id": "C71", "title": "Branch flows are those of the two-port pi-model", "statement": "After every finite load flow the currents at the two ends of each branch are those of the documented pi-model (series impedance r+jx, half of the line charging at each end, ideal transformer tap*exp(j*shift) at the from-end) for the reported bus voltages, and the reported p/q are V*conj(I) of each end.", "quantifier": "every contiguous-ID network with finite line parameters, every injection and every linear-solver behaviour", "why_tests_cant": "All line parameters and all voltages; the code computes it through admittance matrix entries.", "anchors": ["gym_anm/simulator/components/branch.py:Branch.compute_power_flows", "gym_anm/simulator/solve_load_flow.py:solve_pfe_newton_raphson"]}
{"id": "C72", "title": "A transition of a workable network raises no exception", "statement": "If every bus has a lower voltage limit, all limits of the generators and storage units are finite, every storage efficiency is positive and every state of charge is within its limits, then transition raises no exception on arguments that cover every device with finite numbers, provided the load-flow does not raise.", "quantifier": "every such network, state and finite arguments; every QP solver that fails only on infeasible problems", "why_tests_cant": "Absence of exceptions over all states, including dictionary look-ups and divisions.", "anchors": ["gym_anm/simulator/simulator.py:Simulator.transition", "gym_anm/simulator/simulator.py:Simulator._compute_reward", "gym_anm/simulator/components/devices.py"]}
{"id": "C73", "title": "An idle network converges to the flat profile", "statement": "If no bus except the slack bus injects power and no branch has line charging or a transformer, the load flow reports convergence, every bus is at exactly 1+0j and the slack bus injects nothing, whatever the linear solver does.", "quantifier": "every contiguous-ID network with the slack first and finite line parameters", "why_tests_cant": "All topologies.", "anchors": ["gym_anm/simulator/solve_load_flow.py:solve_pfe_newton_raphson", "gym_anm/simulator/simulator.py:Simulator.transition"]}
{"id": "C74", "title": "A reset erases the past", "statement": "After any two histories of transitions and resets of a simulator, a reset with the same vector gives the same outcome: the same exception, or the same flag, state dictionary, and the same response to every later call.", "quantifier": "every pair of histories and every reset vector", "why_tests_cant": "All pairs of unbounded histories; the reset goes through a transition on the stale objects.", "anchors": ["gym_anm/simulator/simulator.py:Simulator.reset", "gym_anm/simulator/simulator.py:Simulator.transition"]}
{"id": "C75", "title": "A callable observation must return a single-precision vector", "statement": "If the observation argument is a callable that returns an array that cannot be cast safely to float32 (such as the float64 arrays numpy creates by default) and observation_bounds is not overridden, no call of reset ever succeeds.", "quantifier": "every such callable and every history", "why_tests_cant": "All callables; the cause is a data type chosen in another method.", "anchors": ["gym_anm/envs/anm_env.py:ANMEnv.reset", "gym_anm/envs/anm_env.py:ANMEnv.observation_bounds"]}
{"id": "C76", "title": "The vector returned by next_vars reaches the devices it is meant for", "statement": "In every step from a non-terminal state the first N_load components of the vector returned by next_vars are the demands of the loads by increasing device ID, the next N_non_slack_gen ones are the potentials of the non-slack generators by increasing device ID, and no other device gets a value.", "quantifier": "every environment, history and vector of the right size", "why_tests_cant": "All networks: the order depends on two running indices over a sorted dictionary.", "anchors": ["gym_anm/envs/anm_env.py:ANMEnv.step", "gym_anm/simulator/simulator.py:Simulator.transition"]}
{"id": "C77", "title": "ANM6Easy's calendar and its clock agree", "statement": "As long as an ANM6Easy episode has not terminated, and if it was reset to a day (midnight) or to no date, the time of day of env.date equals the auxiliary variable of the state times 15 minutes.", "quantifier": "every seed, every initial day, every number of steps", "why_tests_cant": "The two clocks are kept separately (a float in the state vector, a datetime in the object) and only coincide because of an adjustment in reset; checking it needs induction over the number of steps.", "anchors": ["gym_anm/envs/anm6_env/anm6_easy.py:reset", "gym_anm/envs/anm6_env/anm6_easy.py:next_vars", "gym_anm/envs/anm6_env/anm6.py:step"]}
{"id": "C78", "title": "Feasible MPC plans satisfy the DC power flow equations", "statement": "In every stage of a feasible plan for a network without phase shifters, the power planned for the devices of each bus equals the sum, over the branches at that bus, of x/(r^2+x^2)/tap times the difference of the voltage angles at the two ends of the branch.", "quantifier": "every network with buses 0..m, every feasible plan and every stage", "why_tests_cant": "All graphs and plans; the code mixes three different indexings of buses and devices.", "anchors": ["gym_anm/agents/mpc.py:MPCAgent._single_step_optimization_problem", "gym_anm/agents/mpc.py:MPCAgent._create_p_bus_expressions", "gym_anm/agents/mpc.py:MPCAgent.__init__"]}
{"id": "C79", "title": "Feasible MPC plans respect forecasts and device limits", "statement": "In every stage of a feasible plan each load gets exactly its forecast, each non-slack generator a power within its P limits and at most its forecast, each storage unit a power within its P limits and a planned state of charge within its limits, and all angles are between -pi and pi.", "quantifier": "every accepted network, every forecast, every feasible plan and every stage", "why_tests_cant": "All networks and horizons: the constraints are assembled from several lists that must be in the same order.", "anchors": ["gym_anm/agents/mpc.py:MPCAgent._single_step_optimization_problem", "gym_anm/agents/mpc.py:MPCAgent.__init__"]}
{"id": "C80", "title": "The objective of the MPC agents is the one documented", "statement": "For a network without phase shifters the objective given to the solver is, for every plan, the sum over the stages k of gamma^k times (the total power of the conventional generators, including the slack, plus lamb times the sum over the branches of max(0, |P_ij| - safety_margin * rate_ij)), with P_ij the DC flow; branches without limit cost nothing.", "quantifier": "every network with buses 0..m, every plan, horizon, discount factor, penalty and positive safety margin", "why_tests_cant": "All networks, horizons and plans: the solver only returns a minimiser, from which the objective cannot be reconstructed.", "anchors": ["gym_anm/agents/mpc.py:MPCAgent._single_step_optimization_problem", "gym_anm/agents/mpc.py:MPCAgent._solve_mpc_opt", "gym_anm/agents/mpc.py:MPCAgent.__init__"]}
{"id": "C81", "title": "The plans the MPC agents consider feasible are exactly those of the documented model", "statement": "For a network without phase shifters a plan is feasible if and only if in each stage it satisfies the DC power flow equations, loads get their forecasts, non-slack generators are within limits and forecasts, storage units are within their power and state-of-charge limits (power = discharging - charging, both non-negative), angles are in [-pi, pi] and the angle at the position of the slack device is 0. In particular no plan of the documented model is excluded.", "quantifier": "every documented network with buses 0..m, every forecast and state of charge, every plan and horizon", "why_tests_cant": "That nothing else is required cannot be seen from the plans returned by a solver.", "anchors": ["gym_anm/agents/mpc.py:MPCAgent._single_step_optimization_problem", "gym_anm/agents/mpc.py:MPCAgent._solve_mpc_opt"]}
{"id": "C82", "title": "step and reset of a state-observing environment raise no exception", "statement": "For an environment with observation 'state' on a documented network with finite generator and storage limits, positive time step, gamma != 1, loads with a non-negative Q/P ratio and ordered observation bounds: after a reset, step succeeds for every action of the action space provided next_vars returns finite values of the right number; reset either succeeds or raises AttributeError after at least 99 initial states whose load flow did not converge; and the state of charge stays finite and within its limits.", "quantifier": "every such environment and history, every action in the action space, every seed, every hook that returns finite vectors of the right size", "why_tests_cant": "All networks, actions and histories: an exception could arise in any of a dozen functions, including from infinities that only appear after divergence.", "anchors": ["gym_anm/envs/anm_env.py:ANMEnv.step", "gym_anm/envs/anm_env.py:ANMEnv.reset", "gym_anm/simulator/simulator.py:Simulator.transition", "gym_anm/simulator/simulator.py:Simulator.reset"]}
{"id": "C83", "title": "ANM6Easy can be made, reset and stepped without exceptions, in the documented spaces", "statement": "Constructing ANM6Easy raises no exception. Its action space is [0,30]x[0,50]x[-30,30]x[-50,50]x[-50,50]x[-50,50] (MW, MW, MVAr, MVAr, MW, MVAr) and its observation space is the 18-dimensional box of the device limits in MW, MVAr and MWh with the time of day in [0,95]. After a reset every sequence of actions of the action space can be played; step raises an exception only (OverflowError) if the date would pass year 9999. reset succeeds unless 99 successive initial states have no load flow solution (AttributeError) or the requested date is the last day of year 9999.", "quantifier": "every random generator that draws from the requested interval, every seed and date, every sequence of actions of any length", "why_tests_cant": "All action sequences of all lengths and all random draws; exceptions could arise in any part of the simulator.", "anchors": ["gym_anm/envs/anm6_env/anm6_easy.py:ANM6Easy", "gym_anm/envs/anm6_env/anm6.py:ANM6.step", "gym_anm/envs/anm6_env/anm6.py:ANM6.reset", "gym_anm/envs/anm6_env/network.py:network", "gym_anm/envs/anm_env.py:ANMEnv.__init__"]}
{"id": "C84", "title": "Rendered frames show the current state, costs and time", "statement": "Each frame that render sends lists, in MW, MVAr, MWh and p.u., the powers of the devices, the potentials of the non-slack generators, the energies of the storage units, the branch flows and the voltage magnitudes of the current state, in increasing order of the IDs; the energy loss and the penalty of the last step, whose negated sum is the last reward (0 after reset, the bounds after a collapse); whether the network has collapsed; and month, day, hour and minute of the current date. In ANM6Easy the time shown is the time variable of the state times a quarter of an hour.", "quantifier": "every ANM6 environment and history, every date of years 1 to 9999, every state", "why_tests_cant": "All histories and dates; what is shown is only seen by a person in front of a browser.", "anchors": ["gym_anm/envs/anm6_env/anm6.py:ANM6.render", "gym_anm/envs/anm6_env/anm6.py:ANM6._init_render", "gym_anm/envs/anm6_env/rendering/py/rendering.py:update"]}
{"id": "C85", "title": "The browser shows every frame that is sent", "statement": "The configuration and the frames that ANM6Easy sends are valid JSON for the browser (no Infinity or NaN), so that a page that received the configuration always shows the last frame; in particular a collapse is shown.", "quantifier": "every ANM6Easy environment, every history and every sequence of frames", "why_tests_cant": "All histories: a single infinite number makes JSON.parse throw, and the page silently keeps its old picture.", "anchors": ["gym_anm/envs/anm6_env/anm6.py:ANM6._init_render", "gym_anm/envs/anm6_env/anm6.py:ANM6.render", "gym_anm/envs/anm6_env/rendering/py/rendering.py:start", "gym_anm/envs/anm6_env/rendering/py/rendering.py:update", "gym_anm/envs/anm6_env/rendering/js/init.js"]}
{"id": "C86", "title": "The picture marks exactly the violated limits", "statement": "In the picture of a state of ANM6Easy a line is crossed out if and only if its apparent power flow exceeds its rate, and a bus if and only if its voltage magnitude is outside its range; no cross is shown exactly if all operating limits hold. After a step without collapse the penalty shown is 0 if and only if no cross is shown.", "quantifier": "every non-terminal state of every ANM6Easy environment", "why_tests_cant": "All states; the limits are transmitted once, the values each time, in different lists and units.", "anchors": ["gym_anm/envs/anm6_env/rendering/js/devices.js", "gym_anm/envs/anm6_env/rendering/js/graph.js", "gym_anm/envs/anm6_env/anm6.py:ANM6._init_render", "gym_anm/simulator/simulator.py:Simulator.get_rendering_specs", "gym_anm/simulator/simulator.py:Simulator._compute_reward"]}
{"id": "C87", "title": "The bars of the picture are to scale and never leave their frames", "statement": "In the picture of a state of ANM6Easy all bars are within their frames. Except for the slack generator the bars of powers have the length of the power relative to the capacity of the device; the bar of a potential production ends at the potential; the bar of the storage unit shows its energy, and those of the costs the costs relative to the clipping parameters. Arrows of loads point to the load, arrows of renewable generators from it, and the arrow of the storage unit is turned exactly while it charges. The bars and percentages of the lines show their flows relative to the rates, and the arrow of a line is turned exactly if active power leaves it at its first end. Date, time and number of years are the current ones, the energy loss is coloured as a cost exactly if it is positive, and a collapse is marked exactly in terminal states.", "quantifier": "every non-terminal state of every ANM6Easy environment", "why_tests_cant": "All states: it follows from the limits enforced on devices, energies and costs over whole histories.", "anchors": ["gym_anm/envs/anm6_env/rendering/js/devices.js", "gym_anm/envs/anm6_env/rendering/js/reward.js", "gym_anm/envs/anm6_env/anm6.py:ANM6._init_render", "gym_anm/simulator/simulator.py:Simulator.transition"]}
{"id": "C88", "title": "The MPC agents always have a feasible plan in ANM6Easy, and never crash it", "statement": "An MPC agent (with constant or perfect forecasts, at least one planning step) can be made for every ANM6Easy environment. In every state, even after the network has collapsed, its optimisation problem has a feasible plan. With a solver that finds a feasible plan if there is one, act raises no exception, and its action lies in the action space: the active powers of the first stage of the plan in MW, unclipped, and no reactive powers. Hence the loop of act and step runs without exceptions for any number of steps, whether or not the network collapses.", "quantifier": "every ANM6Easy environment and history, every horizon, discount factor and safety margin, both agents, every number of steps", "why_tests_cant": "All states, horizons and episode lengths; an infeasible problem would only show as a TypeError in some rare state.", "anchors": ["gym_anm/agents/mpc.py:MPCAgent.act", "gym_anm/agents/mpc.py:MPCAgent._solve", "gym_anm/agents/mpc_constant.py:MPCAgentConstant.forecast", "gym_anm/agents/mpc_perfect.py:MPCAgentPerfect.forecast", "gym_anm/envs/anm6_env/anm6_easy.py:ANM6Easy", "gym_anm/envs/anm6_env/anm6.py:ANM6.step"]}
{"id": "C89", "title": "Set-points that a device can follow are followed exactly", "statement": "In a transition, a non-slack generator whose requested (P, Q) lies in its capability region and does not exceed its potential injects exactly the request; so does a storage unit whose request lies in its capability region and keeps its state of charge within its limits for the whole time step, and its new state of charge is then exactly the old one minus the energy that the request takes (with the charging or discharging efficiency).", "quantifier": "every network file with finite limits, every history, every transition, every request and potential", "why_tests_cant": "All devices, states and requests; a projection that moves feasible points slightly is invisible in a few examples with tolerances.", "anchors": ["gym_anm/simulator/simulator.py:Simulator.transition", "gym_anm/simulator/components/devices.py:Generator.map_pq", "gym_anm/simulator/components/devices.py:StorageUnit.map_pq", "gym_anm/simulator/components/devices.py:StorageUnit.update_soc"]}
{"id": "C90", "title": "With perfect forecasts ANM6Easy carries out the plans of the MPC agent", "statement": "In every non-terminal state of ANM6Easy, stepping with the action of the MPC agent with perfect forecasts carries out the first stage of its plan: loads and non-slack generators get exactly the planned active powers, and the generators no reactive power. The storage unit gets exactly the planned power if that power is not negative, or if the plan does not ask it to charge and discharge at the same time; in the latter case its next state of charge is the planned one as well.", "quantifier": "every ANM6Easy environment and history, every horizon, discount factor and safety margin", "why_tests_cant": "All states: the forecasts of the agent, the exogenous variables of the environment and the projections on the capability regions must agree at all times of day.", "anchors": ["gym_anm/agents/mpc.py:MPCAgent.act", "gym_anm/agents/mpc_perfect.py:MPCAgentPerfect.forecast", "gym_anm/envs/anm6_env/anm6_easy.py:ANM6Easy.next_vars", "gym_anm/envs/anm_env.py:ANMEnv.step", "gym_anm/simulator/simulator.py:Simulator.transition"]}
{"id": "C91", "title": "No policy earns more than the energy initially stored", "statement": "In an environment made without costs_clipping, the rewards of any sequence of steps without a collapse add up to at most the energy that the storage units could deliver at its beginning (the sum of efficiency times usable state of charge), up to the tolerances of the load flow and of the projection solver. More precisely, over any run of converging transitions the energy losses add up to at least the energy that can be delivered at the end minus that at the beginning. So cycling the storage units is never a source of reward.", "quantifier": "every network file, every history, every number of steps, every actions and exogenous variables, every solution of the load flow within its tolerance", "why_tests_cant": "All policies and episode lengths; a small error in the bookkeeping of the storage losses would be exploited by a learning agent long before a test shows it.", "anchors": ["gym_anm/envs/anm_env.py:ANMEnv.step", "gym_anm/simulator/simulator.py:Simulator.transition", "gym_anm/simulator/simulator.py:Simulator._compute_reward", "gym_anm/simulator/components/devices.py:StorageUnit.update_soc"]}
{"id": "C92", "title": "Collapsing the network is never better than keeping it in operation", "statement": "The reward of the step that collapses the network is a very large penalty: in any non-terminal state, for a discount factor below 1, the discounted return of any number of steps in operation is at least the reward of collapsing at once, and collapsing later is at least as good as collapsing now.", "quantifier": "every environment with finite costs_clipping, every history, every pair of action sequences", "why_tests_cant": "All environments, histories and horizons; whether the terminal reward is large enough depends on the two clipping values and the discount factor together.", "anchors": ["gym_anm/envs/anm_env.py:ANMEnv.step", "gym_anm/envs/anm_env.py:ANMEnv.__init__"]}
{"id": "C93", "title": "The weights of the reward do not influence what happens", "statement": "Two environments created with the same arguments, except for gamma, lamb and costs_clipping, behave alike: the constructors raise the same exception or both succeed, and then every sequence of calls of reset and step gives the same observations and the same terminated flags, or raises the same exception. Only the rewards differ. (With gamma = 1 a collapse raises a ZeroDivisionError; this value is excepted.)", "quantifier": "every network file, every arguments of the constructor, every sequence of calls with every actions and seeds, every subclass hooks that do not read the weights", "why_tests_cant": "A comparison of two environments over all call sequences; a test compares at most a few episodes.", "anchors": ["gym_anm/envs/anm_env.py:ANMEnv.__init__", "gym_anm/envs/anm_env.py:ANMEnv.step", "gym_anm/envs/anm_env.py:ANMEnv.reset", "gym_anm/simulator/simulator.py:Simulator._compute_reward"]}
{"id": "C94", "title": "Limits cut injections no more than necessary", "statement": "With an exact projection, the active power that a non-slack generator injects is what it would inject with a larger potential, cut to its potential (but not below P_MIN); so more wind or sun never means less power, and raises the injection by at most the additional potential. The active power of a storage unit is what it would be with unlimited energy, cut to the window that its state of charge allows. When nothing is cut, the reactive power does not change either.", "quantifier": "every network file with finite limits, every history, every pair of transitions from a state that differ in a potential (and in other devices), every requests", "why_tests_cant": "A comparison of pairs of transitions for all requests; a projection on a two-dimensional region with sloped edges could well trade active against reactive power.", "anchors": ["gym_anm/simulator/simulator.py:Simulator.transition", "gym_anm/simulator/components/devices.py:Generator.map_pq", "gym_anm/simulator/components/devices.py:StorageUnit.map_pq"]}
{"id": "C95", "title": "Every island of the network is balanced on its own", "statement": "The checks of a network file do not ask its branches to connect all buses. Whenever the load flow of a transition converges, every set of buses that no branch leaves is balanced on its own: what is injected at its buses is what is lost on its branches, up to 1e-5 p.u. for each of its buses other than the slack bus, and the losses are not negative. Hence a network with an island, away from the slack bus, whose devices together consume more than the tolerance always collapses, whatever the linear solver returns.", "quantifier": "every network file with slack bus 0, every history, every transition, every set of buses no branch leaves, every linear solver", "why_tests_cant": "A statement about all networks and all partitions of them; a test sees one network, in practice a connected one.", "anchors": ["gym_anm/simulator/check_network.py:check_network_specs", "gym_anm/simulator/solve_load_flow.py:solve_pfe_newton_raphson", "gym_anm/simulator/simulator.py:Simulator.transition"]}
{"id": "C96", "title": "After an exception the environment can be reset as if nothing had happened", "statement": "Whatever calls of step and reset were made on an environment, whichever of them raised an exception, and wherever inside they raised (an action outside the space, a user function that raises or returns nonsense, an observation outside the space, a division by zero), the next reset returns exactly what it would have returned on the environment as constructed with the same random number generator, and leaves the same object. With a seed nothing of the past is left at all, so the episodes after it are those of a new environment.", "quantifier": "every network, every constructed environment whose observation has one length, every sequence of calls returning or raising, every user-defined function, every power flow and projection solver", "why_tests_cant": "The changes made before an exception stay in the objects; a test exercises one place where an exception comes from, after one history.", "anchors": ["gym_anm/envs/anm_env.py:ANMEnv.reset", "gym_anm/envs/anm_env.py:ANMEnv.step", "gym_anm/simulator/simulator.py:Simulator.reset", "gym_anm/simulator/simulator.py:Simulator.transition", "gym_anm/simulator/components/devices.py:StorageUnit.update_soc"]}
{"id": "C97", "title": "A call that raises leaves the environment as it was", "statement": "A call of step or reset that raises an exception changes nothing: the time step, the state of charge of the storage units and the terminal flag are those before the call.", "quantifier": "every environment, every call, every exception", "why_tests_cant": "Where an exception comes from depends on user functions, on the power flow and on the numbers; a test sees that it was raised, not everything it left behind.", "anchors": ["gym_anm/envs/anm_env.py:ANMEnv.step", "gym_anm/envs/anm_env.py:ANMEnv.reset", "gym_anm/simulator/simulator.py:Simulator.transition"]}
{"id": "C98", "title": "The rewards of ANM6Easy are between -101 and 1, and a collapse costs 20000", "statement": "Every reward of ANM6Easy is a number: between -101 and 1 while the network stays in operation, -20000 for the step in which it collapses, 0 afterwards. The sum of the rewards of any sequence of steps, discounted by the factor of the task (0.995), lies between -20200 and 200.", "quantifier": "every history of an ANM6Easy environment, every action, every sequence of actions of any length, every linear solver", "why_tests_cant": "A bound over all reachable states and action sequences of any length; tests sample a few episodes.", "anchors": ["gym_anm/envs/anm6_env/anm6_easy.py:ANM6Easy.__init__", "gym_anm/envs/anm_env.py:ANMEnv.step", "gym_anm/simulator/simulator.py:Simulator._compute_reward"]}
{"id": "C99", "title": "Neither the order nor the orientation of the branch rows matters", "statement": "Listing the branches of a network in another order, or exchanging the two ends of lines without transformers, changes nothing but the direction in which the flows of these lines are reported: the network is still accepted, the load flow converges in the same cases, and voltages, injections, devices, losses, penalty and reward are the same for the same actions.", "quantifier": "every accepted network with buses 0, ..., m and slack bus 0, every reordering and every choice of turned lines, every state, action and sequence of actions, every linear solver", "why_tests_cant": "The set of orders and orientations is exponential in the number of branches, and the claim compares two runs of an iterative solver from every state.", "anchors": ["gym_anm/simulator/simulator.py:Simulator._build_admittance_matrix", "gym_anm/simulator/components/branch.py:TransmissionLine.compute_power_flows", "gym_anm/simulator/solve_load_flow.py:solve_pfe_newton_raphson", "gym_anm/simulator/simulator.py:Simulator._compute_reward", "gym_anm/simulator/check_network.py:check_network_specs"]}
{"id": "C100", "title": "The example environments run without exceptions", "statement": "The two environments shipped as examples (examples/simple_env.py and examples/custom_anm6.py) can be constructed, have the action and observation spaces of their networks, and can be reset and stepped any number of times with actions of their action space without an exception (other than the documented reset failure when no initial state converges, and the end of the calendar).", "quantifier": "every behaviour of the random number generators within their intervals, every sequence of actions of the action space, every history of calls, every load flow that raises nothing, every exact projection", "why_tests_cant": "The claim ranges over all random numbers, all actions and episodes of any length.", "anchors": ["examples/simple_env.py:SimpleEnvironment", "examples/custom_anm6.py:CustomANM6Environment", "gym_anm/envs/anm_env.py:ANMEnv.reset", "gym_anm/envs/anm_env.py:ANMEnv.step", "gym_anm/envs/anm6_env/anm6.py:ANM6.reset", "gym_anm/envs/anm6_env/anm6.py:ANM6.step"]}
{"id": "C101", "title": "The six-bus example shows the time of day", "statement": "The auxiliary variable of CustomANM6Environment is the time of day as an index of quarter hours in [0, 96]: it is 0 after a reset, every step adds one modulo 96, and the observation shows it.", "quantifier": "every history, every behaviour of the random number generators, every action", "why_tests_cant": "Needs all times of day in episodes of any length and every random number.", "anchors": ["examples/custom_anm6.py:CustomANM6Environment.next_vars", "examples/custom_anm6.py:CustomANM6Environment.__init__", "gym_anm/envs/anm_env.py:ANMEnv.step", "gym_anm/envs/anm_env.py:ANMEnv.observation"]}
{"id": "C102", "title": "The demands and maximum productions drawn by next_vars show in the next state", "statement": "After a step that does not end the episode, the active power in the state of the j-th load by increasing ID is the j-th value returned by next_vars, and the maximum production in the state of the j-th non-slack generator is the j-th value after those of the loads; values outside the limits of the device are replaced by the limit they violate.", "quantifier": "every network file, environment, history, action and vector returned by next_vars, including infinite values", "why_tests_cant": "All networks, orders of devices and values on both sides of every limit.", "anchors": ["gym_anm/envs/anm_env.py:ANMEnv.step", "gym_anm/envs/anm_env.py:ANMEnv.next_vars", "gym_anm/simulator/simulator.py:Simulator.transition", "gym_anm/simulator/components/devices.py:Load.map_pq", "gym_anm/simulator/components/devices.py:Generator.p_pot"]}
{"id": "C103", "title": "The six-bus example draws every demand and maximum production at random within the limits of the device", "statement": "In CustomANM6Environment the demands of the residential area, the industrial complex and the charging station and the maximum productions of the PV plant and the wind farm after a step are random values within [-10, 0], [-30, 0], [-30, 0], [0, 30] and [0, 50] MW.", "quantifier": "every history, every behaviour of the random number generator, every action", "why_tests_cant": "The claim is about every number drawn; a run shows only some of them.", "anchors": ["examples/custom_anm6.py:CustomANM6Environment.next_vars", "gym_anm/envs/anm_env.py:ANMEnv.next_vars", "gym_anm/envs/anm_env.py:ANMEnv.step"]}
{"id": "C104", "title": "The state vector is all that matters", "statement": "Two environments made with the same arguments that have the same state vector, the same generator state and are both or neither in a terminal state answer every sequence of actions with the same observations, rewards, flags and exceptions, whatever happened to them before.", "quantifier": "every network file with finite numbers, every environment, every two histories of calls that lead to the same state vector, every action and every sequence of actions, every behaviour of the hooks and the solvers", "why_tests_cant": "The claim compares all pairs of pasts; a test runs a few of them, and hidden state left by an earlier call only shows on the right pair.", "anchors": ["gym_anm/envs/anm_env.py:ANMEnv.step", "gym_anm/envs/anm_env.py:ANMEnv.reset", "gym_anm/simulator/simulator.py:Simulator.transition", "docs/source/topics/design_new_env.rst"]}
{"id": "C105", "title": "ANM6Easy is fully deterministic", "statement": "What follows in ANM6Easy is a function of the state vector and the actions: two objects with the same state vector and flag give the same observations, rewards, flags and states for the same actions, whatever their seeds, dates, years and pasts. More generally this holds for every environment whose next_vars() draws no random numbers.", "quantifier": "every two ANM6Easy objects and their histories, every behaviour of the generator and the solvers, every sequence of actions that runs in both", "why_tests_cant": "Determinism is about all pairs of runs with different seeds and dates.", "anchors": ["gym_anm/envs/anm6_env/anm6_easy.py:ANM6Easy.next_vars", "gym_anm/envs/anm6_env/anm6.py:ANM6.step", "gym_anm/envs/anm_env.py:ANMEnv.step", "docs/source/topics/anm6_easy.rst"]}
{"id": "C106", "title": "Devices at the end of a line are limited by its rating", "statement": "At a bus with a single branch everything the devices of the bus inject or draw flows through that branch: after a converged step the flow at the bus equals the net injection up to 1e-5 p.u. Hence a penalty-free state with such a bus implies that the bus draws at most the rating of the branch (plus 1e-5), and injects at most the rating if the branch is an ordinary line that cannot lose all of it.", "quantifier": "every network, every bus with one branch, every set of actions and every linear solver whose load flow converges", "why_tests_cant": "It quantifies over all networks with such a bus and all injections; tests fix one network.", "anchors": ["gym_anm/simulator/simulator.py:Simulator.transition", "gym_anm/simulator/solve_load_flow.py:solve_pfe_newton_raphson", "gym_anm/simulator/simulator.py:Simulator._compute_reward", "gym_anm/simulator/components/branch.py:TransmissionLine"]}
{"id": "C107", "title": "What the scenarios of ANM6Easy force an agent to do", "statement": "In ANM6Easy a step without penalty satisfies: the two devices at each of the buses 3, 4 and 5 exchange at most 18.001 MW with the network; at night (11 pm to 6 am) at least 17.999 of 40 MW of wind are curtailed; while the vehicles are charged (8 to 11 am, 6 to 9 pm) the storage unit supplies at least 6.999 MW; around noon (1 to 4 pm) at least 9.999 of 30 MW of sun and 1.999 of 40 MW of wind are curtailed. An agent that gets through a charging period without penalty has at least 27.8 MWh in the storage unit when it begins.", "quantifier": "every ANM6Easy object and history, every action or sequence of actions, every projection that is exact and every linear solver", "why_tests_cant": "The bounds hold for all actions; a test can only try some agents.", "anchors": ["gym_anm/envs/anm6_env/anm6_easy.py:_get_load_time_series", "gym_anm/envs/anm6_env/anm6_easy.py:_get_gen_time_series", "gym_anm/envs/anm6_env/network.py:network", "gym_anm/simulator/simulator.py:Simulator.transition", "docs/source/topics/anm6_easy.rst"]}
{"id": "C108", "title": "A reset sets exactly a feasible initial state", "statement": "After reset() every load, generator and storage unit has exactly the powers, maximum production and energy requested by init_state(), if they are within its limits and its capability region (for a load the reactive power follows from the active one). In ANM6Easy this holds for every state drawn, except at 12:30, 12:45, 4:15 and 4:30 pm, where the maximum production drawn for the 30 MW solar plant is up to 36.75 MW and is cut.", "quantifier": "every network, every initial state vector; for ANM6Easy every generator, seed and exact projection", "why_tests_cant": "Feasible initial states form a continuum, and the exception needs one of four of the 96 times to be drawn.", "anchors": ["gym_anm/simulator/simulator.py:Simulator.reset", "gym_anm/simulator/simulator.py:Simulator.transition", "gym_anm/envs/anm6_env/anm6_easy.py:ANM6Easy.init_state", "gym_anm/simulator/components/devices.py:Generator", "gym_anm/simulator/components/devices.py:StorageUnit"]}
{"id": "C109", "title": "ANM6Easy carries out every feasible action exactly", "statement": "If the two generators and the storage unit can carry out an action at the next time of day, with the maximum productions of the tables and the energy in storage, then after the step the devices have exactly the powers of the action, the loads have those of the tables with a fifth as reactive power, the energy in storage has changed by the energy exchanged and the efficiency, and the episode ends exactly if the load flow does not converge.", "quantifier": "every ANM6Easy object and history, every feasible action, every exact projection, every load flow solver", "why_tests_cant": "Feasible actions form a continuum that depends on the time and the stored energy.", "anchors": ["gym_anm/envs/anm6_env/anm6_easy.py:ANM6Easy.next_vars", "gym_anm/envs/anm_env.py:ANMEnv.step", "gym_anm/simulator/simulator.py:Simulator.transition", "gym_anm/simulator/components/devices.py:StorageUnit"]}
{"id": "C110", "title": "ANM6Easy can be played without penalty", "statement": "For some behaviour of the linear solver of the load flow and some draws of the generator an environment ANM6Easy can be made and reset, and a fixed daily plan of actions can be followed for a year without any penalty and without the end of the episode. More generally a step with a feasible action for which the load flow equations have a solution within all limits, by 0.01 % of the nominal voltages and 0.1 % of the ratings, up to the tolerance of the solver, is free of penalty if the linear solver leads the iteration to such a solution (C117: exact linear solvers do).", "quantifier": "every time of the day, all lengths up to a year; every feasible action with a solution within the limits", "why_tests_cant": "That 35040 steps are free of any penalty rests on the solution of the load flow equations at each of them.", "anchors": ["gym_anm/envs/anm6_env/anm6_easy.py:ANM6Easy", "gym_anm/simulator/solve_load_flow.py:solve_pfe_newton_raphson", "gym_anm/simulator/simulator.py:Simulator._compute_reward", "docs/source/topics/anm6_easy.rst"]}
{"id": "C111", "title": "From half of the initial states of ANM6Easy an agent cannot avoid a penalty", "statement": "If a reset of ANM6Easy draws a time from 5 to 11 am or from 3 to 9 pm (50 of 96 times), then no agent gets to 11:30 am or 9:30 pm without penalty: the initial energy is at most 1 MWh (the unit error of C58), and what the line to the vehicles can supply beyond their demand does not charge enough.", "quantifier": "every ANM6Easy object, seed, generator, exact projection and linear solver, every sequence of actions", "why_tests_cant": "It excludes all sequences of actions.", "anchors": ["gym_anm/envs/anm6_env/anm6_easy.py:ANM6Easy.init_state", "gym_anm/envs/anm6_env/anm6_easy.py:_get_load_time_series", "gym_anm/simulator/simulator.py:Simulator.reset"]}
{"id": "C112", "title": "No agent of ANM6Easy can do better than the costs forced by the ratings of the lines", "statement": "Whatever an agent does in ANM6Easy, with or without penalties and whether or not the network collapses: the reward of a step in operation is at most (energy taken from the storage unit in MWh)/90 minus the costs forced at that time of day, up to 2e-5. The forced costs are 1/400 for every MW of sun or wind beyond what the bus demands and its line of 18 MW carries, and 19/81 of that for every MW of the vehicles' demand beyond the 18 MW of their line. Hence the rewards of a day sum up to at most -2.077 plus the initial energy/90, and after a reset the sum of rewards discounted with 0.995 is at most -3.9 for every agent that is run for ten days or more.", "quantifier": "every ANM6Easy object, seed, generator, exact projection and linear solver, every sequence of actions", "why_tests_cant": "It bounds the best agent: no set of tried agents can. Benchmarks of ANM6Easy compare agents by this number.", "anchors": ["gym_anm/simulator/simulator.py:Simulator._compute_reward", "gym_anm/envs/anm_env.py:ANMEnv.step", "gym_anm/envs/anm6_env/anm6_easy.py:ANM6Easy", "gym_anm/envs/anm6_env/anm6_easy.py:_get_load_time_series", "gym_anm/envs/anm6_env/anm6_easy.py:_get_gen_time_series"]}
{"id": "C113", "title": "ANM6Easy can be played within 3% of the best possible rewards", "statement": "There is a linear solver, a generator and a seed with which an ANM6Easy environment can be made, reset (to 12:15 pm, with a storage unit that holds 0.5 MWh) and played for up to a year without any penalty such that the rewards of N days sum up to at least -2.138 N, and to at least -4.66 if they are discounted with the factor 0.995. From the same state no sequence of actions of the same length achieves a sum that is larger by more than 0.0603 N + 0.006, or a discounted sum that is larger by more than 0.29.", "quantifier": "some linear solver and generator; every number of days up to a year; for the comparison every sequence of actions", "why_tests_cant": "It compares with all agents. That the bound of C112 is nearly attained shows what a benchmark result on ANM6Easy is worth; running agents gives no upper bound and no certainty of a plan without penalty.", "anchors": ["gym_anm/simulator/simulator.py:Simulator._compute_reward", "gym_anm/envs/anm_env.py:ANMEnv.step", "gym_anm/envs/anm6_env/anm6_easy.py:ANM6Easy", "gym_anm/envs/anm6_env/anm6_easy.py:_get_load_time_series", "gym_anm/envs/anm6_env/anm6_easy.py:_get_gen_time_series"]}
{"id": "C114", "title": "The load flow is Newton's method", "statement": "If the sparse linear systems are solved exactly, then on the straight way from a guess with positive voltage magnitudes and a regular Jacobian matrix to the next guess of the load flow, every mismatch of active and reactive power starts to fall at the rate that would bring it to zero at the next guess. In particular the Jacobian matrix, the signs, and the order of angles and magnitudes in the update fit together.", "quantifier": "every network, all powers, every guess with positive magnitudes and a regular Jacobian matrix, every exact linear solver", "why_tests_cant": "Tests see whether the iteration converges in a few cases; a wrong entry of the Jacobian matrix still converges, slowly, near the flat start.", "anchors": ["gym_anm/simulator/solve_load_flow.py:_newton_raphson_sparse", "gym_anm/simulator/solve_load_flow.py:_dfdx", "gym_anm/simulator/solve_load_flow.py:_f", "gym_anm/simulator/solve_load_flow.py:solve_pfe_newton_raphson"]}
{"id": "C115", "title": "The load flow of ANM6 converges at moderate powers", "statement": "If the linear systems are solved exactly, then a transition of the ANM6 simulator converges whenever the powers exchanged at the buses 3, 4 and 5 are in one of four ranges: at most 20, 20 and 20 MVA; 5, 40 and 10 MVA; 5, 25 and 26 MVA; or 30, 22 and 10 MVA. The voltages are then between 82% and 118% of their nominal values, and the powers at the buses differ from those of the devices by at most 0.003 MVA.", "quantifier": "every ANM6 simulator, history, set of arguments, projection and exact linear solver; all powers in the ranges", "why_tests_cant": "Convergence of Newton's method from the flat start for a continuum of powers.", "anchors": ["gym_anm/simulator/solve_load_flow.py:_newton_raphson_sparse", "gym_anm/simulator/solve_load_flow.py:solve_pfe_newton_raphson", "gym_anm/simulator/simulator.py:Simulator.transition", "gym_anm/envs/anm6_env/network.py:network"]}
{"id": "C116", "title": "Every reset of ANM6Easy succeeds, with the first initial state drawn", "statement": "If the linear systems and projections are solved exactly, then the load flow converges at every initial state that ANM6Easy draws (96 times of day, all reactive powers and energies drawn), so that every reset, to no date or to a date before the last day of year 9999, succeeds and uses the first state drawn; the search for a feasible initial state with up to 99 attempts is never needed.", "quantifier": "every ANM6Easy object and history, every seed, generator, exact projection and exact linear solver", "why_tests_cant": "Reactive powers are drawn from intervals; a failing state could have any probability.", "anchors": ["gym_anm/envs/anm_env.py:ANMEnv.reset", "gym_anm/envs/anm6_env/anm6_easy.py:ANM6Easy.init_state", "gym_anm/envs/anm6_env/anm6_easy.py:ANM6Easy.reset", "gym_anm/simulator/simulator.py:Simulator.reset"]}
{"id": "C117", "title": "The load flow finds the solutions within the limits", "statement": "If the linear systems are solved exactly and the load flow equations of ANM6 have a solution, up to the tolerance of the solver, that is within the limits by 0.01 % of the nominal voltages and 0.1 % of the line ratings, then a transition of the simulator with these injections converges and ends within all limits, at voltages that differ by at most 0.00004 p.u. from those of this solution and with losses larger by at most 0.0005 MW.", "quantifier": "every transition of a simulator of ANM6, all injections, every exact linear solver", "why_tests_cant": "The load flow equations have several solutions; that Newton's method started from a flat profile ends at the one wanted is a statement about all injections.", "anchors": ["gym_anm/simulator/simulator.py:Simulator.transition", "gym_anm/simulator/solve_load_flow.py:solve_pfe_newton_raphson", "gym_anm/simulator/solve_load_flow.py:_newton_raphson_sparse"]}
{"id": "C118", "title": "From which initial states ANM6Easy can be played without penalty", "statement": "If linear systems and projections are solved exactly, then after a reset of ANM6Easy to no date there is a sequence of actions without any penalty for every length up to a year if the time of day drawn is at most 4:45 am, from 11:30 am to 2:45 pm, or from 9:30 pm on, whatever else is drawn, and at 11:15 am and 9:15 pm if the storage unit holds at least 0.24 MWh. Otherwise (at 11:15 am and 9:15 pm with less than 0.208 MWh) no agent avoids a penalty until 11:30 am or 9:30 pm.", "quantifier": "every ANM6Easy object and history, every seed, generator, exact projection and exact linear solver; every sequence of actions", "why_tests_cant": "It decides for every initial state whether some sequence of 35040 actions exists, or excludes all sequences.", "anchors": ["gym_anm/envs/anm6_env/anm6_easy.py:ANM6Easy.init_state", "gym_anm/envs/anm6_env/anm6_easy.py:ANM6Easy.reset", "gym_anm/envs/anm6_env/anm6_easy.py:_get_load_time_series", "gym_anm/simulator/simulator.py:Simulator.transition", "gym_anm/simulator/simulator.py:Simulator._compute_reward"]}
{"id": "C119", "title": "ANM6Easy can be played within 3% of the best possible rewards, whatever is drawn at noon or at night", "statement": "If linear systems and projections are solved exactly, then after a reset of ANM6Easy to no date that draws a time from 11:30 am to 12:30 pm or from 9:30 to 10:45 pm there are, for every number N of days up to a year, actions without any penalty for which the rewards sum up to at least -2.138 N (-4.97 if discounted with the factor 0.995); no sequence of actions of the same length achieves a sum that is larger by more than 0.0603 N + 0.012, or a discounted sum that is larger by more than 0.296.", "quantifier": "every ANM6Easy object and history, every seed, generator, exact projection and exact linear solver, every number of days up to a year; for the comparison every sequence of actions", "why_tests_cant": "It compares with all agents, for every draw.", "anchors": ["gym_anm/simulator/simulator.py:Simulator._compute_reward", "gym_anm/envs/anm_env.py:ANMEnv.step", "gym_anm/envs/anm6_env/anm6_easy.py:ANM6Easy", "gym_anm/simulator/solve_load_flow.py:solve_pfe_newton_raphson"]}
{"id": "C120", "title": "A row of a network file is accepted exactly if its data are coherent", "statement": "A bus is accepted if and only if it has a positive base voltage and voltage limits with 0 <= VMIN <= VMAX (VMIN may be missing at the slack bus only); a line if and only if its resistance, reactance, susceptance and rating are not negative, it is not without impedance, its tap is positive and its shift within [0, 360]; a generator if and only if PMIN <= P+ <= PMAX and QMIN <= Q- <= Q+ <= QMAX with the documented defaults, and PMIN >= 0 unless it is the slack device; a storage unit if and only if PMIN <= P- <= P+ <= PMAX, PMIN <= 0 <= PMAX, QMIN <= Q- <= Q+ <= QMAX, 0 <= SOC_MIN <= SOC_MAX and the efficiency is in [0, 1]; a load if and only if PMIN <= PMAX <= 0 and it has a ratio Q/P. Otherwise the exception is the specification error of that kind of component, or DeviceSpecError for a device at an unknown bus.", "quantifier": "every row without NaN whose IDs and type are integers, every positive base power and every list of buses", "why_tests_cant": "The limits of a row are a dozen real numbers, any of which may be missing.", "anchors": ["gym_anm/simulator/components/bus.py:Bus", "gym_anm/simulator/components/branch.py:TransmissionLine", "gym_anm/simulator/components/devices.py:Load", "gym_anm/simulator/components/devices.py:Generator", "gym_anm/simulator/components/devices.py:StorageUnit"]}
{"id": "C121", "title": "The simulator accepts exactly the coherent networks", "statement": "Simulator(network, delta_t, lamb) succeeds if and only if the network satisfies the eight rules of check_network_specs, every row is coherent (C120), every device is at a bus of the file, and the bus numbers can index the rows of the admittance matrix (always so if none is negative).", "quantifier": "every network file of any size without NaN whose IDs and types are integers, every time step and penalty weight", "why_tests_cant": "It is an equivalence over all files.", "anchors": ["gym_anm/simulator/simulator.py:Simulator.__init__", "gym_anm/simulator/simulator.py:Simulator._load_case", "gym_anm/simulator/simulator.py:Simulator._build_admittance_matrix", "gym_anm/simulator/check_network.py:check_network_specs"]}
{"id": "C122", "title": "The reported power of the slack bus is never NaN", "statement": "After every transition the active and reactive power of the slack bus and of the slack device are those that the load flow computed, with infinity in the place of NaN; they are never NaN, even if the load flow diverged.", "quantifier": "every simulator with one slack bus and device, every transition and every behaviour of the load flow, divergence included", "why_tests_cant": "Which inputs make the load flow diverge to NaN is not known in advance.", "anchors": ["gym_anm/simulator/solve_load_flow.py:solve_pfe_newton_raphson", "gym_anm/simulator/simulator.py:Simulator.transition"]}
{"id": "C123", "title": "Observations do not change after they have been returned", "statement": "The array returned by reset or step as observation keeps its contents: no later call of reset or step writes into it, so observations can be collected (for example in a replay buffer) without copying them.", "quantifier": "for all environments, functions of the user (init_state, next_vars, observation), earlier calls, later sequences of calls and writes of the agent into other arrays; all outcomes of the power flow and the projections, calls that raise included", "why_tests_cant": "The sharing of arrays between environment, user functions and agent depends on what the functions return and on the whole history; a test sees one class and one history.", "anchors": ["gym_anm/envs/anm_env.py:ANMEnv.reset", "gym_anm/envs/anm_env.py:ANMEnv.step", "gym_anm/envs/anm_env.py:ANMEnv.observation", "gym_anm/envs/anm_env.py:ANMEnv._construct_state"]}
{"id": "C124", "title": "Writing into observations and actions has no influence on the environment", "statement": "An agent may write into the observation arrays it has received and into the action arrays it has passed (for example to normalise them in place): all later answers of the environment are the same as without these writes.", "quantifier": "for all environments, functions of the user whose results depend on the contents of their arguments only, and sequences of calls and writes of the agent; all outcomes of the power flow and the projections, calls that raise included", "why_tests_cant": "Interference through shared arrays shows only for particular combinations of user functions, agents and histories.", "anchors": ["gym_anm/envs/anm_env.py:ANMEnv.reset", "gym_anm/envs/anm_env.py:ANMEnv.step", "gym_anm/envs/anm_env.py:ANMEnv.observation", "gym_anm/envs/anm_env.py:ANMEnv._construct_state"]}
{"id": "C125", "title": "The action that the documentation calls doing nothing does nothing", "statement": "A generator asked for its rated power and no reactive power is not curtailed and produces no reactive power; a storage unit asked for nothing exchanges nothing and keeps its energy. The action [30, 50, 0, 0, 0, 0] of ANM6Easy therefore has the three effects that the documentation lists, and in each of the three documented scenarios the step has a penalty.", "quantifier": "for all network files without infinite values, simulators, states and inputs for the general part; for all states between steps and random draws for ANM6Easy; any exact solver of the projections", "why_tests_cant": "That nothing is changed must hold at every state of charge and every time of day.", "anchors": ["gym_anm/simulator/simulator.py:Simulator.transition", "gym_anm/simulator/components/devices.py:Generator.map_pq", "gym_anm/simulator/components/devices.py:StorageUnit.map_pq", "gym_anm/envs/anm6_env/anm6_easy.py:ANM6Easy", "docs/source/topics/anm6_easy.rst"]}
{"id": "C126", "title": "Doing nothing in ANM6Easy never ends the episode and costs at least 246.3 a day", "statement": "An agent that always takes the action [30, 50, 0, 0, 0, 0] of ANM6Easy can go on for a year; the storage unit keeps its energy; the rewards sum up to at most -246.3 a day, and the return discounted with the factor of the environment over ten days or more is at most -477.", "quantifier": "for all seeds and random draws, all initial energies, all numbers of days up to 365; exact solvers of the linear systems and projections, load flow stopped by its tolerance", "why_tests_cant": "A lower bound of the costs of a policy over every start and a year of steps is a statement about infinitely many simulations.", "anchors": ["gym_anm/simulator/simulator.py:Simulator.transition", "gym_anm/simulator/simulator.py:Simulator._compute_reward", "gym_anm/envs/anm6_env/anm6_easy.py:ANM6Easy", "gym_anm/envs/anm_env.py:ANMEnv.step", "docs/source/topics/anm6_easy.rst"]}
{"id": "C127", "title": "One action collapses ANM6Easy, whatever its state", "statement": "In every state of ANM6Easy between two steps, the action [0, 0, -30, -50, 0, -50] of its action space makes the load flow fail: step returns terminated=True and the reward -20000.", "quantifier": "for all states of ANM6Easy that can be reached, all random draws, any behaviour of the linear solver within the load flow, exact projections", "why_tests_cant": "That no iteration of the load flow succeeds, for any linear solver, needs that the equations have no solution, not even up to the tolerance.", "anchors": ["gym_anm/simulator/solve_load_flow.py:solve_pfe_newton_raphson", "gym_anm/simulator/simulator.py:Simulator.transition", "gym_anm/envs/anm_env.py:ANMEnv.step", "gym_anm/envs/anm6_env/anm6_easy.py:ANM6Easy"]}
{"id": "C128", "title": "The length of the time step does not matter while the storage units can follow", "statement": "Take one step of length t, or k steps of length t/k with the same inputs. If the storage units can follow their set-points in the long step, then the electrical state after every short step is the one after the long step, every short step costs a k-th of the long one, and after k short steps the state, stored energies included, is the one after the long step.", "quantifier": "for all valid networks, all states, all inputs, all k, all time steps; projections that leave feasible points alone; any load flow", "why_tests_cant": "Tests compare a few time steps; that the discretisation has no influence at all is a statement about every k.", "anchors": ["gym_anm/simulator/simulator.py:Simulator.transition", "gym_anm/simulator/simulator.py:Simulator._compute_reward", "gym_anm/simulator/components/devices.py:StorageUnit.map_pq", "gym_anm/simulator/components/devices.py:StorageUnit.update_soc"]}
{"id": "C129", "title": "More stored energy stays more, and the difference never grows", "statement": "Take two runs of the same network in which a storage unit is given the same set-points; loads, weather, costs and the other devices may differ. If the second run begins with at least as much energy in the unit, it always has at least as much, and the gap between the two never grows.", "quantifier": "for all valid networks, all pairs of runs of any length, all set-points; efficiencies above 0; exact projections", "why_tests_cant": "The set-points are projected on a region that depends on the energy; that this keeps the order and never amplifies a difference is a statement about pairs of runs.", "anchors": ["gym_anm/simulator/simulator.py:Simulator.transition", "gym_anm/simulator/components/devices.py:StorageUnit.map_pq", "gym_anm/simulator/components/devices.py:StorageUnit.update_soc"]}
{"id": "C130", "title": "Small changes of the set-points have small effects on the devices", "statement": "Compare two transitions from the same state with different set-points. The injections of a generator (with the same maximum production) or of a storage unit differ by no more than its set-points do, as points of the P-Q plane; the stored energies differ by no more than the time step times the difference of the active powers divided by the efficiency.", "quantifier": "for all valid networks, all states, all pairs of set-points; exact projections", "why_tests_cant": "A Lipschitz bound is about all pairs of actions.", "anchors": ["gym_anm/simulator/simulator.py:Simulator.transition", "gym_anm/simulator/components/devices.py:Generator.map_pq", "gym_anm/simulator/components/devices.py:StorageUnit.map_pq", "gym_anm/simulator/components/devices.py:StorageUnit.update_soc"]}
{"id": "C131", "title": "The environment template of the documentation works", "statement": "The observation list of the quickstart page, [('bus_p', [0,1], 'MW'), ('dev_q', [2], 'MW')], is accepted for a network with the buses 0 and 1 and a device 2.", "quantifier": "for all networks and all other arguments", "why_tests_cant": "That no network and no arguments make the list acceptable is not visible in tests of single environments.", "anchors": ["gym_anm/envs/utils.py:_check_observation_vars", "gym_anm/simulator/components/constants.py:STATE_VARIABLES", "gym_anm/envs/anm_env.py:ANMEnv.__init__", "docs/source/topics/quickstart.rst"]}
{"id": "C132", "title": "Limits of stored energy, loads and costs survive floating-point rounding", "statement": "Compute every arithmetic operation of a time step with rounded numbers (any rounding that is monotone, symmetric, idempotent and maps NaN exactly to NaN, as IEEE round-to-nearest). Then, over any number of steps with any inputs: the level of every storage unit stays finite and within its limits; charging never lowers it and discharging never raises it; loads and generation potentials stay within their limits; the penalty is never negative and is exactly 0 when all limits hold; the clipped costs and the reward stay within the bounds given by the clipping values.", "quantifier": "for all roundings with the stated properties, all devices, all inputs, all solvers that return finite powers, any number of steps", "why_tests_cant": "Whether a clip is in the right place to absorb rounding shows only for particular operands; no test enumerates the roundings.", "anchors": ["gym_anm/simulator/components/devices.py:StorageUnit.update_soc", "gym_anm/simulator/components/devices.py:Load.map_pq", "gym_anm/simulator/simulator.py:Simulator.transition", "gym_anm/simulator/simulator.py:Simulator._compute_reward", "gym_anm/envs/anm_env.py:ANMEnv.step"]}
{"id": "C133", "title": "The base power of a network file is only a unit", "statement": "Take a network file and rewrite it for another base power: impedances and line charging converted, everything given in MW, MVAr, MVA, MWh, kV left alone. The two files are accepted together; the action spaces are the same; and after the same reset vector and the same actions, every value that is read in MW, MVAr, MVA, MWh, kV, kA, degrees or radians is the same at all times, values in per-unit differ by the ratio of the base powers (voltages not at all), and the rewards differ by that ratio too.", "quantifier": "for all networks, all ratios of base powers, all reset vectors, all sequences of actions of any length", "why_tests_cant": "The conversion to and from per-unit is spread over the constructors, the time step, the reset, the state and the load flow; one forgotten or doubled conversion is invisible with the one base power of a test network.", "anchors": ["gym_anm/simulator/components/devices.py:Load", "gym_anm/simulator/components/devices.py:Generator", "gym_anm/simulator/components/devices.py:StorageUnit", "gym_anm/simulator/components/branch.py:TransmissionLine", "gym_anm/simulator/simulator.py:Simulator.__init__", "gym_anm/simulator/simulator.py:Simulator.reset", "gym_anm/simulator/simulator.py:Simulator.transition", "gym_anm/simulator/simulator.py:Simulator._gather_state", "gym_anm/simulator/solve_load_flow.py:solve_pfe_newton_raphson"]}
{"id": "C134", "title": "The IDs of the devices are only names", "statement": "Give other IDs to the devices of a network file (any other distinct integers), and use the new IDs in the arguments: the simulator accepts the file, every reset and every time step succeeds or raises as before, with the same energy loss, penalty, reward and convergence flag, and the state is the same with the entries of the devices filed under the new IDs. Vectors list the devices in the order of their IDs; a renumbering that keeps this order changes no vector, so that an agent cannot notice it: the environment has the same spaces and gives the same observations and rewards in every episode.", "quantifier": "All network files with integer IDs, all injective renamings, all initial vectors of the documented size, all arguments, runs of any length, and any solver of the projections and of the load flow.", "why_tests_cant": "Tests use one numbering (0, 1, 2, ...); that nothing depends on it is a statement about pairs of runs, for all renamings.", "anchors": ["gym_anm/simulator/simulator.py:Simulator._load_case", "gym_anm/simulator/simulator.py:Simulator.reset", "gym_anm/simulator/simulator.py:Simulator.transition", "gym_anm/simulator/simulator.py:Simulator._gather_state", "gym_anm/simulator/simulator.py:Simulator.get_action_space", "gym_anm/envs/anm_env.py:ANMEnv.reset", "gym_anm/envs/anm_env.py:ANMEnv.step"]}
{"id": "C135", "title": "Asking a device for more power gives no less", "statement": "Two time steps from the same state, the second of which asks a generator (with the same potential) or a storage unit for more active power and the same reactive power: the second injects at least as much active power, and at most the additional amount more; likewise for reactive power. A storage unit keeps no more energy after the larger injection. A run that at every time step asks a storage unit for no more active power than another run does (same reactive power), and begins with no less energy in it, never has less energy in it - whatever else differs between the two runs.", "quantifier": "All network files of the documented form, all states and arguments, all pairs of set-points, runs of any length, any exact solver of the projections, any load flow.", "why_tests_cant": "A monotonicity of the closest point in a two-dimensional region that itself depends on the stored energy: tests compare a few pairs of set-points.", "anchors": ["gym_anm/simulator/components/devices.py:Generator.map_pq", "gym_anm/simulator/components/devices.py:StorageUnit.map_pq", "gym_anm/simulator/components/devices.py:StorageUnit.update_soc", "gym_anm/simulator/simulator.py:Simulator.transition"]}
{"id": "C136", "title": "Devices do not interfere with each other", "statement": "What a load, a generator or a storage unit does in a run depends on nothing but its own data, the energy stored in it at the beginning, and what the arguments of the time steps say about it: two runs - of two networks, with other devices, branches, arguments and load-flow results - that agree about these report the same active and reactive power, stored energy and potential of the device after every time step.", "quantifier": "All pairs of network files with integer IDs, the same base power and time step, all devices other than the slack that occur in both, all arguments, runs of any length, and the same solver of the projections.", "why_tests_cant": "A statement about pairs of runs in different networks; a test would have to vary everything that must not matter.", "anchors": ["gym_anm/simulator/simulator.py:Simulator.transition", "gym_anm/simulator/simulator.py:Simulator._gather_state", "gym_anm/simulator/components/devices.py:Load.map_pq", "gym_anm/simulator/components/devices.py:Generator.map_pq", "gym_anm/simulator/components/devices.py:StorageUnit.map_pq", "gym_anm/simulator/components/devices.py:StorageUnit.update_soc"]}
{"id": "C137", "title": "What the parameters and forecasts of the MPC agents change in their plans", "statement": "The safety margin and the discount factor do not influence which plans an MPC agent considers feasible. A larger safety margin (a larger usable fraction of the branch ratings) never makes the best plan more costly. Planning further ahead only adds requirements: the first N stages of a feasible plan for N' > N stages are a feasible plan for N stages. Higher forecasts of the maximum productions allow more plans and never make the best plan more costly.", "quantifier": "All networks, simulators, storage levels, forecasts, plans, horizons and values of the parameters (for the margin: networks without phase shifters, ratings, discount factor and penalty weight that are not negative).", "why_tests_cant": "A comparison of two optimisation problems over all plans; tests solve a few instances with a numerical solver.", "anchors": ["gym_anm/agents/mpc.py:MPCAgent.__init__", "gym_anm/agents/mpc.py:MPCAgent._create_optimization_problem", "gym_anm/agents/mpc.py:MPCAgent._single_step_optimization_problem"]}
{"id": "C138", "title": "The optimisation problem of the MPC agents is convex", "statement": "Everything between two feasible plans of an MPC agent is a feasible plan, and costs no more than the corresponding mean of their costs. Hence there are no merely local optima: on the straight way from a feasible plan to a cheaper one, every plan is feasible and cheaper.", "quantifier": "All networks without phase shifters, all storage levels and forecasts, all horizons and non-negative weights, all pairs of feasible plans and all points between them.", "why_tests_cant": "Convexity is a statement about all pairs of plans; a solver that happens to succeed on some instances does not show it.", "anchors": ["gym_anm/agents/mpc.py:MPCAgent._create_optimization_problem", "gym_anm/agents/mpc.py:MPCAgent._single_step_optimization_problem"]}
{"id": "C139", "title": "The grid only sees the total power at each bus", "statement": "Take two networks with the same buses and branches but other devices, and a time step of each. If afterwards the devices at each bus together inject the same active and reactive power in both, then all voltages, currents and flows are reported equal in all units, and so are the penalty and the convergence. With the load flow of the code the devices at the slack bus need not even agree. In particular, splitting a load into two at the same bus with the same power factor which share its demand changes no voltage, no flow, no loss, no penalty and no reward, in runs of any length.", "quantifier": "All pairs of network files with the same buses and branches, all states, arguments, load-flow solvers (the slack-bus part: the Newton iteration of the code, when it converges); for split loads, demands within the limits of the loads and runs of any length.", "why_tests_cant": "A statement about all pairs of networks with the same totals.", "anchors": ["gym_anm/simulator/simulator.py:Simulator.transition", "gym_anm/simulator/simulator.py:Simulator._get_bus_total_injections", "gym_anm/simulator/simulator.py:Simulator._compute_reward", "gym_anm/simulator/simulator.py:Simulator._gather_state", "gym_anm/simulator/solve_load_flow.py:solve_pfe_newton_raphson", "gym_anm/simulator/components/devices.py:Load.map_pq"]}
{"id": "C140", "title": "A seed makes an episode reproducible", "statement": "After a reset with a seed, the observations, rewards and flags are a function of the seed and the actions, whatever has happened before, whatever other code has drawn from numpy's global generator, and in whichever process the environment was made.", "quantifier": "All environments, in particular the two example environments and environments whose hooks draw from their own generator; all seeds, pasts, states of the global generator and sequences of actions.", "why_tests_cant": "The past, the state of the global generator and the actions are unbounded; a test that compares two runs in a fresh process with the same global seed passes.", "anchors": ["gym_anm/envs/anm_env.py:ANMEnv.reset", "gym_anm/envs/anm_env.py:ANMEnv.__init__", "gym_anm/envs/anm_env.py:ANMEnv.step", "examples/simple_env.py:SimpleEnvironment", "examples/custom_anm6.py:CustomANM6Environment"]}
{"id": "C141", "title": "The optimisation problem of the MPC agents has an optimal plan whenever it has a feasible one", "statement": "If the power limits of the generators and storage units and the storage levels are finite, the problem that an MPC agent hands to the solver is never unbounded and its optimum is reached: if there is a feasible plan, there is one that costs no more than any other. In ANM6Easy, both agents have an optimal plan in every state, for every number of planning steps.", "quantifier": "All networks whose bus IDs are 0, 1, 2, ... with the slack at bus 0 and no phase shifters, in which the position of the slack device among the devices is less than the number of buses (as for the slack as first device), finite limits, storage efficiencies in (0, 1], all simulators, storage levels, forecasts, horizons, discount factors and positive safety margins; for ANM6Easy, all states that can be reached.", "why_tests_cant": "The existence of a minimum over all (unboundedly many) plans; a test solves a few instances numerically and cannot tell an unbounded problem of another state.", "anchors": ["gym_anm/agents/mpc.py:MPCAgent._create_optimization_problem", "gym_anm/agents/mpc.py:MPCAgent._single_step_optimization_problem", "gym_anm/agents/mpc.py:MPCAgent.act"]}
{"id": "C142", "title": "Branch ratings and voltage limits are soft: they change nothing but the penalty", "statement": "Two network files that differ only in the RATE of the branches, the VMIN of the buses and the VMAX of the buses other than the slack bus give environments with the same action and observation spaces. Whatever calls of reset and step are made, both show the same observations and terminal flags, or raise the same exception: no operating limit is enforced on the network. With looser limits no reward is smaller (comparisons with NaN aside).", "quantifier": "for all pairs of such network files accepted by the simulator, all observation arguments, all hooks, all load flows that do not look at the ratings (that of the code does not), and all finite sequences of calls", "why_tests_cant": "Tests compare a few steps on fixed networks; that a limit never leaks into the dynamics, the spaces or an exception over any session on any network is a relation between two unbounded executions.", "anchors": ["gym_anm/simulator/simulator.py:Simulator.transition", "gym_anm/simulator/simulator.py:Simulator.reset", "gym_anm/simulator/simulator.py:Simulator._compute_reward", "gym_anm/simulator/components/bus.py:Bus.__init__", "gym_anm/simulator/components/branch.py:TransmissionLine._check_input_specs", "gym_anm/envs/anm_env.py:ANMEnv.step", "gym_anm/envs/anm_env.py:ANMEnv.reset"]}
{"id": "C143", "title": "Line losses are r|I|\u00b2, and reactive power is absorbed as x|I|\u00b2 less the line charging", "statement": "After a converged transition, the reported active powers at the two ends of every branch sum to its resistance times the squared magnitude of the current in its series impedance, and the reactive powers to its reactance times that square less the reactive power of its charging capacitors at the reported voltages. The reported powers of all buses sum to the totals of these, up to 1e-5 p.u. per bus other than the slack bus: without resistances the active powers of the buses cancel, and without line charging the network never produces reactive power.", "quantifier": "for all networks with finite line parameters and buses numbered 0, 1, 2, ..., all states, actions, loads, potentials and linear solvers, if the load flow reports convergence", "why_tests_cant": "A test evaluates the identities at a few operating points; a sign or conjugation error in one term can vanish at points with small angles or no line charging.", "anchors": ["gym_anm/simulator/components/branch.py:TransmissionLine.compute_currents", "gym_anm/simulator/components/branch.py:TransmissionLine.compute_power_flows", "gym_anm/simulator/solve_load_flow.py:solve_pfe_newton_raphson", "gym_anm/simulator/simulator.py:Simulator.transition"]}
{"id": "C144", "title": "The numbering of the buses does not matter", "statement": "If the buses other than the slack bus exchange their numbers in the network file (bus array, branch ends, devices), the constructor still accepts the file, and every converged reset and transition returns the same reward, energy loss, penalty and convergence flag, and the same state with each bus and branch quantity found under the new number.", "quantifier": "for all networks with finite line parameters and buses numbered 0, ..., m, all injective renumberings of these numbers that keep the slack bus 0, all initial states, actions, loads, potentials and runs of any length in which the load flow converges, and all linear solvers whose result does not depend on the order of unknowns and equations", "why_tests_cant": "There are m! numberings of a network, and the code uses bus numbers as matrix indices, dictionary keys and array offsets at once; a test compares a few pairs of files.", "anchors": ["gym_anm/simulator/simulator.py:Simulator.__init__", "gym_anm/simulator/simulator.py:Simulator._build_admittance_matrix", "gym_anm/simulator/simulator.py:Simulator.transition", "gym_anm/simulator/simulator.py:Simulator.reset", "gym_anm/simulator/solve_load_flow.py:solve_pfe_newton_raphson", "gym_anm/simulator/solve_load_flow.py:_newton_raphson_sparse"]}
{"id": "C145", "title": "The base voltages of the buses are only units", "statement": "If two network files differ only in the base voltages (BASE_KV) of the buses, the simulators built from them return the same energy loss, penalty, reward and convergence flag at every reset and transition, and states that agree in every quantity not expressed in kV or kA. Environments built from them show the same observations and rewards in every session, if nothing is observed in kV or kA.", "quantifier": "for all pairs of accepted network files that differ only in base voltages, all potentials, loads, actions, load flow and optimisation backends, and all sequences of resets and steps, failing ones included", "why_tests_cant": "The claim is about every pair of files and about sessions of any length; a test compares finitely many steps of a few pairs.", "anchors": ["gym_anm/simulator/components/bus.py:Bus", "gym_anm/simulator/simulator.py:Simulator.transition", "gym_anm/simulator/simulator.py:Simulator.reset", "gym_anm/simulator/simulator.py:Simulator._gather_state", "gym_anm/envs/anm_env.py:ANMEnv.step", "gym_anm/envs/anm_env.py:ANMEnv.reset"]}
{"id": "C146", "title": "More demand than the lines can deliver always ends the episode", "statement": "After a transition whose load flow converged, the devices of any region without the slack bus together draw no more active power than the lines into the region can deliver: |V|\u00b2/(4r) for each line, with the voltage reported at its outer end (behind the transformer ratio). In particular, if the devices away from the slack bus draw more than the sum of 1/(4r) over the lines at the slack bus, the load flow is never reported as converged and the step terminates the episode.", "quantifier": "for all accepted networks with finite line parameters and buses numbered 0, ..., m, all regions whose border lines have a resistance, all loads, potentials, actions and histories, all optimisation backends and all linear solvers, up to the tolerance of 1e-5 p.u. per bus", "why_tests_cant": "That no iteration of Newton's method ends in a point that looks like a solution is a statement about all demands beyond the limit and all numerical behaviour; a test tries single demands.", "anchors": ["gym_anm/simulator/simulator.py:Simulator.transition", "gym_anm/simulator/solve_load_flow.py:solve_pfe_newton_raphson", "gym_anm/envs/anm_env.py:ANMEnv.step", "gym_anm/simulator/components/branch.py:TransmissionLine"]}
{"id": "C147", "title": "Voltages never rise towards a region that only consumes", "statement": "After a transition whose load flow converged, take a line that is the only connection to a part of the network without the slack bus where no bus produces active or reactive power and the lines have no charging. The voltage magnitude reported at its inner end is then at most the one at its outer end (compared behind the transformer). Hence, if nothing is produced away from the slack bus, no bus on a feeder without transformer ratios is above 1 p.u.", "quantifier": "for all accepted networks with finite line parameters and buses numbered 0, ..., m, all such lines and regions, all loads, actions and histories, all optimisation backends and all linear solvers, up to the tolerance of 1e-5 p.u. per bus times the impedance", "why_tests_cant": "The voltage profile of a feeder is the solution of non-linear equations; that it never rises towards consumers concerns every solution the iteration may end in, for every topology behind the line, where a test compares a few stored voltages.", "anchors": ["gym_anm/simulator/simulator.py:Simulator.transition", "gym_anm/simulator/solve_load_flow.py:solve_pfe_newton_raphson", "gym_anm/simulator/components/branch.py:TransmissionLine"]}
{"id": "C148", "title": "Energy loss, penalty and reward can be recomputed from the returned state", "statement": "The energy loss returned by a transition is in MWh, as documented: it is the length of the time step times the sum, over the powers in MW of the returned state, of the injections of all loads and generators (including the slack) and of what the renewable generators could have produced but did not. The penalty is the weight times the time step times the amounts by which the voltages and apparent powers of the state exceed their limits. The reward is minus the sum of both.", "quantifier": "for all accepted networks, all optimisation and load-flow backends, all histories and arguments, including infinite and undefined values", "why_tests_cant": "The claim relates two independently filled results for all networks, base powers and states, where a test compares numbers on small networks, mostly with a base power of 1.", "anchors": ["gym_anm/simulator/simulator.py:Simulator.transition", "gym_anm/simulator/simulator.py:Simulator._compute_reward", "gym_anm/simulator/simulator.py:Simulator._gather_state"]}
{"id": "C149", "title": "Carrying power costs losses that grow with its square", "statement": "After a converged transition, the losses of a branch are at least its resistance times the square of the active power at either end, divided by the square of the voltage there. The square of the active power exchanged with the main grid, in either direction, is at most four times the limit of the branches at the slack bus (the number of the network file that also limits the demand) times the losses of all branches. Without storage units, the energy loss of the step is therefore at least the length of the time step times that square over four times the limit, up to the tolerance of the load flow.", "quantifier": "for all clean network files with finite lines, all linear solvers and optimisation backends, all histories and actions whose load flow converged", "why_tests_cant": "A lower bound on a cost over all dispatches, which no finite set of power flows can establish; an error in the loss accounting shows only as a slightly too good reward.", "anchors": ["gym_anm/simulator/solve_load_flow.py:solve_pfe_newton_raphson", "gym_anm/simulator/components/branch.py:TransmissionLine.compute_power_flows", "gym_anm/simulator/simulator.py:Simulator._compute_reward"]}
{"id": "C150", "title": "The load flow of ANM6 has one solution at usual voltages", "statement": "Load flow equations are non-linear and may have several solutions, and the library returns whichever one its iteration reaches. In ANM6 the choice does not matter as long as the voltages stay at 80 % of their nominal values or above. With exact projections onto the device regions, and whatever the action, the demands and the potentials, the injections that a transition arrives at stay within ranges for which the equations have at most one exact solution with such voltages. And since the library stops at a tolerance: two converged results for the same inputs, obtained with any two linear solvers of any accuracy, differ by at most 0.0002 p.u. in every voltage and by at most 0.0002 p.u. (0.02 MWh) in the reported energy loss.", "quantifier": "all simulators of the ANM6 grid, all actions with finite demands, all pairs of linear solvers, and all pairs of exact or approximate solutions of the load flow equations with voltages of at least 80 %", "why_tests_cant": "A test computes one solution with one solver. That no second solution lies anywhere in the range of usual voltages, for a continuum of injections, is a statement about all pairs of solutions of a non-linear system.", "anchors": ["gym_anm/envs/anm6_env/network.py:network", "gym_anm/simulator/simulator.py:Simulator.transition", "gym_anm/simulator/solve_load_flow.py:solve_pfe_newton_raphson", "gym_anm/simulator/solve_load_flow.py:_newton_raphson_sparse"]}
{"id": "C151", "title": "Next to every converged load flow of ANM6 there is an exact operating point", "statement": "The load flow reports convergence when its equations hold up to a tolerance; that alone does not mean that the grid has an operating point there at all. In ANM6 it does: if a transition converges to voltages of at least 80 % of their nominal values, then the load flow equations for the resulting powers of the devices have an exact solution. No other exact solution has voltages of at least 80 %. The reported voltages differ from the exact ones by at most 0.0002 p.u. and the reported complex power of the slack device by at most 0.0008 p.u. (0.08 MVA), whatever the accuracy of the linear solver.", "quantifier": "all simulators of the ANM6 grid, all transitions that converge to voltages of at least 80 %, all linear solvers, and injections within the ranges that the device limits imply", "why_tests_cant": "The exact solution is not computed by anything, so a test has nothing to compare with; and existence near the result for every injection and solver is not a matter of samples.", "anchors": ["gym_anm/envs/anm6_env/network.py:network", "gym_anm/simulator/simulator.py:Simulator.transition", "gym_anm/simulator/solve_load_flow.py:solve_pfe_newton_raphson", "gym_anm/simulator/solve_load_flow.py:_newton_raphson_sparse"]}
{"id": "C152", "title": "Episodes of ANM6Easy do not depend on the linear solver, up to the tolerance of the load flow", "statement": "The linear systems of the load flow are solved by external code whose results differ between machines and versions. Take two ANM6Easy environments that differ in this solver only (and possibly in their pasts), with the same energy stored and at the same time of day, and apply the same actions to both. While neither episode ends and all voltages are at least 80 % of their nominal values, the two state vectors agree exactly in all entries but the powers of the slack device; these differ by at most 0.08 MW and 0.08 MVAr, the voltages by at most 0.0002 p.u. and the energy losses by at most 0.0002 p.u. The bounds are the same after every number of steps: the differences do not add up.", "quantifier": "all pairs of linear solvers, all pairs of environments with the same energy stored and time of day, all sequences of actions, of any length, during which both episodes go on with voltages of at least 80 %", "why_tests_cant": "A test runs on one machine with one solver; that no other solver makes the trajectories drift apart, after any number of steps, cannot be tested.", "anchors": ["gym_anm/envs/anm6_env/anm6_easy.py:ANM6Easy", "gym_anm/envs/anm_env.py:ANMEnv.step", "gym_anm/simulator/simulator.py:Simulator.transition", "gym_anm/simulator/solve_load_flow.py:solve_pfe_newton_raphson", "gym_anm/simulator/solve_load_flow.py:_newton_raphson_sparse"]}
{"id": "C153", "title": "Rewards of ANM6Easy hardly depend on the linear solver", "statement": "Take two ANM6Easy environments that differ in the linear solver of the load flow only (and possibly in their pasts), with the same energy stored and at the same time of day, and apply the same action. If neither episode ends, all voltages are at least 80 % of their nominal values, and the same lines carry exactly no active power at their sending ends, then both rewards are finite and differ by at most 0.171 (rewards lie between -101 and 1). The last condition is needed because a line that carries exactly no active power is reported with an apparent power of 0, whatever its reactive power.", "quantifier": "all pairs of linear solvers, all pairs of environments with the same energy stored and time of day, all actions with which both episodes go on with voltages of at least 80 %", "why_tests_cant": "A test runs with one solver; how much the reward can change with another one, over all states and actions, cannot be tested.", "anchors": ["gym_anm/envs/anm6_env/anm6_easy.py:ANM6Easy", "gym_anm/envs/anm_env.py:ANMEnv.step", "gym_anm/simulator/simulator.py:Simulator._compute_reward", "gym_anm/simulator/components/branch.py:TransmissionLine.compute_power_flows", "gym_anm/simulator/solve_load_flow.py:solve_pfe_newton_raphson"]}
{"id": "C154", "title": "A seed starts the same episode of ANM6Easy with every linear solver", "statement": "Reset two ANM6Easy environments, whatever their pasts, with the same seed and the same option for the date; they differ in the linear solver of the load flow only. If both accept the first initial state drawn, at voltages of at least 80 % of the nominal values, then they start at the same date and time of day, with the same energy stored and the same powers and maximum productions of all devices but the slack generator; the powers of the latter differ by at most 0.08 MW and 0.08 MVAr, the voltages of the buses by at most 0.0002 p.u. The same actions then lead both through the same states, up to the same tolerances, while the episodes go on at voltages of at least 80 %. If the linear systems are solved exactly, by whatever method, then both resets always succeed and meet these conditions.", "quantifier": "all pairs of linear solvers, all seeds, all dates (or none), all pasts of the environments, all sequences of actions", "why_tests_cant": "A test runs with one solver on one machine; that no seed leads to another episode with another solver is a statement about all seeds and solvers.", "anchors": ["gym_anm/envs/anm6_env/anm6_easy.py:ANM6Easy.init_state", "gym_anm/envs/anm6_env/anm6.py:ANM6.reset", "gym_anm/envs/anm_env.py:ANMEnv.reset", "gym_anm/simulator/simulator.py:Simulator.reset", "gym_anm/simulator/solve_load_flow.py:solve_pfe_newton_raphson"]}
{"id": "C155", "title": "The example scripts run to their end", "statement": "random_agent.py makes an ANM6Easy environment, takes sampled actions, displays every state, resets after a collapse and closes the display; mpc_constant.py and mpc_perfect.py let an MPC agent play and go on after a collapse. None of them raises an exception. In random_agent.py a frame is sent to the display after every step: it signals a collapse if and only if the step has ended the episode, the reward is -20000 then and otherwise minus the two costs in the frame; in the end no server process is left running.", "quantifier": "all actions of the action space that may be sampled, all states of the random generator, all safety margins, at least one planning step, up to 35040 iterations (the scripts use 10 and 100)", "why_tests_cant": "One run samples ten actions; that no sample and no random initial state makes a script fail needs all of them, collapses included.", "anchors": ["examples/random_agent.py:run", "examples/mpc_constant.py:run", "examples/mpc_perfect.py:run", "gym_anm/envs/anm6_env/anm6.py:ANM6.render", "gym_anm/envs/anm6_env/anm6.py:ANM6.close", "gym_anm/envs/anm6_env/anm6_easy.py:ANM6Easy.reset", "gym_anm/agents/mpc.py:MPCAgent.act"]}
{"id": "C156", "title": "The two-bus example never collapses", "statement": "The environment of examples/simple_env.py can be played for any number of steps: every reset succeeds at the first initial state drawn, no step ends the episode, and the voltage of the load stays within 2% of its nominal value. A step is penalised whenever the demand drawn is more than 3.001 MW, and not if it is 2.9 MW at most: the rating of the line (3 MVA) is the only limit that is ever violated.", "quantifier": "all states of the random generator, all seeds, any number of steps", "why_tests_cant": "A run of ten steps draws ten of infinitely many demands; that Newton-Raphson converges for all of them needs a bound on the error of every iteration.", "anchors": ["examples/simple_env.py:SimpleEnvironment", "gym_anm/simulator/solve_load_flow.py:_newton_raphson_sparse", "gym_anm/simulator/simulator.py:Simulator.reset", "gym_anm/simulator/simulator.py:Simulator.transition", "gym_anm/envs/anm_env.py:ANMEnv.reset", "gym_anm/envs/anm_env.py:ANMEnv.step"]}
{"id": "C157", "title": "The six-bus example can always be reset and runs to its end", "statement": "Every reset of the environment of examples/custom_anm6.py succeeds, whatever the seed and the start date, with the first initial state drawn, although that state is drawn uniformly in [0, 1) regardless of the network (demands are positive, set-points may be outside the capability curves). The initial voltages are between 0.82 and 1.18 pu. The script of the example therefore runs to its end, whatever actions it samples, and so does any longer one up to a year of steps.", "quantifier": "all states of the random generator, all seeds, all dates, all sequences of actions of the action space up to a year", "why_tests_cant": "A reset draws one of infinitely many initial states; up to 100 draws are tried, so a test does not notice draws that fail, nor show that 100 failures in a row cannot happen.", "anchors": ["examples/custom_anm6.py:CustomANM6Environment", "gym_anm/simulator/simulator.py:Simulator.reset", "gym_anm/simulator/simulator.py:Simulator.transition", "gym_anm/simulator/components/devices.py:Load.map_pq", "gym_anm/simulator/components/devices.py:Generator.map_pq", "gym_anm/simulator/components/devices.py:StorageUnit.map_pq", "gym_anm/simulator/solve_load_flow.py:_newton_raphson_sparse", "gym_anm/envs/anm_env.py:ANMEnv.reset", "gym_anm/envs/anm6_env/anm6.py:ANM6.reset"]}
{"id": "C158", "title": "Curtailing alone never ends an episode of the six-bus example", "statement": "In the environment of examples/custom_anm6.py, an agent that only chooses the active powers of the generators, with no reactive powers and an idle storage unit, never makes the network collapse: no such step ends the episode, whatever is drawn, and the voltages of all buses stay between 0.82 and 1.18 pu. From a reset without a start date it can play any number of steps up to a year.", "quantifier": "all states of the random generator, all seeds, all active powers of the action space, all sequences of up to 35040 such actions", "why_tests_cant": "Demands and maximum productions are drawn from an interval at every step; that Newton-Raphson converges for all of them needs a bound on the error of every iteration.", "anchors": ["examples/custom_anm6.py:CustomANM6Environment.next_vars", "gym_anm/simulator/simulator.py:Simulator.transition", "gym_anm/simulator/components/devices.py:Generator.map_pq", "gym_anm/simulator/components/devices.py:StorageUnit.map_pq", "gym_anm/simulator/solve_load_flow.py:_newton_raphson_sparse", "gym_anm/envs/anm_env.py:ANMEnv.step", "gym_anm/envs/anm6_env/anm6.py:ANM6.step"]}
{"id": "C159", "title": "One action collapses the six-bus example, whatever its state", "statement": "In every state of examples/custom_anm6.py between two steps, the action [0, 0, -30, -50, 0, -50] of its action space makes the load flow fail: step returns terminated=True and the reward -1000, as long as the date of the environment stays before the year 10000.", "quantifier": "for all states of the example that can be reached, all random draws, any behaviour of the linear solver within the load flow, exact projections", "why_tests_cant": "The demands are drawn from an interval at every step; that no iteration of the load flow succeeds, for any linear solver, needs that the equations have no solution, not even up to the tolerance.", "anchors": ["examples/custom_anm6.py:CustomANM6Environment", "gym_anm/simulator/simulator.py:Simulator.transition", "gym_anm/simulator/solve_load_flow.py:solve_pfe_newton_raphson", "gym_anm/envs/anm_env.py:ANMEnv.step", "gym_anm/envs/anm6_env/anm6.py:ANM6.step"]}
{"id": "C160", "title": "The rewards of the two-bus example are never clipped", "statement": "In the environment of examples/simple_env.py the values of costs_clipping, 1 and 100, are never reached: the reward of every step is minus the energy loss and the penalty that the simulator computes, and lies between -1.9101 and 0.00001.", "quantifier": "all states of the random generator, all seeds, any number of steps", "why_tests_cant": "A run shows the rewards of the demands it draws; that none is ever clipped needs bounds on the currents of the load flow for all of them.", "anchors": ["examples/simple_env.py:SimpleEnvironment", "gym_anm/simulator/simulator.py:Simulator.transition", "gym_anm/simulator/simulator.py:Simulator._compute_reward", "gym_anm/envs/anm_env.py:ANMEnv.step"]}
{"id": "C161", "title": "In the six-bus example curtailing always pays more than a collapse", "statement": "In the environment of examples/custom_anm6.py an agent that only curtails the renewable generators, with no reactive powers and an idle storage unit, earns between -42.5 and 1 in every step, so that its discounted rewards never sum up to less than -425. A step that collapses the network is rewarded -1000, so it is worse than curtailing for any number of steps, by 575 or more.", "quantifier": "all states of the random generator, all seeds, all setpoints for the two generators, any number of steps, all actions that collapse the network", "why_tests_cant": "A run shows the rewards of one agent and one random generator; that the order between them never turns needs bounds on the voltages and currents for all setpoints and all days.", "anchors": ["examples/custom_anm6.py:CustomANM6Environment", "gym_anm/envs/anm6_env/anm6.py:ANM6", "gym_anm/simulator/simulator.py:Simulator.transition", "gym_anm/simulator/simulator.py:Simulator._compute_reward", "gym_anm/envs/anm_env.py:ANMEnv.step"]}
{"id": "C162", "title": "The rewards of the six-bus example are numbers, and a collapse is the worst", "statement": "Every step of examples/custom_anm6.py that returns is rewarded with a number, never NaN or infinite: -1000 if it ends the episode, otherwise between -101 and 1. In every state between two steps the action [0, 0, -30, -50, 0, -50] is the worst: no action is rewarded less, and those that do not end the episode are rewarded more by 899 or more. The discounted rewards of an episode of any length sum up to a number between -1010 and 10.", "quantifier": "all reachable states, all actions, all random draws, any behaviour of the linear solver within the load flow; for the worst action also exact projections and dates before the year 10000", "why_tests_cant": "The rewards of all actions in all states are compared; a run shows one reward per state.", "anchors": ["examples/custom_anm6.py:CustomANM6Environment", "gym_anm/simulator/simulator.py:Simulator.transition", "gym_anm/simulator/simulator.py:Simulator._compute_reward", "gym_anm/envs/anm_env.py:ANMEnv.step", "gym_anm/envs/anm6_env/anm6.py:ANM6.step"]}
