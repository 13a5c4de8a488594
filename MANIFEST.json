{
 "claims": [
  {
   "property": "C01",
   "status": "proved",
   "theorems": [
    "Anm.C01_checkNetwork_iff"
   ],
   "note": "for networks whose topology cells (IDs, types, end points) are not NaN"
  },
  {
   "property": "C02",
   "status": "proved",
   "theorems": [
    "Anm.C02_error_class",
    "Anm.C02_error_classes_any"
   ],
   "note": ""
  },
  {
   "property": "C03",
   "status": "proved",
   "theorems": [
    "Anm.C03_load"
   ],
   "note": "rows without NaN"
  },
  {
   "property": "C04",
   "status": "partial",
   "theorems": [
    "Anm.C04_load_pmax_partial",
    "Anm.C04_counterexample",
    "Anm.C04_counterexample_rejected"
   ],
   "note": "the claim is false: PMAX of a load is not divided by baseMVA; proved when PMAX is None or 0 or baseMVA = 1"
  },
  {
   "property": "C05",
   "status": "proved",
   "theorems": [
    "Anm.C05_generator"
   ],
   "note": ""
  },
  {
   "property": "C06",
   "status": "proved",
   "theorems": [
    "Anm.C06_storage"
   ],
   "note": ""
  },
  {
   "property": "C07",
   "status": "proved",
   "theorems": [
    "Anm.C07_branch",
    "Anm.C07_series_admittance"
   ],
   "note": ""
  },
  {
   "property": "C08",
   "status": "partial",
   "theorems": [
    "Anm.C08_device_ids_partial",
    "Anm.C08_branch_ids_partial",
    "Anm.C08_bus_ids_partial",
    "Anm.C08_counterexample_gen",
    "Anm.C08_counterexample_storage",
    "Anm.C08_counterexample_load",
    "Anm.C08_counterexample_branch",
    "Anm.C08_counterexample_bus"
   ],
   "note": "the claim is false for limit columns; proved for ID/type columns"
  },
  {
   "property": "C09",
   "status": "proved",
   "theorems": [
    "Anm.C09_row_order"
   ],
   "note": "for files whose IDs are integers; C09_counterexample_fractional shows that fractional IDs break it"
  },
  {
   "property": "C10",
   "status": "partial",
   "theorems": [
    "Anm.C10_nothing_dropped_partial",
    "Anm.C10_sizes_partial",
    "Anm.C10_counterexample"
   ],
   "note": "false for fractional IDs, which are truncated and merged; proved for integer IDs"
  },
  {
   "property": "C100",
   "status": "proved",
   "theorems": [
    "Anm.C100_simple_made",
    "Anm.C100_simple_spaces",
    "Anm.C100_simple_reset",
    "Anm.C100_simple_step",
    "Anm.C100_simple_episode",
    "Anm.C100_custom_made",
    "Anm.C100_custom_spaces",
    "Anm.C100_custom_reset",
    "Anm.C100_custom_step",
    "Anm.C100_custom_episode",
    "Anm.C100_simple_solvers",
    "Anm.C100_simple_case",
    "Anm.C100_custom_case"
   ],
   "note": "the random initial state of the six-bus example keeps the state of charge within its limits and its clock is an integer, so C82 applies"
  },
  {
   "property": "C101",
   "status": "partial",
   "theorems": [
    "Anm.C101_reset_partial",
    "Anm.C101_step_partial",
    "Anm.C101_counterexample"
   ],
   "note": "False for observations: aux_bounds is [[0, 10]], and observations are clipped to the space, so the observed time stays at 10 (02:30) for the rest of the day. Proved for the state, and that the observation shows min(t, 10)."
  },
  {
   "property": "C102",
   "status": "proved",
   "theorems": [
    "Anm.C102_vars_in_state"
   ],
   "note": "files whose IDs are integers and whose base power is a number"
  },
  {
   "property": "C103",
   "status": "partial",
   "theorems": [
    "Anm.C103_step_partial",
    "Anm.C103_draws",
    "Anm.C103_counterexample"
   ],
   "note": "False: the vector lists the values by device ID instead of loads first, so in every step the industrial complex consumes nothing and the wind farm can produce nothing. Proved: the values are within the documented limits."
  },
  {
   "property": "C104",
   "status": "proved",
   "theorems": [
    "Anm.C104_step",
    "Anm.C104_episode"
   ],
   "note": "A callable observation must return vectors of one length (as in C54)."
  },
  {
   "property": "C105",
   "status": "proved",
   "theorems": [
    "Anm.C105_step",
    "Anm.C105_easy"
   ],
   "note": ""
  },
  {
   "property": "C106",
   "status": "proved",
   "theorems": [
    "Anm.C106_leaf",
    "Anm.C106_rating",
    "Anm.C106_draw",
    "Anm.C106_inject"
   ],
   "note": "A bus at the first end of a branch that is idle there escapes the rating (C35); `C106_rating` excludes this case, `C106_draw` and `C106_inject` show that it cannot occur."
  },
  {
   "property": "C107",
   "status": "proved",
   "theorems": [
    "Anm.C107_ends",
    "Anm.C107_night",
    "Anm.C107_vehicles",
    "Anm.C107_noon",
    "Anm.C107_step_energy",
    "Anm.C107_energy",
    "Anm.C107_reserve"
   ],
   "note": ""
  },
  {
   "property": "C108",
   "status": "proved",
   "theorems": [
    "Anm.C108_load",
    "Anm.C108_generator",
    "Anm.C108_storage",
    "Anm.C108_easy",
    "Anm.C108_vector",
    "Anm.C108_times",
    "Anm.C108_counterexample"
   ],
   "note": "`C108_counterexample` shows what happens at the four times; the exact projection is assumed (C16)."
  },
  {
   "property": "C109",
   "status": "proved",
   "theorems": [
    "Anm.C109_applied"
   ],
   "note": ""
  },
  {
   "property": "C11",
   "status": "proved",
   "theorems": [
    "Anm.C11_counters"
   ],
   "note": ""
  },
  {
   "property": "C110",
   "status": "proved",
   "theorems": [
    "Anm.play_step",
    "Anm.plan_step",
    "Anm.C110_playable"
   ],
   "note": "The behaviour of SciPy's solver is not modelled; the theorem is about a solver that finds the solutions within the limits. The claim shows that the limits of C107 and C111 do not make the task impossible as such."
  },
  {
   "property": "C111",
   "status": "proved",
   "theorems": [
    "Anm.C111_doomed"
   ],
   "note": "A consequence of the unit error in init_state() (C58)."
  },
  {
   "property": "C112",
   "status": "proved",
   "theorems": [
    "Anm.C112_draw",
    "Anm.C112_inject",
    "Anm.C112_step",
    "Anm.C112_return",
    "Anm.C112_day",
    "Anm.C112_agents"
   ],
   "note": "Line losses are bounded below by 0, so the bound is not the optimum."
  },
  {
   "property": "C113",
   "status": "proved",
   "theorems": [
    "Anm.good_game",
    "Anm.C113_play"
   ],
   "note": "The linear solver steps to a solution of the load flow within the limits, if there is one; every such solution gives these rewards."
  },
  {
   "property": "C114",
   "status": "proved",
   "theorems": [
    "Anm.C114_newton"
   ],
   "note": "Linear systems solved exactly; derivatives over the reals."
  },
  {
   "property": "C115",
   "status": "proved",
   "theorems": [
    "Anm.C115_converges"
   ],
   "note": "Linear systems solved exactly. The ranges contain all operating points within the ratings of the lines to the buses 3, 4 and 5 (18 MVA)."
  },
  {
   "property": "C116",
   "status": "proved",
   "theorems": [
    "Anm.C116_draw",
    "Anm.C116_reset"
   ],
   "note": "Linear systems solved exactly."
  },
  {
   "property": "C117",
   "status": "proved",
   "theorems": [
    "Anm.C117_finds",
    "Anm.steers_exact"
   ],
   "note": "Linear systems solved exactly."
  },
  {
   "property": "C118",
   "status": "proved",
   "theorems": [
    "Anm.C118_playable",
    "Anm.C118_doomed",
    "Anm.plan_run"
   ],
   "note": "Linear systems solved exactly for the positive part. Between 0.208 and 0.24 MWh at 11:15 am and 9:15 pm the question is open."
  },
  {
   "property": "C119",
   "status": "proved",
   "theorems": [
    "Anm.C119_good",
    "Anm.good_game"
   ],
   "note": "Linear systems solved exactly."
  },
  {
   "property": "C12",
   "status": "proved",
   "theorems": [
    "Anm.C12_gen_region"
   ],
   "note": ""
  },
  {
   "property": "C120",
   "status": "partial",
   "theorems": [
    "Anm.C120_bus",
    "Anm.C120_line",
    "Anm.C120_generator",
    "Anm.C120_storage",
    "Anm.C120_load_partial",
    "Anm.C120_counterexample_load"
   ],
   "note": "proved for buses, lines, generators and storage units; false for loads (PMAX is not converted to per-unit), proved for loads with PMAX zero or missing"
  },
  {
   "property": "C121",
   "status": "partial",
   "theorems": [
    "Anm.C121_accepted_partial",
    "Anm.C121_counterexample"
   ],
   "note": "false for loads with PMAX < 0 (counterexample); proved for all files whose loads have PMAX zero or missing"
  },
  {
   "property": "C122",
   "status": "proved",
   "theorems": [
    "Anm.C122_slack_power"
   ],
   "note": ""
  },
  {
   "property": "C123",
   "status": "partial",
   "theorems": [
    "Anm.C123_reset",
    "Anm.C123_step",
    "Anm.C123_kept_partial",
    "Anm.C123_library",
    "Anm.C123_counterexample"
   ],
   "note": "False for a subclass whose method observation returns the state vector it is given: step writes the auxiliary variables into self.state before it makes a new vector, and thereby into the observation returned before (C123_counterexample). Proved: reset writes into no array, step into no array but self.state; observations of environments made with observation='state' or a list (C123_library) and of observation functions that make new arrays (C123_kept_partial) never change, provided init_state makes a new array."
  },
  {
   "property": "C124",
   "status": "partial",
   "theorems": [
    "Anm.C124_values_partial",
    "Anm.C124_writes_partial",
    "Anm.C124_counterexample"
   ],
   "note": "False for a subclass whose method observation returns the state vector it is given: the agent then writes into self.state (C124_counterexample). Proved for init_state and observation functions that make new arrays, in particular for the observations of the library: the answers are those computed with values (C124_values_partial), whatever the agent writes (C124_writes_partial)."
  },
  {
   "property": "C125",
   "status": "proved",
   "theorems": [
    "Anm.C125_generator",
    "Anm.C125_storage",
    "Anm.C125_easy",
    "Anm.C125_penalty"
   ],
   "note": "The solar farm is cut at its rated 30 MW, which the tables never exceed in the scenarios; the penalty requires a converged load flow only."
  },
  {
   "property": "C126",
   "status": "proved",
   "theorems": [
    "Anm.C126_penalty",
    "Anm.C126_carries",
    "Anm.C126_step",
    "Anm.C126_year"
   ],
   "note": "The overloads counted are those of the branches to the loads and generators, from their active powers only; C111 and C118 give the returns that can be reached instead."
  },
  {
   "property": "C127",
   "status": "proved",
   "theorems": [
    "Anm.C127_no_solution",
    "Anm.C127_collapse",
    "Anm.C127_step"
   ],
   "note": "C127_no_solution is about every demand of at least 30, 50 and 50 Mvar at the buses 3, 4 and 5, without active injections."
  },
  {
   "property": "C128",
   "status": "proved",
   "theorems": [
    "Anm.C128_run"
   ],
   "note": "The energies in between are on the straight line from the first to the last (region_later)."
  },
  {
   "property": "C129",
   "status": "proved",
   "theorems": [
    "Anm.C129_step",
    "Anm.C129_run"
   ],
   "note": ""
  },
  {
   "property": "C13",
   "status": "proved",
   "theorems": [
    "Anm.C13_storage_region"
   ],
   "note": ""
  },
  {
   "property": "C130",
   "status": "proved",
   "theorems": [
    "Anm.C130_generator",
    "Anm.C130_storage"
   ],
   "note": ""
  },
  {
   "property": "C131",
   "status": "partial",
   "theorems": [
    "Anm.C131_counterexample",
    "Anm.C131_error",
    "Anm.C131_fixed_partial"
   ],
   "note": "False: the constructor always raises an exception, and UnitsNotSupportedError if the other arguments are fine. With 'MVAr' as second unit the arguments are accepted."
  },
  {
   "property": "C132",
   "status": "proved",
   "theorems": [
    "Anm.C132_level",
    "Anm.C132_direction",
    "Anm.C132_run",
    "Anm.C132_limits",
    "Anm.C132_penalty",
    "Anm.C132_no_violation",
    "Anm.C132_reward",
    "Anm.C132_solve_id",
    "Anm.C132_reward_id",
    "Anm.C132_clip_id",
    "Anm.C132_energy_counterexample"
   ],
   "note": "Model/Rounding.lean repeats the step with an arbitrary rounding after every operation; with the identity as rounding it is the model (C132_*_id). The exact balance of energy is not claimed: C132_energy_counterexample shows a rounding that breaks it."
  },
  {
   "property": "C133",
   "status": "partial",
   "theorems": [
    "Anm.C133_construct_partial",
    "Anm.C133_accepted_partial",
    "Anm.C133_reset_partial",
    "Anm.C133_transition_partial",
    "Anm.C133_run_partial",
    "Anm.C133_readings",
    "Anm.C133_action_space",
    "Anm.C133_projection",
    "Anm.C133_newton",
    "Anm.C133_load_flow",
    "Anm.C133_oracle",
    "Anm.C133_real_partial",
    "Anm.C133_accepted_counterexample",
    "Anm.C133_load_counterexample",
    "Anm.C133_reward_counterexample",
    "Anm.C133_tolerance_counterexample"
   ],
   "note": "False as stated, in three ways, each with a counterexample: PMAX of a load is not converted (accepted_, load_counterexample), the tolerance of the load flow is in per-unit (tolerance_counterexample), and voltage violations do not scale with the other costs (reward_counterexample). Proved for networks without PMAX of loads, with a converted tolerance; rewards for steps without voltage violations. The voltages visited by Newton's method never depend on the base power (C133_newton)."
  },
  {
   "property": "C134",
   "status": "proved",
   "theorems": [
    "Anm.C134_construct",
    "Anm.C134_transition",
    "Anm.C134_raises",
    "Anm.C134_run",
    "Anm.C134_reset",
    "Anm.C134_order",
    "Anm.C134_action_space",
    "Anm.C134_env_make",
    "Anm.C134_env_reset",
    "Anm.C134_env_step",
    "Anm.C134_episode"
   ],
   "note": "The IDs of buses are not covered (they index the admittance matrix). The IDs of the file are integers (C10 says what happens otherwise)."
  },
  {
   "property": "C135",
   "status": "proved",
   "theorems": [
    "Anm.C135_generator_p",
    "Anm.C135_generator_q",
    "Anm.C135_storage_p",
    "Anm.C135_storage_q",
    "Anm.C135_step",
    "Anm.C135_run"
   ],
   "note": "Exact projections (QPExact), as for C129 and C130."
  },
  {
   "property": "C136",
   "status": "proved",
   "theorems": [
    "Anm.C136_step",
    "Anm.C136_run"
   ],
   "note": "The power of the slack device balances the network and is excluded. Both runs succeed (the arguments of another device may make a time step raise)."
  },
  {
   "property": "C137",
   "status": "proved",
   "theorems": [
    "Anm.C137_feasible",
    "Anm.C137_horizon",
    "Anm.C137_potential",
    "Anm.C137_potential_cost",
    "Anm.C137_margin"
   ],
   "note": ""
  },
  {
   "property": "C138",
   "status": "proved",
   "theorems": [
    "Anm.C138_feasible",
    "Anm.C138_cost",
    "Anm.C138_no_local"
   ],
   "note": "That CVXPY recognises the problem as convex (its grammar rules) is not modelled."
  },
  {
   "property": "C139",
   "status": "proved",
   "theorems": [
    "Anm.C139_totals",
    "Anm.C139_slack_bus",
    "Anm.C139_split_step",
    "Anm.C139_split",
    "Anm.C139_slack_demand_pays"
   ],
   "note": "C139_slack_demand_pays: a demand at the slack bus changes nothing in the grid, not even the power drawn from the slack, but the reported energy loss decreases by it (the energy is counted but comes from nowhere)."
  },
  {
   "property": "C14",
   "status": "partial",
   "theorems": [
    "Anm.C14_gen_feasible_partial",
    "Anm.C14_gen_feasible_box_partial",
    "Anm.C14_counterexample"
   ],
   "note": "false for some accepted generators; exact conditions under which it holds are in the theorem hypotheses"
  },
  {
   "property": "C140",
   "status": "partial",
   "theorems": [
    "Anm.C140_own_partial",
    "Anm.C140_simple_ignored",
    "Anm.C140_custom_ignored",
    "Anm.C140_counterexample"
   ],
   "note": "False for the examples: they draw from numpy's global generator, so the seed given to reset (or to the constructor) has no effect on anything observable (C140_simple_ignored, C140_custom_ignored, for all seeds, states and actions), and two resets with one seed give two observations (C140_counterexample). C140_own_partial: true for hooks that draw from the generator of the environment only."
  },
  {
   "property": "C141",
   "status": "proved",
   "theorems": [
    "Anm.C141_optimal",
    "Anm.C141_easy"
   ],
   "note": ""
  },
  {
   "property": "C142",
   "status": "proved",
   "theorems": [
    "Anm.C142_transition",
    "Anm.C142_session",
    "Anm.C142_files",
    "Anm.C142_env",
    "Anm.C142_realPF"
   ],
   "note": "Rewards are compared up to NaN. The upper limit of the slack bus is kept, because it is reported as its voltage; whether VMIN is given at all is kept too."
  },
  {
   "property": "C143",
   "status": "proved",
   "theorems": [
    "Anm.C143_branch",
    "Anm.C143_total",
    "Anm.C143_lossless"
   ],
   "note": "The current in the series impedance is the charging current of the receiving end minus the current reported there."
  },
  {
   "property": "C144",
   "status": "proved",
   "theorems": [
    "Anm.C144_construct",
    "Anm.C144_transition",
    "Anm.C144_reset",
    "Anm.C144_runs",
    "Anm.C144_converged"
   ],
   "note": "The slack bus has number 0 in both files, as the load flow requires (finding on bus numbers). The linear solver is an oracle that commutes with exchanging unknowns and equations; multiplying with the inverse matrix is one. C144_converged: whether the load flow converges does not depend on the numbering either."
  },
  {
   "property": "C145",
   "status": "proved",
   "theorems": [
    "Anm.C145_files",
    "Anm.C145_transition",
    "Anm.C145_reset",
    "Anm.C145_env",
    "Anm.C145_session"
   ],
   "note": "A consequence users must know: the line parameters r, x, b of the file are in per unit and are not converted, so changing the voltage level of a network by BASE_KV alone changes nothing but the kV and kA values shown."
  },
  {
   "property": "C146",
   "status": "proved",
   "theorems": [
    "Anm.C146_region",
    "Anm.C146_collapse",
    "Anm.C146_step",
    "Anm.C146_attained",
    "Anm.C146_thin"
   ],
   "note": "The limit of a single line is the best possible (C146_attained). C146_thin is a network with a demand beyond the limit."
  },
  {
   "property": "C147",
   "status": "proved",
   "theorems": [
    "Anm.C147_line",
    "Anm.C147_feeder",
    "Anm.C147_ohm"
   ],
   "note": "C147_ohm is a converged transition with a demand of 1/4 p.u. whose voltage is 1/2; its demand is exactly the limit of C146."
  },
  {
   "property": "C148",
   "status": "partial",
   "theorems": [
    "Anm.C148_energy_partial",
    "Anm.C148_penalty",
    "Anm.C148_counterexample"
   ],
   "note": "False for the unit of the energy loss: it is in p.u., to be multiplied by the base power (C148_energy_partial); C148_counterexample loses 3.75 MWh and reports 0.0375. Penalty and reward are proved as stated."
  },
  {
   "property": "C149",
   "status": "proved",
   "theorems": [
    "Anm.C149_branch",
    "Anm.C149_import",
    "Anm.C149_cost",
    "Anm.C149_ohm"
   ],
   "note": "C149_ohm shows a two-bus network whose demand converges and where the second statement is an equality."
  },
  {
   "property": "C15",
   "status": "partial",
   "theorems": [
    "Anm.C15_storage_feasible_partial",
    "Anm.C15_counterexample"
   ],
   "note": "false for EFF = 0 and for asymmetric limits; proved otherwise"
  },
  {
   "property": "C150",
   "status": "proved",
   "theorems": [
    "Anm.C150_only",
    "Anm.C150_near",
    "Anm.C150_solver",
    "Anm.C150_reach"
   ],
   "note": "C150_only: two exact solutions of the load flow equations of ANM6 for the same injections within reach, both with voltages of at least 80 %, are equal. C150_near: two solutions up to the tolerance of the library differ by at most 0.0002 in the voltages and 0.0008 in the power of the slack bus. C150_solver: two converged transitions with the same inputs and any two oracles for the linear systems differ by at most 0.0002 in every voltage and in the energy loss. C150_reach: with sound projections the injections are within reach, whatever the action. An example applies it to the steps of ANM6Easy in which nothing is done, at every time of day."
  },
  {
   "property": "C151",
   "status": "proved",
   "theorems": [
    "Anm.C151_exact",
    "Anm.C151_transition"
   ],
   "note": "C151_exact: for injections within reach, a solution of the load flow equations up to the tolerance of the code with voltages of at least 80 % has an exact solution next to it, which is the only one with such voltages. C151_transition: the same for converged transitions, in terms of the reported voltages and the power of the slack device. That the injections are within reach is C150_reach. An example applies it to the steps of ANM6Easy in which nothing is done, at every time of day."
  },
  {
   "property": "C152",
   "status": "proved",
   "theorems": [
    "Anm.C152_step",
    "Anm.C152_episode"
   ],
   "note": "C152_step: one step from the same energy and time of day. C152_episode: any number of steps. The quadratic projections of the actions are exact and equal in both environments; the linear solvers are arbitrary functions. The penalty is covered by C153. An example applies both to two solvers that are exact, each in its own way, at every time of day."
  },
  {
   "property": "C153",
   "status": "proved",
   "theorems": [
    "Anm.C153_transition",
    "Anm.C153_step"
   ],
   "note": "C153_transition: the penalties of a transition differ by at most 0.17. C153_step: the rewards of a step differ by at most 0.171. Together with C152_episode the bound holds at every step of an episode, since it asks only for the same energy and time of day before the step. An example applies it to steps in which nothing is done, with one solver on both sides."
  },
  {
   "property": "C154",
   "status": "proved",
   "theorems": [
    "Anm.C154_start",
    "Anm.C154_exact",
    "Anm.C154_episode"
   ],
   "note": "C154_start: the states after the two resets. C154_exact: with exactly solved linear systems both resets succeed, without hypotheses on acceptance and voltages. C154_episode: the states after any number of equal actions. An example resets two exact environments and does nothing for a step."
  },
  {
   "property": "C155",
   "status": "proved",
   "theorems": [
    "Anm.C155_random",
    "Anm.C155_mpc"
   ],
   "note": "Assumes exactly solved linear systems in the load flow, a display that raises no exception and (MPC scripts) a solver that finds a feasible plan if there is one. The wrappers of gym.make, time.sleep and print are not modelled. An example runs random_agent.py with ten actions that all make the network collapse."
  },
  {
   "property": "C156",
   "status": "proved",
   "theorems": [
    "Anm.C156_draw",
    "Anm.C156_reset",
    "Anm.C156_step",
    "Anm.C156_episode"
   ],
   "note": "Assumes exactly solved linear systems in the load flow (the loop itself is the modelled one, with its tolerance)."
  },
  {
   "property": "C157",
   "status": "proved",
   "theorems": [
    "Anm.C157_draw",
    "Anm.C157_reset",
    "Anm.C157_script"
   ],
   "note": "Assumes exactly solved linear systems in the load flow and exact projections (the loop itself is the modelled one, with its tolerance)."
  },
  {
   "property": "C158",
   "status": "proved",
   "theorems": [
    "Anm.C158_step",
    "Anm.C158_episode",
    "Anm.C158_year"
   ],
   "note": "Assumes exactly solved linear systems in the load flow and exact projections. Relies on the behaviour shown in C103: the industrial complex and the wind farm always stay at zero."
  },
  {
   "property": "C159",
   "status": "proved",
   "theorems": [
    "Anm.C159_collapse",
    "Anm.C159_step"
   ],
   "note": "Assumes exact projections; nothing is assumed of the linear solver in the load flow. C158 shows that the active powers of the generators alone cannot do this."
  },
  {
   "property": "C16",
   "status": "proved",
   "theorems": [
    "Anm.C16_unique",
    "Anm.C16_nonexpansive",
    "Anm.C16_feasible_fixed",
    "Anm.C16_idempotent",
    "Anm.C16_solver_independent",
    "Anm.C16_generator",
    "Anm.C16_storage",
    "Anm.C16_exact_solver_exists"
   ],
   "note": ""
  },
  {
   "property": "C160",
   "status": "proved",
   "theorems": [
    "Anm.C160_step",
    "Anm.C160_episode"
   ],
   "note": "Assumes exactly solved linear systems in the load flow. The upper bound is not 0, since a converged load flow may be off by its tolerance."
  },
  {
   "property": "C161",
   "status": "proved",
   "theorems": [
    "Anm.C161_step",
    "Anm.C161_return",
    "Anm.C161_better"
   ],
   "note": "Assumes exactly solved linear systems in the load flow and exact projections in mapping actions."
  },
  {
   "property": "C162",
   "status": "proved",
   "theorems": [
    "Anm.C162_step",
    "Anm.C162_return",
    "Anm.C162_worst"
   ],
   "note": "The steps of an episode that has not ended are meant; after a collapse step returns the reward 0 (C46). Exact real arithmetic."
  },
  {
   "property": "C17",
   "status": "proved",
   "theorems": [
    "Anm.C17_gen_limits",
    "Anm.C17_potential"
   ],
   "note": "for every solver that satisfies the constraints up to a tolerance"
  },
  {
   "property": "C18",
   "status": "proved",
   "theorems": [
    "Anm.C18_load_clip",
    "Anm.C18_load_saturates"
   ],
   "note": ""
  },
  {
   "property": "C19",
   "status": "proved",
   "theorems": [
    "Anm.C19_soc_invariant"
   ],
   "note": ""
  },
  {
   "property": "C20",
   "status": "partial",
   "theorems": [
    "Anm.C20_reset_soc_partial",
    "Anm.C20_overfull_stuck",
    "Anm.C20_counterexample"
   ],
   "note": "false: reset does not clip the requested state of charge; exact characterisation proved"
  },
  {
   "property": "C21",
   "status": "proved",
   "theorems": [
    "Anm.C21_soc_accounting",
    "Anm.C21_soc_accounting_tol"
   ],
   "note": ""
  },
  {
   "property": "C22",
   "status": "proved",
   "theorems": [
    "Anm.C22_no_free_energy",
    "Anm.C22_round_trip"
   ],
   "note": ""
  },
  {
   "property": "C23",
   "status": "partial",
   "theorems": [
    "Anm.C23_round_trip_efficiency_partial",
    "Anm.C23_counterexample"
   ],
   "note": "false: the column is applied in both directions, the round trip returns EFF^2"
  },
  {
   "property": "C24",
   "status": "proved",
   "theorems": [
    "Anm.C24_reset_injection"
   ],
   "note": ""
  },
  {
   "property": "C25",
   "status": "proved",
   "theorems": [
    "Anm.C25_converged",
    "Anm.C25_reset_converged"
   ],
   "note": "finite line parameters, no NaN cells"
  },
  {
   "property": "C26",
   "status": "proved",
   "theorems": [
    "Anm.C26_loop_terminates",
    "Anm.C26_failure",
    "Anm.C26_failure_nonfinite"
   ],
   "note": ""
  },
  {
   "property": "C27",
   "status": "partial",
   "theorems": [
    "Anm.C27_jacobian_partial",
    "Anm.C27_counterexample"
   ],
   "note": "proved for positive magnitudes; false for negative ones"
  },
  {
   "property": "C28",
   "status": "partial",
   "theorems": [
    "Anm.C28_slack_voltage_partial",
    "Anm.C28_counterexample"
   ],
   "note": "proved when the slack bus has ID 0; false otherwise"
  },
  {
   "property": "C29",
   "status": "proved",
   "theorems": [
    "Anm.C29_kirchhoff",
    "Anm.C29_reported"
   ],
   "note": ""
  },
  {
   "property": "C30",
   "status": "proved",
   "theorems": [
    "Anm.C30_branch_losses",
    "Anm.C30_reported"
   ],
   "note": ""
  },
  {
   "property": "C31",
   "status": "proved",
   "theorems": [
    "Anm.C31_total_losses",
    "Anm.C31_reported"
   ],
   "note": ""
  },
  {
   "property": "C32",
   "status": "proved",
   "theorems": [
    "Anm.C32_energy_loss"
   ],
   "note": "finite line parameters, no NaN cells, renewables with a finite potential"
  },
  {
   "property": "C33",
   "status": "partial",
   "theorems": [
    "Anm.C33_bus_sum_partial",
    "Anm.C33_slack_excess",
    "Anm.C33_counterexample"
   ],
   "note": "proved for all buses but the slack bus, and for a slack bus that carries only the slack device; false when other devices share the slack bus"
  },
  {
   "property": "C34",
   "status": "partial",
   "theorems": [
    "Anm.C34_apparent_power_partial",
    "Anm.C34_zero",
    "Anm.C34_counterexample"
   ],
   "note": "false when p_from = 0: 0 is reported whatever the reactive flow"
  },
  {
   "property": "C35",
   "status": "partial",
   "theorems": [
    "Anm.C35_current_magnitude_partial",
    "Anm.C35_counterexample"
   ],
   "note": "false with numpy 2: the real part of the current is reported"
  },
  {
   "property": "C36",
   "status": "partial",
   "theorems": [
    "Anm.C36_reset_total_partial",
    "Anm.C36_counterexample_gap",
    "Anm.C36_counterexample_single",
    "Anm.C36_counterexample_vmin",
    "Anm.C36_counterexample_eff"
   ],
   "note": "false as stated, four counterexamples; proved for workable networks"
  },
  {
   "property": "C37",
   "status": "proved",
   "theorems": [
    "Anm.C37_penalty",
    "Anm.C37_no_weight",
    "Anm.C37_converged"
   ],
   "note": ""
  },
  {
   "property": "C38",
   "status": "proved",
   "theorems": [
    "Anm.C38_units"
   ],
   "note": ""
  },
  {
   "property": "C39",
   "status": "partial",
   "theorems": [
    "Anm.C39_bounds_partial",
    "Anm.C39_gen_p_max",
    "Anm.C39_counterexample"
   ],
   "note": "false for gen_p_max: its MW upper bound is computed from q_max; proved for every other quantity"
  },
  {
   "property": "C40",
   "status": "partial",
   "theorems": [
    "Anm.C40_bounds_partial",
    "Anm.C40_slack_voltage",
    "Anm.C40_counterexample_gen_p_max",
    "Anm.C40_counterexample_ratio",
    "Anm.C40_counterexample_slack_voltage"
   ],
   "note": "false for gen_p_max in MW, for loads with a negative Q/P ratio and for the slack bus voltage; proved for all else"
  },
  {
   "property": "C41",
   "status": "proved",
   "theorems": [
    "Anm.C41_bus_limits"
   ],
   "note": ""
  },
  {
   "property": "C42",
   "status": "proved",
   "theorems": [
    "Anm.C42_memoryless"
   ],
   "note": ""
  },
  {
   "property": "C43",
   "status": "partial",
   "theorems": [
    "Anm.C43_accepts_partial",
    "Anm.C43_refused",
    "Anm.C43_counterexample_nan",
    "Anm.C43_counterexample_aux",
    "Anm.C43_counterexample_unit"
   ],
   "note": "false: NaN numbers, negative or non-list auxiliary indices and three strings that are no unit are accepted; proved for all else"
  },
  {
   "property": "C44",
   "status": "partial",
   "theorems": [
    "Anm.C44_observable_partial",
    "Anm.C44_counterexample_default_unit",
    "Anm.C44_counterexample_aux"
   ],
   "note": "false for branch_i_magn without unit (KeyError) and negative auxiliary indices; proved for all else"
  },
  {
   "property": "C45",
   "status": "proved",
   "theorems": [
    "Anm.C45_actions"
   ],
   "note": ""
  },
  {
   "property": "C46",
   "status": "proved",
   "theorems": [
    "Anm.C46_absorbing",
    "Anm.C46_terminal_step",
    "Anm.C46_flag",
    "Anm.C46_until_reset",
    "Anm.C46_reset"
   ],
   "note": ""
  },
  {
   "property": "C47",
   "status": "proved",
   "theorems": [
    "Anm.C47_reward",
    "Anm.C47_terminating",
    "Anm.C47_made",
    "Anm.C47_unclipped",
    "Anm.C47_terminating_made"
   ],
   "note": ""
  },
  {
   "property": "C48",
   "status": "partial",
   "theorems": [
    "Anm.C48_collapse_partial",
    "Anm.C48_gamma_one",
    "Anm.C48_counterexample"
   ],
   "note": "false for gamma = 1 (ZeroDivisionError); proved for every other value"
  },
  {
   "property": "C49",
   "status": "proved",
   "theorems": [
    "Anm.C49_state_layout"
   ],
   "note": ""
  },
  {
   "property": "C50",
   "status": "proved",
   "theorems": [
    "Anm.C50_aux_flow"
   ],
   "note": ""
  },
  {
   "property": "C51",
   "status": "partial",
   "theorems": [
    "Anm.C51_in_space_partial",
    "Anm.C51_assertion",
    "Anm.C51_counterexample_terminal"
   ],
   "note": "false for the zero observation of a terminating step; proved for all other steps and for reset"
  },
  {
   "property": "C52",
   "status": "proved",
   "theorems": [
    "Anm.C52_init_size",
    "Anm.C52_next_size"
   ],
   "note": "hooks and power flow do not raise these exceptions themselves"
  },
  {
   "property": "C53",
   "status": "partial",
   "theorems": [
    "Anm.C53_search_partial",
    "Anm.C53_hundredth",
    "Anm.C53_reset",
    "Anm.C53_counterexample"
   ],
   "note": "false: the hundredth attempt raises AttributeError whether or not it converges; proved for the first 99"
  },
  {
   "property": "C54",
   "status": "proved",
   "theorems": [
    "Anm.C54_reset_erases",
    "Anm.C54_replay",
    "Anm.C54_made"
   ],
   "note": ""
  },
  {
   "property": "C55",
   "status": "proved",
   "theorems": [
    "Anm.C55_timestep",
    "Anm.C55_one_step"
   ],
   "note": ""
  },
  {
   "property": "C56",
   "status": "proved",
   "theorems": [
    "Anm.C56_clock",
    "Anm.C56_period"
   ],
   "note": "For every generator that draws from the requested interval."
  },
  {
   "property": "C57",
   "status": "partial",
   "theorems": [
    "Anm.C57_series_partial",
    "Anm.C57_counterexample"
   ],
   "note": "The series have 96 entries and loads stay within limits; the transitions that are linear are identified. False as stated: the morning/evening photovoltaic transition climbs to 36.75 MW, above PMAX = 30 MW, and does not interpolate; one wind transition starts at 14.725 instead of 14.625 MW."
  },
  {
   "property": "C58",
   "status": "partial",
   "theorems": [
    "Anm.C58_initial_state_partial",
    "Anm.C58_counterexample"
   ],
   "note": "False: the values are drawn between per-unit limits but used as MVAr and MWh, so the 100 MWh battery never starts with more than 1 MWh. Proved that the initial state is within the limits and follows the time series."
  },
  {
   "property": "C59",
   "status": "proved",
   "theorems": [
    "Anm.C59_calendar",
    "Anm.C59_calendar_easy",
    "Anm.C59_years"
   ],
   "note": ""
  },
  {
   "property": "C60",
   "status": "proved",
   "theorems": [
    "Anm.C60_random_date",
    "Anm.C60_excluded"
   ],
   "note": "For every generator honouring the contract of integers(); C60_excluded shows that 1 January (and 31 December of leap years) is never drawn."
  },
  {
   "property": "C61",
   "status": "partial",
   "theorems": [
    "Anm.C61_skip_frames_partial",
    "Anm.C61_times",
    "Anm.C61_counterexample"
   ],
   "note": "Exactly one call out of every k+1 refreshes, but it is the last one: with k > 0 the first call shows nothing."
  },
  {
   "property": "C62",
   "status": "partial",
   "theorems": [
    "Anm.C62_modes",
    "Anm.C62_close_partial",
    "Anm.C62_counterexample_render",
    "Anm.C62_counterexample_reset"
   ],
   "note": "close never raises and sets render_mode to None, reset keeps the mode when it succeeds, and close terminates the servers if every call succeeded. Servers leak after a render that raised or a reset that raised."
  },
  {
   "property": "C63",
   "status": "partial",
   "theorems": [
    "Anm.C63_action_partial",
    "Anm.C63_counterexample",
    "Anm.C63_no_solution"
   ],
   "note": "False if the solver returns NaN (the action contains NaN and step rejects it) or no solution (act raises TypeError). Proved for every other solver output."
  },
  {
   "property": "C64",
   "status": "proved",
   "theorems": [
    "Anm.C64_setpoints"
   ],
   "note": ""
  },
  {
   "property": "C65",
   "status": "proved",
   "theorems": [
    "Anm.C65_perfect_forecast"
   ],
   "note": ""
  },
  {
   "property": "C66",
   "status": "proved",
   "theorems": [
    "Anm.C66_constant_forecast"
   ],
   "note": ""
  },
  {
   "property": "C67",
   "status": "proved",
   "theorems": [
    "Anm.C67_balance"
   ],
   "note": ""
  },
  {
   "property": "C68",
   "status": "proved",
   "theorems": [
    "Anm.C68_no_overdischarge",
    "Anm.C68_present"
   ],
   "note": "For positive finite efficiency and a finite initial state of charge."
  },
  {
   "property": "C69",
   "status": "partial",
   "theorems": [
    "Anm.C69_reference_partial",
    "Anm.C69_fixed",
    "Anm.C69_index_error",
    "Anm.C69_counterexample",
    "Anm.C69_counterexample_index"
   ],
   "note": "False: the angle at the position of the slack device is fixed, which may be another bus, or no bus (then act always raises IndexError). Proved when slack device and slack bus have the same position."
  },
  {
   "property": "C70",
   "status": "proved",
   "theorems": [
    "Anm.C70_table",
    "Anm.C70_received",
    "Anm.C70_left",
    "Anm.C70_early_viewer"
   ],
   "note": "Callbacks run one after the other. A viewer that connects before the configuration never gets it (C70_early_viewer)."
  },
  {
   "property": "C71",
   "status": "proved",
   "theorems": [
    "Anm.C71_pi_model",
    "Anm.C71_reported"
   ],
   "note": ""
  },
  {
   "property": "C72",
   "status": "proved",
   "theorems": [
    "Anm.C72_transition_total"
   ],
   "note": ""
  },
  {
   "property": "C73",
   "status": "proved",
   "theorems": [
    "Anm.C73_idle"
   ],
   "note": ""
  },
  {
   "property": "C74",
   "status": "proved",
   "theorems": [
    "Anm.C74_reset_erases",
    "Anm.C74_replay"
   ],
   "note": ""
  },
  {
   "property": "C75",
   "status": "proved",
   "theorems": [
    "Anm.C75_float64_callable"
   ],
   "note": ""
  },
  {
   "property": "C76",
   "status": "proved",
   "theorems": [
    "Anm.C76_next_vars"
   ],
   "note": ""
  },
  {
   "property": "C77",
   "status": "proved",
   "theorems": [
    "Anm.C77_time_of_day",
    "Anm.C77_rounding"
   ],
   "note": ""
  },
  {
   "property": "C78",
   "status": "proved",
   "theorems": [
    "Anm.C78_dc_flow"
   ],
   "note": ""
  },
  {
   "property": "C79",
   "status": "proved",
   "theorems": [
    "Anm.C79_load",
    "Anm.C79_generator",
    "Anm.C79_storage",
    "Anm.C79_soc",
    "Anm.C79_angles"
   ],
   "note": ""
  },
  {
   "property": "C80",
   "status": "proved",
   "theorems": [
    "Anm.C80_objective"
   ],
   "note": ""
  },
  {
   "property": "C81",
   "status": "proved",
   "theorems": [
    "Anm.C81_feasible_iff"
   ],
   "note": ""
  },
  {
   "property": "C82",
   "status": "proved",
   "theorems": [
    "Anm.C82_step_total",
    "Anm.C82_reset_total",
    "Anm.C82_reset_soc"
   ],
   "note": "For a projection solver that is exact and a load flow that raises no exception (realPF_total)."
  },
  {
   "property": "C83",
   "status": "proved",
   "theorems": [
    "Anm.C83_made",
    "Anm.C83_spaces",
    "Anm.C83_parameters",
    "Anm.C83_step",
    "Anm.C83_reset",
    "Anm.C83_episode",
    "Anm.C83_solvers"
   ],
   "note": "The solver contracts are met by the modelled load flow, whatever spsolve returns, with an exact projection (C83_solvers)."
  },
  {
   "property": "C84",
   "status": "proved",
   "theorems": [
    "Anm.C84_date",
    "Anm.C84_frame",
    "Anm.C84_state",
    "Anm.C84_costs_step",
    "Anm.C84_costs_reset",
    "Anm.C84_clock",
    "Anm.C84_frame_easy"
   ],
   "note": ""
  },
  {
   "property": "C85",
   "status": "partial",
   "theorems": [
    "Anm.C85_init",
    "Anm.C85_shown_partial",
    "Anm.C85_solver",
    "Anm.C85_blank",
    "Anm.C85_collapse_lost"
   ],
   "note": "Proved for states that are not terminal. False otherwise: a collapse with NaN results is never shown (C85_collapse_lost), and an ANM6 environment without costs_clipping sends Infinity, so that nothing is ever shown (C85_blank). The load flow is assumed to give numbers when it converges, which holds for the modelled one (C85_solver)."
  },
  {
   "property": "C86",
   "status": "proved",
   "theorems": [
    "Anm.C86_crosses",
    "Anm.C86_limits",
    "Anm.C86_penalty"
   ],
   "note": "For load flows that give numbers when they converge (C85_solver)."
  },
  {
   "property": "C87",
   "status": "proved",
   "theorems": [
    "Anm.C87_in_frame",
    "Anm.C87_scale",
    "Anm.C87_arrows",
    "Anm.C87_lines",
    "Anm.C87_labels",
    "Anm.C87_direction"
   ],
   "note": "For load flows that give numbers when they converge (C85_solver). The bar of the slack generator is cut off at its frame."
  },
  {
   "property": "C88",
   "status": "proved",
   "theorems": [
    "Anm.C88_agent",
    "Anm.C88_feasible",
    "Anm.C88_act",
    "Anm.C88_run"
   ],
   "note": "Assumes solvers as in C83, and a solver of the planning problem that finds a feasible plan if there is one; its solutions are taken to be exact."
  },
  {
   "property": "C89",
   "status": "proved",
   "theorems": [
    "Anm.C89_generator",
    "Anm.C89_storage"
   ],
   "note": "For a solver of the projection that returns feasible requests unchanged, in particular an exact one (qpExact_keeps)."
  },
  {
   "property": "C90",
   "status": "proved",
   "theorems": [
    "Anm.C90_applied"
   ],
   "note": "Assumptions as in C88."
  },
  {
   "property": "C91",
   "status": "proved",
   "theorems": [
    "Anm.C91_transition",
    "Anm.C91_run",
    "Anm.C91_return",
    "Anm.C91_sharp",
    "Anm.C91_clipped_counterexample"
   ],
   "note": "For storage units with finite capacity and a slack bus with no other device; the load flow is the modelled one. C91_sharp: an episode that attains the bound. C91_clipped_counterexample: with costs_clipping the claim would be false."
  },
  {
   "property": "C92",
   "status": "partial",
   "theorems": [
    "Anm.C92_collapse_partial",
    "Anm.C92_later_partial",
    "Anm.C92_counterexample"
   ],
   "note": "Proved for episodes whose rewards are at least -c2 (c2: the clipping value of the penalty); otherwise a collapse can be better by at most c1 * (1 - gamma^n) / (1 - gamma). False in general, since the terminal reward leaves out the clipping value c1 of the energy loss (C92_counterexample)."
  },
  {
   "property": "C93",
   "status": "proved",
   "theorems": [
    "Anm.C93_weights",
    "Anm.C93_calls",
    "Anm.C93_gamma_one"
   ],
   "note": "C93_gamma_one: the excepted value of gamma really behaves differently."
  },
  {
   "property": "C94",
   "status": "proved",
   "theorems": [
    "Anm.C94_generator",
    "Anm.C94_monotone",
    "Anm.C94_storage"
   ],
   "note": "For an exact solver of the projection (exists over the reals: C16_exact_solver_exists)."
  },
  {
   "property": "C95",
   "status": "proved",
   "theorems": [
    "Anm.C95_island",
    "Anm.C95_devices",
    "Anm.C95_dead_island",
    "Anm.C95_split"
   ],
   "note": "Buses numbered 0..m with slack bus 0, as in C25. C95_split is an accepted network that collapses at any demand."
  },
  {
   "property": "C96",
   "status": "proved",
   "theorems": [
    "Anm.C96_reset_recovers",
    "Anm.C96_reset_seeded",
    "Anm.C96_episodes",
    "Anm.outcome_step",
    "Anm.outcome_reset"
   ],
   "note": "Model/Failures.lean describes the methods as sequences of in-place changes; outcome_step and outcome_reset prove that calls that return do what Model/Env.lean says."
  },
  {
   "property": "C97",
   "status": "partial",
   "theorems": [
    "Anm.C97_rejected_partial",
    "Anm.C97_next_vars_partial",
    "Anm.C97_hook_raises_partial",
    "Anm.C97_time_partial",
    "Anm.C97_half_step",
    "Anm.C97_zero_division",
    "Anm.C97_revived"
   ],
   "note": "False as stated: an observation that is rejected leaves the storage charged but the clock unchanged (C97_half_step); a collapse with gamma = 1 ends the episode while raising (C97_zero_division); a reset that raises revives a terminal environment (C97_revived). Proved: rejected actions and steps before the first reset change nothing; next_vars of a wrong size or an exception of next_vars changes the generator only; a raising step never advances the time and never ends the episode but in the gamma = 1 case."
  },
  {
   "property": "C98",
   "status": "proved",
   "theorems": [
    "Anm.C98_step",
    "Anm.C98_return"
   ],
   "note": "For load flows that give numbers when they converge (C85_solver) and solvers as in C83."
  },
  {
   "property": "C99",
   "status": "partial",
   "theorems": [
    "Anm.C99_file",
    "Anm.C99_rearranged_partial",
    "Anm.C99_converged",
    "Anm.C99_reset",
    "Anm.C99_runs_partial",
    "Anm.C99_counterexample"
   ],
   "note": "The penalty, and so the reward, is false as claimed: it takes the sign of the active power at the beginning of a line, so an overloaded line without active power at that end is not penalised. Everything else is proved for converging load flows; penalty and reward if active power enters or leaves each line at both ends."
  }
 ]
}
