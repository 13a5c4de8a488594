c("C01", "proved", ["Anm.C01_checkNetwork_iff"], "for networks whose topology cells (IDs, types, end points) are not NaN")
c("C02", "proved", ["Anm.C02_error_class", "Anm.C02_error_classes_any"])
c("C03", "proved", ["Anm.C03_load"], "rows without NaN")
c("C04", "partial", ["Anm.C04_load_pmax_partial", "Anm.C04_counterexample", "Anm.C04_counterexample_rejected"], "the claim is false: PMAX of a load is not divided by baseMVA; proved when PMAX is None or 0 or baseMVA = 1")
c("C05", "proved", ["Anm.C05_generator"])
c("C06", "proved", ["Anm.C06_storage"])
c("C07", "proved", ["Anm.C07_branch", "Anm.C07_series_admittance"])
c("C08", "partial", ["Anm.C08_device_ids_partial", "Anm.C08_branch_ids_partial", "Anm.C08_bus_ids_partial", "Anm.C08_counterexample_gen", "Anm.C08_counterexample_storage", "Anm.C08_counterexample_load", "Anm.C08_counterexample_branch", "Anm.C08_counterexample_bus"], "the claim is false for limit columns; proved for ID/type columns")

c("C09", "proved", ["Anm.C09_row_order"], "for files whose IDs are integers; C09_counterexample_fractional shows that fractional IDs break it")
c("C10", "partial", ["Anm.C10_nothing_dropped_partial", "Anm.C10_sizes_partial", "Anm.C10_counterexample"], "false for fractional IDs, which are truncated and merged; proved for integer IDs")
c("C11", "proved", ["Anm.C11_counters"])
c("C12", "proved", ["Anm.C12_gen_region"])
c("C13", "proved", ["Anm.C13_storage_region"])
c("C14", "partial", ["Anm.C14_gen_feasible_partial", "Anm.C14_gen_feasible_box_partial", "Anm.C14_counterexample"], "false for some accepted generators; exact conditions under which it holds are in the theorem hypotheses")
c("C15", "partial", ["Anm.C15_storage_feasible_partial", "Anm.C15_counterexample"], "false for EFF = 0 and for asymmetric limits; proved otherwise")
c("C16", "proved", ["Anm.C16_unique", "Anm.C16_nonexpansive", "Anm.C16_feasible_fixed", "Anm.C16_idempotent", "Anm.C16_solver_independent", "Anm.C16_generator", "Anm.C16_storage", "Anm.C16_exact_solver_exists"])
c("C41", "proved", ["Anm.C41_bus_limits"])
c("C17", "proved", ["Anm.C17_gen_limits", "Anm.C17_potential"], "for every solver that satisfies the constraints up to a tolerance")
c("C18", "proved", ["Anm.C18_load_clip", "Anm.C18_load_saturates"])
c("C19", "proved", ["Anm.C19_soc_invariant"])
c("C20", "partial", ["Anm.C20_reset_soc_partial", "Anm.C20_overfull_stuck", "Anm.C20_counterexample"], "false: reset does not clip the requested state of charge; exact characterisation proved")
c("C21", "proved", ["Anm.C21_soc_accounting", "Anm.C21_soc_accounting_tol"])
c("C22", "proved", ["Anm.C22_no_free_energy", "Anm.C22_round_trip"])
c("C23", "partial", ["Anm.C23_round_trip_efficiency_partial", "Anm.C23_counterexample"], "false: the column is applied in both directions, the round trip returns EFF^2")
c("C24", "proved", ["Anm.C24_reset_injection"])
c("C25", "proved", ["Anm.C25_converged", "Anm.C25_reset_converged"], "finite line parameters, no NaN cells")
c("C26", "proved", ["Anm.C26_loop_terminates", "Anm.C26_failure", "Anm.C26_failure_nonfinite"])
c("C27", "partial", ["Anm.C27_jacobian_partial", "Anm.C27_counterexample"], "proved for positive magnitudes; false for negative ones")
c("C28", "partial", ["Anm.C28_slack_voltage_partial", "Anm.C28_counterexample"], "proved when the slack bus has ID 0; false otherwise")
c("C29", "proved", ["Anm.C29_kirchhoff", "Anm.C29_reported"])
c("C30", "proved", ["Anm.C30_branch_losses", "Anm.C30_reported"])
c("C31", "proved", ["Anm.C31_total_losses", "Anm.C31_reported"])
c("C34", "partial", ["Anm.C34_apparent_power_partial", "Anm.C34_zero", "Anm.C34_counterexample"], "false when p_from = 0: 0 is reported whatever the reactive flow")
c("C35", "partial", ["Anm.C35_current_magnitude_partial", "Anm.C35_counterexample"], "false with numpy 2: the real part of the current is reported")
c("C32", "proved", ["Anm.C32_energy_loss"], "finite line parameters, no NaN cells, renewables with a finite potential")
c("C33", "partial", ["Anm.C33_bus_sum_partial", "Anm.C33_slack_excess", "Anm.C33_counterexample"], "proved for all buses but the slack bus, and for a slack bus that carries only the slack device; false when other devices share the slack bus")
c("C36", "partial", ["Anm.C36_reset_total_partial", "Anm.C36_counterexample_gap", "Anm.C36_counterexample_single", "Anm.C36_counterexample_vmin", "Anm.C36_counterexample_eff"], "false as stated, four counterexamples; proved for workable networks")
c("C71", "proved", ["Anm.C71_pi_model", "Anm.C71_reported"])
c("C72", "proved", ["Anm.C72_transition_total"])
c("C73", "proved", ["Anm.C73_idle"])
c("C37", "proved", ["Anm.C37_penalty", "Anm.C37_no_weight", "Anm.C37_converged"])
c("C38", "proved", ["Anm.C38_units"])
c("C39", "partial", ["Anm.C39_bounds_partial", "Anm.C39_gen_p_max", "Anm.C39_counterexample"], "false for gen_p_max: its MW upper bound is computed from q_max; proved for every other quantity")
c("C40", "partial", ["Anm.C40_bounds_partial", "Anm.C40_slack_voltage", "Anm.C40_counterexample_gen_p_max", "Anm.C40_counterexample_ratio", "Anm.C40_counterexample_slack_voltage"], "false for gen_p_max in MW, for loads with a negative Q/P ratio and for the slack bus voltage; proved for all else")
c("C42", "proved", ["Anm.C42_memoryless"])
c("C74", "proved", ["Anm.C74_reset_erases", "Anm.C74_replay"])
c("C43", "partial", ["Anm.C43_accepts_partial", "Anm.C43_refused", "Anm.C43_counterexample_nan", "Anm.C43_counterexample_aux", "Anm.C43_counterexample_unit"], "false: NaN numbers, negative or non-list auxiliary indices and three strings that are no unit are accepted; proved for all else")
c("C44", "partial", ["Anm.C44_observable_partial", "Anm.C44_counterexample_default_unit", "Anm.C44_counterexample_aux"], "false for branch_i_magn without unit (KeyError) and negative auxiliary indices; proved for all else")
c("C45", "proved", ["Anm.C45_actions"])
c("C46", "proved", ["Anm.C46_absorbing", "Anm.C46_terminal_step", "Anm.C46_flag", "Anm.C46_until_reset", "Anm.C46_reset"])
c("C47", "proved", ["Anm.C47_reward", "Anm.C47_terminating", "Anm.C47_made", "Anm.C47_unclipped", "Anm.C47_terminating_made"])
c("C48", "partial", ["Anm.C48_collapse_partial", "Anm.C48_gamma_one", "Anm.C48_counterexample"], "false for gamma = 1 (ZeroDivisionError); proved for every other value")
c("C49", "proved", ["Anm.C49_state_layout"])
c("C50", "proved", ["Anm.C50_aux_flow"])
c("C51", "partial", ["Anm.C51_in_space_partial", "Anm.C51_assertion", "Anm.C51_counterexample_terminal"], "false for the zero observation of a terminating step; proved for all other steps and for reset")
c("C52", "proved", ["Anm.C52_init_size", "Anm.C52_next_size"], "hooks and power flow do not raise these exceptions themselves")
c("C53", "partial", ["Anm.C53_search_partial", "Anm.C53_hundredth", "Anm.C53_reset", "Anm.C53_counterexample"], "false: the hundredth attempt raises AttributeError whether or not it converges; proved for the first 99")
c("C54", "proved", ["Anm.C54_reset_erases", "Anm.C54_replay", "Anm.C54_made"])
c("C55", "proved", ["Anm.C55_timestep", "Anm.C55_one_step"])
c("C75", "proved", ["Anm.C75_float64_callable"])
c("C76", "proved", ["Anm.C76_next_vars"])
c("C57","partial",["Anm.C57_series_partial","Anm.C57_counterexample"],"The series have 96 entries and loads stay within limits; the transitions that are linear are identified. False as stated: the morning/evening photovoltaic transition climbs to 36.75 MW, above PMAX = 30 MW, and does not interpolate; one wind transition starts at 14.725 instead of 14.625 MW.")
c("C60","proved",["Anm.C60_random_date","Anm.C60_excluded"],"For every generator honouring the contract of integers(); C60_excluded shows that 1 January (and 31 December of leap years) is never drawn.")
c("C61","partial",["Anm.C61_skip_frames_partial","Anm.C61_times","Anm.C61_counterexample"],"Exactly one call out of every k+1 refreshes, but it is the last one: with k > 0 the first call shows nothing.")
c("C62","partial",["Anm.C62_modes","Anm.C62_close_partial","Anm.C62_counterexample_render","Anm.C62_counterexample_reset"],"close never raises and sets render_mode to None, reset keeps the mode when it succeeds, and close terminates the servers if every call succeeded. Servers leak after a render that raised or a reset that raised.")
c("C56","proved",["Anm.C56_clock","Anm.C56_period"],"For every generator that draws from the requested interval.")
c("C58","partial",["Anm.C58_initial_state_partial","Anm.C58_counterexample"],"False: the values are drawn between per-unit limits but used as MVAr and MWh, so the 100 MWh battery never starts with more than 1 MWh. Proved that the initial state is within the limits and follows the time series.")
c("C59","proved",["Anm.C59_calendar","Anm.C59_calendar_easy","Anm.C59_years"])
c("C77","proved",["Anm.C77_time_of_day","Anm.C77_rounding"])
c("C63","partial",["Anm.C63_action_partial","Anm.C63_counterexample","Anm.C63_no_solution"],"False if the solver returns NaN (the action contains NaN and step rejects it) or no solution (act raises TypeError). Proved for every other solver output.")
c("C64","proved",["Anm.C64_setpoints"])
c("C65","proved",["Anm.C65_perfect_forecast"])
c("C66","proved",["Anm.C66_constant_forecast"])
c("C67","proved",["Anm.C67_balance"])
c("C68","proved",["Anm.C68_no_overdischarge", "Anm.C68_present"],"For positive finite efficiency and a finite initial state of charge.")
c("C69","partial",["Anm.C69_reference_partial","Anm.C69_fixed","Anm.C69_index_error","Anm.C69_counterexample","Anm.C69_counterexample_index"],"False: the angle at the position of the slack device is fixed, which may be another bus, or no bus (then act always raises IndexError). Proved when slack device and slack bus have the same position.")
c("C78","proved",["Anm.C78_dc_flow"])
c("C79","proved",["Anm.C79_load","Anm.C79_generator","Anm.C79_storage","Anm.C79_soc","Anm.C79_angles"])
c("C70","proved",["Anm.C70_table","Anm.C70_received","Anm.C70_left","Anm.C70_early_viewer"],"Callbacks run one after the other. A viewer that connects before the configuration never gets it (C70_early_viewer).")
c("C80","proved",["Anm.C80_objective"])
c("C81","proved",["Anm.C81_feasible_iff"])
c("C82","proved",["Anm.C82_step_total","Anm.C82_reset_total","Anm.C82_reset_soc"],"For a projection solver that is exact and a load flow that raises no exception (realPF_total).")
c("C83","proved",["Anm.C83_made","Anm.C83_spaces","Anm.C83_parameters","Anm.C83_step","Anm.C83_reset","Anm.C83_episode","Anm.C83_solvers"],"The solver contracts are met by the modelled load flow, whatever spsolve returns, with an exact projection (C83_solvers).")
c("C84","proved",["Anm.C84_date","Anm.C84_frame","Anm.C84_state","Anm.C84_costs_step","Anm.C84_costs_reset","Anm.C84_clock","Anm.C84_frame_easy"])
c("C85","partial",["Anm.C85_init","Anm.C85_shown_partial","Anm.C85_solver","Anm.C85_blank","Anm.C85_collapse_lost"],"Proved for states that are not terminal. False otherwise: a collapse with NaN results is never shown (C85_collapse_lost), and an ANM6 environment without costs_clipping sends Infinity, so that nothing is ever shown (C85_blank). The load flow is assumed to give numbers when it converges, which holds for the modelled one (C85_solver).")
c("C86","proved",["Anm.C86_crosses","Anm.C86_limits","Anm.C86_penalty"],"For load flows that give numbers when they converge (C85_solver).")
c("C87","proved",["Anm.C87_in_frame","Anm.C87_scale","Anm.C87_arrows","Anm.C87_lines","Anm.C87_labels","Anm.C87_direction"],"For load flows that give numbers when they converge (C85_solver). The bar of the slack generator is cut off at its frame.")
c("C88","proved",["Anm.C88_agent","Anm.C88_feasible","Anm.C88_act","Anm.C88_run"],"Assumes solvers as in C83, and a solver of the planning problem that finds a feasible plan if there is one; its solutions are taken to be exact.")
c("C89","proved",["Anm.C89_generator","Anm.C89_storage"],"For a solver of the projection that returns feasible requests unchanged, in particular an exact one (qpExact_keeps).")
c("C90","proved",["Anm.C90_applied"],"Assumptions as in C88.")
c("C91","proved",["Anm.C91_transition","Anm.C91_run","Anm.C91_return","Anm.C91_sharp","Anm.C91_clipped_counterexample"],"For storage units with finite capacity and a slack bus with no other device; the load flow is the modelled one. C91_sharp: an episode that attains the bound. C91_clipped_counterexample: with costs_clipping the claim would be false.")
c("C92","partial",["Anm.C92_collapse_partial","Anm.C92_later_partial","Anm.C92_counterexample"],"Proved for episodes whose rewards are at least -c2 (c2: the clipping value of the penalty); otherwise a collapse can be better by at most c1 * (1 - gamma^n) / (1 - gamma). False in general, since the terminal reward leaves out the clipping value c1 of the energy loss (C92_counterexample).")
c("C93","proved",["Anm.C93_weights","Anm.C93_calls","Anm.C93_gamma_one"],"C93_gamma_one: the excepted value of gamma really behaves differently.")
c("C94","proved",["Anm.C94_generator", "Anm.C94_monotone", "Anm.C94_storage"],"For an exact solver of the projection (exists over the reals: C16_exact_solver_exists).")
c("C95","proved",["Anm.C95_island", "Anm.C95_devices", "Anm.C95_dead_island", "Anm.C95_split"],"Buses numbered 0..m with slack bus 0, as in C25. C95_split is an accepted network that collapses at any demand.")
c("C96","proved",["Anm.C96_reset_recovers", "Anm.C96_reset_seeded", "Anm.C96_episodes", "Anm.outcome_step", "Anm.outcome_reset"],"Model/Failures.lean describes the methods as sequences of in-place changes; outcome_step and outcome_reset prove that calls that return do what Model/Env.lean says.")
c("C97","partial",["Anm.C97_rejected_partial", "Anm.C97_next_vars_partial", "Anm.C97_hook_raises_partial", "Anm.C97_time_partial", "Anm.C97_half_step", "Anm.C97_zero_division", "Anm.C97_revived"],"False as stated: an observation that is rejected leaves the storage charged but the clock unchanged (C97_half_step); a collapse with gamma = 1 ends the episode while raising (C97_zero_division); a reset that raises revives a terminal environment (C97_revived). Proved: rejected actions and steps before the first reset change nothing; next_vars of a wrong size or an exception of next_vars changes the generator only; a raising step never advances the time and never ends the episode but in the gamma = 1 case.")
c("C98","proved",["Anm.C98_step", "Anm.C98_return"],"For load flows that give numbers when they converge (C85_solver) and solvers as in C83.")
c("C99","partial",["Anm.C99_file", "Anm.C99_rearranged_partial", "Anm.C99_converged", "Anm.C99_reset", "Anm.C99_runs_partial", "Anm.C99_counterexample"],"The penalty, and so the reward, is false as claimed: it takes the sign of the active power at the beginning of a line, so an overloaded line without active power at that end is not penalised. Everything else is proved for converging load flows; penalty and reward if active power enters or leaves each line at both ends.")
c("C100","proved",["Anm.C100_simple_made", "Anm.C100_simple_spaces", "Anm.C100_simple_reset", "Anm.C100_simple_step", "Anm.C100_simple_episode", "Anm.C100_custom_made", "Anm.C100_custom_spaces", "Anm.C100_custom_reset", "Anm.C100_custom_step", "Anm.C100_custom_episode", "Anm.C100_simple_solvers", "Anm.C100_simple_case", "Anm.C100_custom_case"],"the random initial state of the six-bus example keeps the state of charge within its limits and its clock is an integer, so C82 applies")
c("C101","partial",["Anm.C101_reset_partial", "Anm.C101_step_partial", "Anm.C101_counterexample"],"False for observations: aux_bounds is [[0, 10]], and observations are clipped to the space, so the observed time stays at 10 (02:30) for the rest of the day. Proved for the state, and that the observation shows min(t, 10).")
c("C102","proved",["Anm.C102_vars_in_state"],"files whose IDs are integers and whose base power is a number")
c("C103","partial",["Anm.C103_step_partial", "Anm.C103_draws", "Anm.C103_counterexample"],"False: the vector lists the values by device ID instead of loads first, so in every step the industrial complex consumes nothing and the wind farm can produce nothing. Proved: the values are within the documented limits.")
c("C104","proved",["Anm.C104_step", "Anm.C104_episode"],"A callable observation must return vectors of one length (as in C54).")
c("C105","proved",["Anm.C105_step", "Anm.C105_easy"],"")
c("C106","proved",["Anm.C106_leaf", "Anm.C106_rating", "Anm.C106_draw", "Anm.C106_inject"],"A bus at the first end of a branch that is idle there escapes the rating (C35); `C106_rating` excludes this case, `C106_draw` and `C106_inject` show that it cannot occur.")
c("C107","proved",["Anm.C107_ends", "Anm.C107_night", "Anm.C107_vehicles", "Anm.C107_noon", "Anm.C107_step_energy", "Anm.C107_energy", "Anm.C107_reserve"],"")
c("C108","proved",["Anm.C108_load", "Anm.C108_generator", "Anm.C108_storage", "Anm.C108_easy", "Anm.C108_vector", "Anm.C108_times", "Anm.C108_counterexample"],"`C108_counterexample` shows what happens at the four times; the exact projection is assumed (C16).")
c("C109","proved",["Anm.C109_applied"],"")
c("C110","proved",["Anm.play_step", "Anm.plan_step", "Anm.C110_playable"],"The behaviour of SciPy's solver is not modelled; the theorem is about a solver that finds the solutions within the limits. The claim shows that the limits of C107 and C111 do not make the task impossible as such.")
c("C111","proved",["Anm.C111_doomed"],"A consequence of the unit error in init_state() (C58).")
c("C112","proved",["Anm.C112_draw", "Anm.C112_inject", "Anm.C112_step", "Anm.C112_return", "Anm.C112_day", "Anm.C112_agents"],"Line losses are bounded below by 0, so the bound is not the optimum.")
c("C113","proved",["Anm.good_game", "Anm.C113_play"],"The linear solver steps to a solution of the load flow within the limits, if there is one; every such solution gives these rewards.")
c("C114","proved",["Anm.C114_newton"],"Linear systems solved exactly; derivatives over the reals.")
c("C115","proved",["Anm.C115_converges"],"Linear systems solved exactly. The ranges contain all operating points within the ratings of the lines to the buses 3, 4 and 5 (18 MVA).")
c("C116","proved",["Anm.C116_draw", "Anm.C116_reset"],"Linear systems solved exactly.")
c("C117","proved",["Anm.C117_finds", "Anm.steers_exact"],"Linear systems solved exactly.")
c("C118","proved",["Anm.C118_playable", "Anm.C118_doomed", "Anm.plan_run"],"Linear systems solved exactly for the positive part. Between 0.208 and 0.24 MWh at 11:15 am and 9:15 pm the question is open.")
c("C119","proved",["Anm.C119_good", "Anm.good_game"],"Linear systems solved exactly.")
c("C120","partial",["Anm.C120_bus", "Anm.C120_line", "Anm.C120_generator", "Anm.C120_storage", "Anm.C120_load_partial", "Anm.C120_counterexample_load"],"proved for buses, lines, generators and storage units; false for loads (PMAX is not converted to per-unit), proved for loads with PMAX zero or missing")
c("C121","partial",["Anm.C121_accepted_partial", "Anm.C121_counterexample"],"false for loads with PMAX < 0 (counterexample); proved for all files whose loads have PMAX zero or missing")
c("C122","proved",["Anm.C122_slack_power"],"")
c("C123","partial",["Anm.C123_reset", "Anm.C123_step", "Anm.C123_kept_partial", "Anm.C123_library", "Anm.C123_counterexample"],"False for a subclass whose method observation returns the state vector it is given: step writes the auxiliary variables into self.state before it makes a new vector, and thereby into the observation returned before (C123_counterexample). Proved: reset writes into no array, step into no array but self.state; observations of environments made with observation='state' or a list (C123_library) and of observation functions that make new arrays (C123_kept_partial) never change, provided init_state makes a new array.")
c("C124","partial",["Anm.C124_values_partial", "Anm.C124_writes_partial", "Anm.C124_counterexample"],"False for a subclass whose method observation returns the state vector it is given: the agent then writes into self.state (C124_counterexample). Proved for init_state and observation functions that make new arrays, in particular for the observations of the library: the answers are those computed with values (C124_values_partial), whatever the agent writes (C124_writes_partial).")
c("C125","proved",["Anm.C125_generator", "Anm.C125_storage", "Anm.C125_easy", "Anm.C125_penalty"],"The solar farm is cut at its rated 30 MW, which the tables never exceed in the scenarios; the penalty requires a converged load flow only.")
c("C126","proved",["Anm.C126_penalty", "Anm.C126_carries", "Anm.C126_step", "Anm.C126_year"],"The overloads counted are those of the branches to the loads and generators, from their active powers only; C111 and C118 give the returns that can be reached instead.")
c("C127","proved",["Anm.C127_no_solution", "Anm.C127_collapse", "Anm.C127_step"],"C127_no_solution is about every demand of at least 30, 50 and 50 Mvar at the buses 3, 4 and 5, without active injections.")
c("C128","proved",["Anm.C128_run"],"The energies in between are on the straight line from the first to the last (region_later).")
c("C129","proved",["Anm.C129_step", "Anm.C129_run"],"")
c("C130","proved",["Anm.C130_generator", "Anm.C130_storage"],"")
c("C131","partial",["Anm.C131_counterexample", "Anm.C131_error", "Anm.C131_fixed_partial"],"False: the constructor always raises an exception, and UnitsNotSupportedError if the other arguments are fine. With 'MVAr' as second unit the arguments are accepted.")
c("C132","proved",["Anm.C132_level", "Anm.C132_direction", "Anm.C132_run", "Anm.C132_limits", "Anm.C132_penalty", "Anm.C132_no_violation", "Anm.C132_reward", "Anm.C132_solve_id", "Anm.C132_reward_id", "Anm.C132_clip_id", "Anm.C132_energy_counterexample"],"Model/Rounding.lean repeats the step with an arbitrary rounding after every operation; with the identity as rounding it is the model (C132_*_id). The exact balance of energy is not claimed: C132_energy_counterexample shows a rounding that breaks it.")
c("C133","partial",["Anm.C133_construct_partial", "Anm.C133_accepted_partial", "Anm.C133_reset_partial", "Anm.C133_transition_partial", "Anm.C133_run_partial", "Anm.C133_readings", "Anm.C133_action_space", "Anm.C133_projection", "Anm.C133_newton", "Anm.C133_load_flow", "Anm.C133_oracle", "Anm.C133_real_partial", "Anm.C133_accepted_counterexample", "Anm.C133_load_counterexample", "Anm.C133_reward_counterexample", "Anm.C133_tolerance_counterexample"],"False as stated, in three ways, each with a counterexample: PMAX of a load is not converted (accepted_, load_counterexample), the tolerance of the load flow is in per-unit (tolerance_counterexample), and voltage violations do not scale with the other costs (reward_counterexample). Proved for networks without PMAX of loads, with a converted tolerance; rewards for steps without voltage violations. The voltages visited by Newton's method never depend on the base power (C133_newton).")
c("C134","proved",["Anm.C134_construct", "Anm.C134_transition", "Anm.C134_raises", "Anm.C134_run", "Anm.C134_reset", "Anm.C134_order", "Anm.C134_action_space", "Anm.C134_env_make", "Anm.C134_env_reset", "Anm.C134_env_step", "Anm.C134_episode"],"The IDs of buses are not covered (they index the admittance matrix). The IDs of the file are integers (C10 says what happens otherwise).")
c("C135","proved",["Anm.C135_generator_p", "Anm.C135_generator_q", "Anm.C135_storage_p", "Anm.C135_storage_q", "Anm.C135_step", "Anm.C135_run"],"Exact projections (QPExact), as for C129 and C130.")
c("C136","proved",["Anm.C136_step", "Anm.C136_run"],"The power of the slack device balances the network and is excluded. Both runs succeed (the arguments of another device may make a time step raise).")
c("C137","proved",["Anm.C137_feasible", "Anm.C137_horizon", "Anm.C137_potential", "Anm.C137_potential_cost", "Anm.C137_margin"],"")
c("C138","proved",["Anm.C138_feasible", "Anm.C138_cost", "Anm.C138_no_local"],"That CVXPY recognises the problem as convex (its grammar rules) is not modelled.")
c("C139","proved",["Anm.C139_totals", "Anm.C139_slack_bus", "Anm.C139_split_step", "Anm.C139_split", "Anm.C139_slack_demand_pays"],"C139_slack_demand_pays: a demand at the slack bus changes nothing in the grid, not even the power drawn from the slack, but the reported energy loss decreases by it (the energy is counted but comes from nowhere).")
c("C140","partial",["Anm.C140_own_partial", "Anm.C140_simple_ignored", "Anm.C140_custom_ignored", "Anm.C140_counterexample"],"False for the examples: they draw from numpy's global generator, so the seed given to reset (or to the constructor) has no effect on anything observable (C140_simple_ignored, C140_custom_ignored, for all seeds, states and actions), and two resets with one seed give two observations (C140_counterexample). C140_own_partial: true for hooks that draw from the generator of the environment only.")
c("C141","proved",["Anm.C141_optimal", "Anm.C141_easy"],"")
c("C142","proved",["Anm.C142_transition", "Anm.C142_session", "Anm.C142_files", "Anm.C142_env", "Anm.C142_realPF"],"Rewards are compared up to NaN. The upper limit of the slack bus is kept, because it is reported as its voltage; whether VMIN is given at all is kept too.")
c("C143","proved",["Anm.C143_branch", "Anm.C143_total", "Anm.C143_lossless"],"The current in the series impedance is the charging current of the receiving end minus the current reported there.")
c("C144","proved",["Anm.C144_construct", "Anm.C144_transition", "Anm.C144_reset", "Anm.C144_runs", "Anm.C144_converged"],"The slack bus has number 0 in both files, as the load flow requires (finding on bus numbers). The linear solver is an oracle that commutes with exchanging unknowns and equations; multiplying with the inverse matrix is one. C144_converged: whether the load flow converges does not depend on the numbering either.")
c("C145","proved",["Anm.C145_files", "Anm.C145_transition", "Anm.C145_reset", "Anm.C145_env", "Anm.C145_session"],"A consequence users must know: the line parameters r, x, b of the file are in per unit and are not converted, so changing the voltage level of a network by BASE_KV alone changes nothing but the kV and kA values shown.")
c("C146","proved",["Anm.C146_region", "Anm.C146_collapse", "Anm.C146_step", "Anm.C146_attained", "Anm.C146_thin"],"The limit of a single line is the best possible (C146_attained). C146_thin is a network with a demand beyond the limit.")
c("C147","proved",["Anm.C147_line", "Anm.C147_feeder", "Anm.C147_ohm"],"C147_ohm is a converged transition with a demand of 1/4 p.u. whose voltage is 1/2; its demand is exactly the limit of C146.")
c("C148","partial",["Anm.C148_energy_partial", "Anm.C148_penalty", "Anm.C148_counterexample"],"False for the unit of the energy loss: it is in p.u., to be multiplied by the base power (C148_energy_partial); C148_counterexample loses 3.75 MWh and reports 0.0375. Penalty and reward are proved as stated.")
c("C149","proved",["Anm.C149_branch", "Anm.C149_import", "Anm.C149_cost", "Anm.C149_ohm"],"C149_ohm shows a two-bus network whose demand converges and where the second statement is an equality.")
c("C150","proved",["Anm.C150_only", "Anm.C150_near", "Anm.C150_solver", "Anm.C150_reach"],"C150_only: two exact solutions of the load flow equations of ANM6 for the same injections within reach, both with voltages of at least 80 %, are equal. C150_near: two solutions up to the tolerance of the library differ by at most 0.0002 in the voltages and 0.0008 in the power of the slack bus. C150_solver: two converged transitions with the same inputs and any two oracles for the linear systems differ by at most 0.0002 in every voltage and in the energy loss. C150_reach: with sound projections the injections are within reach, whatever the action. An example applies it to the steps of ANM6Easy in which nothing is done, at every time of day.")
c("C151","proved",["Anm.C151_exact", "Anm.C151_transition"],"C151_exact: for injections within reach, a solution of the load flow equations up to the tolerance of the code with voltages of at least 80 % has an exact solution next to it, which is the only one with such voltages. C151_transition: the same for converged transitions, in terms of the reported voltages and the power of the slack device. That the injections are within reach is C150_reach. An example applies it to the steps of ANM6Easy in which nothing is done, at every time of day.")
c("C152","proved",["Anm.C152_step", "Anm.C152_episode"],"C152_step: one step from the same energy and time of day. C152_episode: any number of steps. The quadratic projections of the actions are exact and equal in both environments; the linear solvers are arbitrary functions. The penalty is covered by C153. An example applies both to two solvers that are exact, each in its own way, at every time of day.")
c("C153","proved",["Anm.C153_transition", "Anm.C153_step"],"C153_transition: the penalties of a transition differ by at most 0.17. C153_step: the rewards of a step differ by at most 0.171. Together with C152_episode the bound holds at every step of an episode, since it asks only for the same energy and time of day before the step. An example applies it to steps in which nothing is done, with one solver on both sides.")
c("C154","proved",["Anm.C154_start", "Anm.C154_exact", "Anm.C154_episode"],"C154_start: the states after the two resets. C154_exact: with exactly solved linear systems both resets succeed, without hypotheses on acceptance and voltages. C154_episode: the states after any number of equal actions. An example resets two exact environments and does nothing for a step.")
c("C155","proved",["Anm.C155_random", "Anm.C155_mpc"],"Assumes exactly solved linear systems in the load flow, a display that raises no exception and (MPC scripts) a solver that finds a feasible plan if there is one. The wrappers of gym.make, time.sleep and print are not modelled. An example runs random_agent.py with ten actions that all make the network collapse.")
c("C156","proved",["Anm.C156_draw", "Anm.C156_reset", "Anm.C156_step", "Anm.C156_episode"],"Assumes exactly solved linear systems in the load flow (the loop itself is the modelled one, with its tolerance).")
c("C157","proved",["Anm.C157_draw", "Anm.C157_reset", "Anm.C157_script"],"Assumes exactly solved linear systems in the load flow and exact projections (the loop itself is the modelled one, with its tolerance).")
c("C158","proved",["Anm.C158_step", "Anm.C158_episode", "Anm.C158_year"],"Assumes exactly solved linear systems in the load flow and exact projections. Relies on the behaviour shown in C103: the industrial complex and the wind farm always stay at zero.")
c("C159","proved",["Anm.C159_collapse", "Anm.C159_step"],"Assumes exact projections; nothing is assumed of the linear solver in the load flow. C158 shows that the active powers of the generators alone cannot do this.")
c("C160","proved",["Anm.C160_step", "Anm.C160_episode"],"Assumes exactly solved linear systems in the load flow. The upper bound is not 0, since a converged load flow may be off by its tolerance.")
c("C161","proved",["Anm.C161_step", "Anm.C161_return", "Anm.C161_better"],"Assumes exactly solved linear systems in the load flow and exact projections in mapping actions.")
c("C162","proved",["Anm.C162_step", "Anm.C162_return", "Anm.C162_worst"],"The steps of an episode that has not ended are meant; after a collapse step returns the reward 0 (C46). Exact real arithmetic.")
