{"claims": [
 {"property": "C01", "status": "proved", "theorems": ["QTrl.Timeslots.C01_timeslots_agree", "QTrl.Timeslots.C01_time_end_points", "QTrl.Timeslots.C01_amp_times", "QTrl.Timeslots.C01_fails_for_zero_slots", "QTrl.Timeslots.C01_fails_for_negative_slots"], "note": "Holds for slot counts >= 1; C01_fails_for_zero_slots / _negative_slots show the precondition is needed."},
 {"property": "C02", "status": "proved", "theorems": ["QTrl.Timeslots.C02_set_tau", "QTrl.Timeslots.C02_set_num", "QTrl.Timeslots.C02_set_evo", "QTrl.Timeslots.C02_uninitialised", "QTrl.Timeslots.C02_num_then_evo"], "note": ""},
 {"property": "C03", "status": "proved", "theorems": ["QTrl.Dyn.C03_time_ordered", "QTrl.Dyn.C03_order"], "note": "For the default UpdateAll timeslot computer; expm/eigh are parameters."},
 {"property": "C04", "status": "proved", "theorems": ["QTrl.Dyn.C04_overlap_slot_independent"], "note": ""},
 {"property": "C05", "status": "proved", "theorems": ["QTrl.Dyn.C05_caching_transparent", "QTrl.Dyn.C05_as_fresh"], "note": "Refinement of the cached machine to a stateless evaluator, for every history."},
 {"property": "C06", "status": "proved", "theorems": ["QTrl.Dyn.C06_exact_statistics", "QTrl.Dyn.C06_unchanged_is_noop", "QTrl.Dyn.C06_recompute_once"], "note": ""},
 {"property": "C07", "status": "partial", "theorems": ["QTrl.Dyn.C07_change_ignored", "QTrl.Dyn.C07_violated_tau", "QTrl.Dyn.C07_violated_evo_time", "QTrl.Dyn.C07_violated_phase_option", "QTrl.Dyn.C07_violated_generator_phase", "QTrl.Dyn.C07_after_reinit_partial", "QTrl.Dyn.C07_evo_time", "QTrl.Dyn.C07_after_amp_change_partial"], "note": "Violated by the code: C07_violated_* give concrete systems for durations, total time, phase option and generator phase. Partial theorems: the change takes effect after re-initialisation, and (for durations) after an amplitude change."},
 {"property": "C08", "status": "partial", "theorems": ["QTrl.Dyn.C08_violated", "QTrl.Dyn.C08_hand_over_partial"], "note": "Violated by the code (C08_violated). Partial theorem: no stale results for callers that hand over arrays and do not modify them."},
 {"property": "C09", "status": "proved", "theorems": ["QTrl.Dyn.C09_range"], "note": "Any history, any propagator computer; C09_range gives range, sign and the equality case."},
 {"property": "C10", "status": "proved", "theorems": ["QTrl.Dyn.C10_psu_invariant", "QTrl.Dyn.C10_su_sees_phase", "QTrl.Dyn.C10_energy_offset", "QTrl.Dyn.C10_gradient_zero_overlap"], "note": "C10_psu_invariant (phase on target and on the evolved object), C10_energy_offset (phase produced by the drift), C10_su_sees_phase. Gradient invariance needs a non-zero overlap: C10_gradient_zero_overlap shows it fails there."},
 {"property": "C11", "status": "proved", "theorems": ["QTrl.Dyn.C11_distance", "QTrl.Dyn.C11_default_scale"], "note": ""},
 {"property": "C12", "status": "proved", "theorems": ["QTrl.Dyn.C12_unitary", "QTrl.Dyn.C12_gradient_is_derivative"], "note": "C12_gradient_is_derivative for any system with exact propagator gradients, C12_unitary for unitary dynamics including the point fidelity = 1."},
 {"property": "C13", "status": "proved", "theorems": ["QTrl.Dyn.C13_unitary", "QTrl.Dyn.C13_gradient_is_derivative", "QTrl.Sympl.C13_symplectic"], "note": ""},
 {"property": "C14", "status": "partial", "theorems": ["QTrl.Dyn.C14_partial", "QTrl.Dyn.C14_violated", "QTrl.Dyn.C14_kept", "QTrl.Dyn.C14_limit_partial", "QTrl.Dyn.C14_diverges", "QTrl.Dyn.C14_violated_limit"], "note": "Violated by the code: C14_violated gives a two-slot system whose reported approximate gradient entry is not the difference quotient of the reported error. C14_partial: it is under the commutation hypothesis stated in the theorem, and C14_limit_partial: then it tends to the derivative of the reported error as the step goes to zero. C14_diverges: where the order of the factors matters, the entry grows without bound instead; C14_violated_limit is such a system."},
 {"property": "C15", "status": "proved", "theorems": ["QTrl.Dyn.C15_diag_is_exp", "QTrl.Dyn.C15_unitary", "QTrl.Dyn.C15_diag_unitary"], "note": ""},
 {"property": "C16", "status": "proved", "theorems": ["QTrl.Dyn.C16_diag_grad", "QTrl.Dyn.C16_diag_grad_error"], "note": "Exact when different eigenvalue phases are at least the rounding precision apart; C16_diag_grad_error bounds the error otherwise."},
 {"property": "C17", "status": "proved", "theorems": ["QTrl.Dyn.C17_aug_mat_grad", "QTrl.Dyn.C17_aug_mat_prop", "QTrl.Dyn.C17_frechet_agrees", "QTrl.Dyn.C17_diag_agrees"], "note": ""},
 {"property": "C18", "status": "proved", "theorems": ["QTrl.Dyn.C18_unitary"], "note": ""},
 {"property": "C19", "status": "proved", "theorems": ["QTrl.Sympl.C19_omega", "QTrl.Sympl.C19_evolution_symplectic"], "note": "For the default Frechet propagator computer, every way of configuring preop/postop."},
 {"property": "C20", "status": "partial", "theorems": ["QTrl.Mem.C20_options", "QTrl.Mem.C20_rejected", "QTrl.Mem.C20_results_partial", "QTrl.Mem.C20_evolution", "QTrl.Mem.C20_violated_su", "QTrl.Mem.C20_violated_symplectic", "QTrl.Mem.C20_symplectic_explicit", "QTrl.Mem.C20_toggle_partial", "QTrl.Mem.C20_violated_toggle"], "note": "Option resolution fully proved (C20_options, C20_rejected). Results: violated by the code in three situations (C20_violated_su, C20_violated_symplectic, C20_violated_toggle); C20_results_partial and C20_evolution prove independence of the options otherwise."},
 {"property": "C21", "status": "partial", "theorems": ["QTrl.Dyn.C21_views_partial", "QTrl.Dyn.C21_onwd_shows_fwd", "QTrl.Dyn.C21_violated"], "note": "Violated for onwd_evo with the Qobj data type (C21_violated, C21_onwd_shows_fwd); C21_views_partial covers every other view, data type and history."},
 {"property": "C22", "status": "proved", "theorems": ["QTrl.Pulse.C22_bounds", "QTrl.Pulse.C22_generators", "QTrl.Pulse.C22_empty"], "note": "Any raw pulse, offset and bounds (C22_bounds), and every generator type through its own initialisation (C22_generators)."},
 {"property": "C23", "status": "proved", "theorems": ["QTrl.Pulse.C23_shape", "QTrl.Pulse.C23_order"], "note": ""},
 {"property": "C24", "status": "partial", "theorems": ["QTrl.Pulse.C24_shapes", "QTrl.Pulse.C24_range_period", "QTrl.Pulse.C24_samples_partial", "QTrl.Pulse.C24_unbounded", "QTrl.Pulse.C24_violated_num_waves", "QTrl.Pulse.C24_violated_reinit", "QTrl.Pulse.C24_linear_partial", "QTrl.Pulse.C24_violated_linear_single", "QTrl.Pulse.C24_violated_linear_gradient"], "note": "Shapes proved at every time (C24_shapes, C24_range_period) and sampling proved for generators initialised once (C24_samples_partial, C24_linear_partial). Violated by the code: num_waves set after an earlier initialisation or together with freq (C24_violated_num_waves, C24_violated_reinit), a one-slot linear pulse (C24_violated_linear_single) and a linear pulse with both gradient and end value (C24_violated_linear_gradient)."},
 {"property": "C25", "status": "partial", "theorems": ["QTrl.Pulse.C25_init", "QTrl.Pulse.C25_generators_partial", "QTrl.Pulse.C25_violated_unchecked", "QTrl.Pulse.C25_violated_infinite"], "note": "C25_init and C25_generators_partial prove it for all generators that initialise themselves; C25_violated_unchecked and C25_violated_infinite show the zero and random generators that do not."},
 {"property": "C26", "status": "partial", "theorems": ["QTrl.Pulse.C26_random", "QTrl.Pulse.C26_walk1", "QTrl.Pulse.C26_walk2_partial", "QTrl.Pulse.C26_violated_walk2_scaling", "QTrl.Pulse.C26_fourier_terminates", "QTrl.Pulse.C26_violated_fourier_diverges", "QTrl.Pulse.C26_wave_sums", "QTrl.Pulse.C26_fourier_series", "QTrl.Pulse.C26_waves_series"], "note": "Violated by the code: the second random walk scales its step limit twice (C26_violated_walk2_scaling) and the Fourier decomposition can loop for ever (C26_violated_fourier_diverges); the other theorems prove ranges, step limits and termination otherwise."},
 {"property": "C27", "status": "partial", "theorems": ["QTrl.Pulse.C27_bounds", "QTrl.Pulse.C27_monotone_partial", "QTrl.Pulse.C27_violated_monotone", "QTrl.Pulse.C27_coeffs_argument"], "note": "Bounds proved for every history of coefficient vectors (C27_bounds). Monotonicity violated for a single non-positive upper or non-negative lower bound (C27_violated_monotone); C27_monotone_partial covers the other cases."},
 {"property": "C28", "status": "proved", "theorems": ["QTrl.Pulse.C28_init", "QTrl.Pulse.C28_distribute_collect", "QTrl.Pulse.C28_collect_distribute", "QTrl.Pulse.C28_too_short", "QTrl.Opt.C28_point"], "note": ""},
 {"property": "C29", "status": "partial", "theorems": ["QTrl.Opt.C29_flatten", "QTrl.Opt.C29_unflatten", "QTrl.Opt.C29_bounds", "QTrl.Opt.C29_bounds_short", "QTrl.Opt.C29_lbfgsb_current", "QTrl.Opt.C29_first_run", "QTrl.Opt.C29_violated_stale", "QTrl.Opt.C29_point"], "note": "Alignment of variables, amplitudes and bounds proved for all sizes (C29_flatten, C29_unflatten, C29_point, C29_bounds, C29_lbfgsb_current). Violated by the base class when the bounds change between two runs (C29_violated_stale)."},
 {"property": "C30", "status": "partial", "theorems": ["QTrl.Opt.C30_exhaustive", "QTrl.Opt.C30_stops", "QTrl.Opt.C30_goal", "QTrl.Opt.C30_returns_partial", "QTrl.Opt.C30_violated_bfgs", "QTrl.Opt.C30_violated_grad_min", "QTrl.Opt.C30_replies", "QTrl.Opt.C30_violated_case"], "note": "Proved for every minimiser behaviour and every history of the dynamics when a termination condition ends the run (C30_stops, C30_goal, C30_exhaustive, C30_replies) and, when the minimiser returns, as far as C30_returns_partial says. Violated when BFGS converges (C30_violated_bfgs) and when L-BFGS-B converges or BFGS loses precision (C30_violated_grad_min, C30_violated_case)."},
 {"property": "C31", "status": "partial", "theorems": ["QTrl.Opt.C31_stopped", "QTrl.Opt.C31_returned", "QTrl.Opt.C31_grad_norm_partial", "QTrl.Opt.C31_stale_grad_norm", "QTrl.Opt.C31_violated_grad_norm", "QTrl.Opt.C31_violated_sum_of_squares", "QTrl.Opt.C31_violated_fidelity"], "note": "Amplitudes, error and evolution proved on every path (C31_stopped, C31_returned). The gradient norm is that of the last gradient evaluation, not of the final amplitudes (C31_stale_grad_norm, C31_violated_grad_norm); C31_grad_norm_partial covers the runs whose last evaluation is a gradient. The attribute fidelity of the result is never set (C31_violated_fidelity)."},
 {"property": "C32", "status": "partial", "theorems": ["QTrl.Opt.C32_params", "QTrl.Opt.C32_options", "QTrl.Opt.C32_minimize", "QTrl.Opt.C32_lbfgsb_partial", "QTrl.Opt.C32_violated_ignored", "QTrl.Opt.C32_violated_lbfgsb", "QTrl.Opt.C32_violated", "QTrl.Opt.C32_violated_second_run", "QTrl.Opt.C32_construct_partial", "QTrl.Opt.C32_violated_construct"], "note": "Parameter routing and option building proved for all dictionaries (C32_params, C32_options, C32_minimize, C32_lbfgsb_partial, C32_construct_partial). Violated: BFGS, L-BFGS-B and Nelder-Mead ignore most options (C32_violated_ignored, C32_violated_lbfgsb, C32_violated), derived defaults survive into later runs (C32_violated_second_run), class defaults overwrite constructor parameters (C32_violated_construct)."},
 {"property": "C33", "status": "partial", "theorems": ["QTrl.Opt.C33_checks", "QTrl.Opt.C33_target", "QTrl.Opt.C33_violated_goal", "QTrl.Opt.C33_violated_second_run", "QTrl.Opt.C33_violated_lbfgsb"], "note": "C33_checks and C33_target for every configuration. Violated: a goal set on default termination conditions is ignored (C33_violated_goal), also in a second run (C33_violated_second_run); L-BFGS-B can raise AttributeError (C33_violated_lbfgsb)."},
 {"property": "C34", "status": "partial", "theorems": ["QTrl.DynUpdate.C34_unmarked", "QTrl.DynUpdate.C34_marked_partial", "QTrl.DynUpdate.C34_all_marked", "QTrl.DynUpdate.C34_flag_all_partial", "QTrl.DynUpdate.C34_overlap_partial", "QTrl.DynUpdate.C34_violated_flag_all", "QTrl.DynUpdate.C34_violated_skipped", "QTrl.DynUpdate.C34_violated_unmarked", "QTrl.DynUpdate.C34_violated_present"], "note": "For all systems, placeholders and histories: unmarked operators equal a complete computation (C34_unmarked), marked ones do after a recomputation and current ones are untouched (C34_marked_partial, C34_all_marked), the overlap at the chosen slot is right while the evolution is not current (C34_overlap_partial). Violated: flag_all_calc_now omits the full evolution (C34_violated_flag_all), compute_evolution skips marked operators once it has run (C34_violated_skipped, C34_violated_unmarked), and the present Dynamics lacks compute_dyn_gen so nothing is ever computed (C34_violated_present)."},
 {"property": "C35", "status": "partial", "theorems": ["QTrl.Dump.C35_optim", "QTrl.Dump.C35_dynamics_partial", "QTrl.Dump.C35_violated"], "note": "Optimiser dump proved for every history (C35_optim). Dynamics dump proved for every history with flags that can be written (C35_dynamics_partial). Violated with file writing on and the generators not chosen: the item is recorded, the dump raises TypeError and the summary is missing (C35_violated)."},
 {"property": "C36", "status": "partial", "theorems": ["QTrl.Dump.C36_sections_partial", "QTrl.Dump.C36_violated_content", "QTrl.Dump.C36_violated_onwd", "QTrl.Dump.C36_violated_last", "QTrl.Dump.C36_violated_no_generators"], "note": "Amplitudes, generators, propagators and gradients are written completely and in order (C36_sections_partial). Violated: the onward and onto sections contain the forward evolution (C36_violated_content, C36_violated_onwd), the last forward operator is never written (C36_violated_last), and without the generators the propagators cannot be written (C36_violated_no_generators)."},
 {"property": "C37", "status": "partial", "theorems": ["QTrl.Dump.C37_optim_levels", "QTrl.Dump.C37_dynamics_levels", "QTrl.Dump.C37_read", "QTrl.Dump.C37_read_dynamics", "QTrl.Dump.C37_history_partial", "QTrl.Dump.C37_rejected", "QTrl.Dump.C37_violated_rejected", "QTrl.Dump.C37_violated_custom", "QTrl.Dump.C37_violated_dumping_custom", "QTrl.Dump.C37_dumping", "QTrl.Dump.C37_dumping_read"], "note": "SUMMARY and FULL set exactly the documented flags, for every case of spelling and every history (C37_optim_levels, C37_dynamics_levels, C37_read, C37_read_dynamics, C37_history_partial, C37_dumping); an unknown level is rejected with the flags unchanged (C37_rejected). Violated: CUSTOM is always rejected (C37_violated_custom, C37_violated_dumping_custom), and a rejected value is stored and read back (C37_violated_rejected)."},
 {"property": "C38", "status": "partial", "theorems": ["QTrl.Dump.C38_columns", "QTrl.Dump.C38_column_counts", "QTrl.Dump.C38_headings", "QTrl.Dump.C38_write_through_partial", "QTrl.Dump.C38_writeout", "QTrl.Dump.C38_violated_number_format", "QTrl.Dump.C38_violated_numbers", "QTrl.Dump.C38_violated_base", "QTrl.Dump.C38_violated_old_name", "QTrl.Dump.C38_dynamics"], "note": "Proved for the dynamics dump (C38_dynamics), the columns (C38_columns, C38_column_counts), and summaries and gradients of the optimiser dump (C38_write_through_partial, C38_writeout). Violated: the logs of numbers are printed differently (C38_violated_number_format, C38_violated_numbers), and a base name changed after the first record splits the summary (C38_violated_base, C38_violated_old_name)."},
 {"property": "C39", "status": "partial", "theorems": ["QTrl.Grape.C39_limits", "QTrl.Grape.C39_start_partial", "QTrl.Grape.C39_adaptive_partial", "QTrl.Grape.C39_limits_checked", "QTrl.Grape.C39_violated_zero", "QTrl.Grape.C39_violated_integers", "QTrl.Grape.C39_violated_array"], "note": "All iterations after the first are within the limits in both plain functions (C39_limits). The first is if a start pulse of floating point numbers is given as a list (C39_start_partial), and then everything the adaptive function returns is (C39_adaptive_partial). Violated: without a start pulse the first iteration is zero (C39_violated_zero), with a start pulse of integers the limit is cut to an integer (C39_violated_integers), with a numpy array and limits the call raises ValueError (C39_violated_array)."},
 {"property": "C40", "status": "partial", "theorems": ["QTrl.Grape.C40_agree_partial", "QTrl.Grape.C40_violated_late", "QTrl.Grape.C40_violated", "QTrl.Grape.C40_violated_negative"], "note": "Same results and same exceptions without a penalty for late amplitudes and with a non-negative penalty for large ones (C40_agree_partial). Violated: the penalty for late amplitudes is linear in the slot number in one function and quadratic in the other (C40_violated_late, C40_violated), and negative penalties are ignored by one (C40_violated_negative)."},
 {"property": "C41", "status": "partial", "theorems": ["QTrl.Grape.C41_previous", "QTrl.Grape.C41_partial", "QTrl.Grape.C41_violated", "QTrl.Grape.C41_violated_adaptive", "QTrl.Grape.C41_violated_rows"], "note": "The propagator returned is that of the last but one row (C41_previous), so the property holds if the last iteration changed nothing (C41_partial). Violated in general (C41_violated), and for the adaptive function (C41_violated_adaptive, C41_violated_rows)."},
 {"property": "C42", "status": "partial", "theorems": ["QTrl.Grape.C42_iteration", "QTrl.Grape.C42_run", "QTrl.Grape.C42_violated"], "note": "In every iteration the overlap kept is the larger of the one kept before and the best of the three trials, and the step sizes keep their ratios (C42_iteration); logs and result of a whole run (C42_run). Violated: after a failed iteration another line of trials is continued, and the pulse returned can be worse than the start (C42_violated)."},
 {"property": "C43", "status": "partial", "theorems": ["QTrl.Props.LoadParams.C43_section_partial", "QTrl.Props.LoadParams.C43_complete", "QTrl.Props.LoadParams.C43_no_create", "QTrl.Props.LoadParams.C43_types", "QTrl.Props.LoadParams.C43_sections", "QTrl.Props.LoadParams.C43_no_file", "QTrl.Props.LoadParams.C43_violated_text", "QTrl.Props.LoadParams.C43_violated_float", "QTrl.Props.LoadParams.C43_violated_rest", "QTrl.Props.LoadParams.C43_violated_defaults"], "note": "What every section does (C43_section_partial), exactly the named attributes if every option can be applied (C43_complete), nothing is created (C43_no_create), types other than float and text are kept (C43_types), sections and objects are independent (C43_sections), no file (C43_no_file). Violated: texts become numbers or truth values (C43_violated_text), floats become what an expression evaluates to (C43_violated_float), an option that cannot be applied keeps the later ones of its section from being applied (C43_violated_rest), options of the default section are applied to every section (C43_violated_defaults)."},
 {"property": "C44", "status": "partial", "theorems": ["QTrl.Props.Io.C44_available_partial", "QTrl.Props.Io.C44_untouched", "QTrl.Props.Io.C44_creates", "QTrl.Props.Io.C44_name", "QTrl.Props.Io.C44_dump_assign_partial", "QTrl.Props.Io.C44_violated_special", "QTrl.Props.Io.C44_violated_broken", "QTrl.Props.Io.C44_violated_race", "QTrl.Props.Io.C44_violated_relative", "QTrl.Props.Io.C44_violated_read"], "note": "Without interference and unless the place is a device, a pipe, a socket or a broken link, success means a directory is there afterwards (C44_available_partial); nothing existing is changed (C44_untouched); success if nothing is in the way (C44_creates); names (C44_name); assigning dump_dir (C44_dump_assign_partial). Violated: devices and pipes (C44_violated_special), broken links (C44_violated_broken), files made by another process (C44_violated_race), relative names with ~ (C44_violated_relative), reading dump_dir (C44_violated_read)."},
 {"property": "C45", "status": "partial", "theorems": ["QTrl.PO.C45_components_partial", "QTrl.PO.C45_stats", "QTrl.PO.C45_usage_error", "QTrl.PO.C45_violated_tslot", "QTrl.PO.C45_violated_fid", "QTrl.PO.C45_violated_crab", "QTrl.PO.C45_violated_pulse"], "note": "Component selection of create_pulse_optimizer is proved against documented class tables for all arguments; violated cases (DYNAMIC timeslot type ignored, fid_type spelling, lower-case crab, unknown pulse types) carry witnesses."},
 {"property": "C46", "status": "partial", "theorems": ["QTrl.PO.C46_defaults", "QTrl.PO.C46_forwarded_partial", "QTrl.PO.C46_initial_pulses", "QTrl.PO.C46_grape_any_case", "QTrl.PO.C46_violated_case", "QTrl.PO.C46_violated_zero_bound", "QTrl.PO.C46_violated_tslot", "QTrl.PO.C46_violated_pulse_params"], "note": "Forwarding and its effects and the defaults of parameters left out (C46_defaults) are proved end to end for all four convenience functions; tslot_type/tslot_params are dropped by optimize_pulse, lower-case \"crab\" raises, a scalar zero bound is dropped by the CRAB generators and init_pulse_params scaling/offset is overridden for GRAPE (violation theorems)."},
 {"property": "C47", "status": "partial", "theorems": ["QTrl.PO.C47_fills_partial", "QTrl.PO.C47_kept_partial", "QTrl.PO.C47_unmodified_partial", "QTrl.PO.C47_violated_scale_factor", "QTrl.PO.C47_violated_across_calls", "QTrl.PO.C47_violated_phase_option", "QTrl.PO.C47_violated_crab"], "note": "A deprecated keyword only completes missing entries and existing entries survive, except scale_factor; caller dictionaries gain entries, which persists across calls (violation theorems with witnesses)."},
 {"property": "C48", "status": "partial", "theorems": ["QTrl.Ctrl.C48_list", "QTrl.Ctrl.C48_rectangular", "QTrl.Ctrl.C48_array", "QTrl.Ctrl.C48_rejected", "QTrl.Ctrl.C48_drift", "QTrl.Ctrl.C48_rows_partial", "QTrl.Ctrl.C48_violated_ragged", "QTrl.Ctrl.C48_empty_accepted", "QTrl.Ctrl.C48_violated_stale", "QTrl.Ctrl.C48_first_init"], "note": "Violated by the code for ragged nested lists (C48_violated_ragged) and when the controls are replaced before a re-initialisation (C48_violated_stale); the remaining C48 theorems prove acceptance, rejection and the derived numbers for all other containers. What numpy does with a non-sequence row is a parameter."},
 {"property": "C49", "status": "partial", "theorems": ["QTrl.Props.Stats.C49_counts", "QTrl.Props.Stats.C49_means", "QTrl.Props.Stats.C49_times_partial", "QTrl.Props.Stats.C49_dynamic_partial", "QTrl.Props.Stats.C49_violated_dynamic", "QTrl.Props.Stats.C49_violated_last", "QTrl.Props.Stats.C49_violated_running", "QTrl.Props.Stats.C49_violated_dynamic_second", "QTrl.Props.Stats.C49_violated_iterations"], "note": "Counts since the statistics were made or the last run started (C49_counts) and means after any report or calculate (C49_means); the categories add up to at most the time of the run if nothing is computed after the minimiser returned (C49_times_partial); dynamic update mode if everything was counted (C49_dynamic_partial). Violated: what is computed for the result after the end time was taken counts in the categories only (C49_violated_last), calculate during a run leaves the time at zero (C49_violated_running), zero counts raise in the dynamic mode (C49_violated_dynamic), whose counts are not cleared for a second run (C49_violated_dynamic_second), the iteration number differs from the one in the result (C49_violated_iterations)."},
 {"property": "C50", "status": "partial", "theorems": ["QTrl.Ctrl.C50_generator", "QTrl.Ctrl.C50_affine", "QTrl.Ctrl.C50_interchangeable_partial", "QTrl.Ctrl.C50_dyn_gen_partial", "QTrl.Ctrl.C50_violated"], "note": "Combined generator fully proved (C50_generator, C50_affine). The names are not interchangeable after an initialisation (C50_violated); partial theorems cover the first initialisation and the generator names."},
 {"property": "C51", "status": "partial", "theorems": ["QTrl.Sympl.C51_violated_case", "QTrl.Sympl.C51_violated_read", "QTrl.Sympl.C51_phase_partial", "QTrl.Sympl.C51_reconfigured_partial"], "note": "Violated by the code (C51_violated_case, C51_violated_read); C51_phase_partial covers lower-case settings without earlier reads."},
 {"property": "C52", "status": "partial", "theorems": ["QTrl.Grape.C52_kick", "QTrl.Grape.C52_gradient_partial", "QTrl.Grape.C52_violated"], "note": "The increment is the derivative with respect to a short evolution under the control after the slot (C52_kick), which is the derivative with respect to the amplitude if the control commutes with the Hamiltonian of the slot (C52_gradient_partial). Violated in general: the first-order increment is not the derivative (C52_violated)."},
 {"property": "C53", "status": "partial", "theorems": ["QTrl.Pulse.C53_gaussian_partial", "QTrl.Pulse.C53_gaussian_peak", "QTrl.Pulse.C53_default_peak", "QTrl.Pulse.C53_violated_mean_zero", "QTrl.Pulse.C53_edge_partial", "QTrl.Pulse.C53_violated_edge", "QTrl.Pulse.C53_violated_variance", "QTrl.Pulse.C53_violated_zero", "QTrl.Pulse.C53_default_grid", "QTrl.Pulse.C53_violated_zero_variance", "QTrl.Pulse.C53_violated_zero_decay"], "note": "Profile and peak proved (C53_gaussian_partial, C53_gaussian_peak, C53_default_peak, C53_edge_partial) for positive variances and decay times. Violated: a negative variance is not rejected and gives amplitudes above the documented maximum (C53_violated_variance), a variance or decay time of zero gives nan (C53_violated_zero), the mean 0 given as argument is ignored (C53_violated_mean_zero), a short Gaussian-edge pulse with the default decay time neither starts at zero nor reaches one (C53_violated_edge)."},
 {"property": "C54", "status": "partial", "theorems": ["QTrl.Pulse.C54_count", "QTrl.Pulse.C54_initial", "QTrl.Pulse.C54_freqs", "QTrl.Pulse.C54_series", "QTrl.Pulse.C54_bounds_partial", "QTrl.Pulse.C54_zero_coeffs", "QTrl.Pulse.C54_bounds_one_sided", "QTrl.Pulse.C54_violated_guess", "QTrl.Pulse.C54_violated_free_freqs", "QTrl.Pulse.C54_violated_action"], "note": "Number, initial values, frequencies and the pulse itself proved for all generators (C54_count, C54_initial, C54_freqs, C54_series, C54_zero_coeffs); the bounds are covered by C54_bounds_partial together with C54_bounds_one_sided (single bounds on the far side of zero). Violated: zero coefficients do not reproduce a bounded guess pulse (C54_violated_guess), optimised frequencies do not start near the harmonics (C54_violated_free_freqs), an unknown guess pulse action raises AttributeError instead of being ignored (C54_violated_action)."},
 {"property": "C55", "status": "partial", "theorems": ["QTrl.Par.C55_construct_partial", "QTrl.Par.C55_defaults", "QTrl.Par.C55_apply", "QTrl.Par.C55_reset_partial", "QTrl.Par.C55_num_coeffs", "QTrl.Par.C55_violated_randomize_freqs", "QTrl.Par.C55_violated_fix_freqs", "QTrl.Par.C55_violated_empty", "QTrl.Par.C55_violated_forgotten", "QTrl.Par.C55_violated_reset_basis"], "note": "Proved for all dictionaries and histories, except the CRAB keys freqs, randomize_freqs (always overwritten by reset), fix_freqs and num_basis_funcs. Violated: randomize_freqs/freqs and fix_freqs given as parameters are lost; apply_params({}) re-applies the earlier dictionary; a second dictionary makes reset forget the first; reset of a CRAB generator with free frequencies leaves 2 basis functions instead of 3."},
 {"property": "C56", "status": "partial", "theorems": ["QTrl.Log.C56_create", "QTrl.Log.C56_dictionaries", "QTrl.Log.C56_once", "QTrl.Log.C56_own_partial", "QTrl.Log.C56_violated_shared", "QTrl.Log.C56_violated_second", "QTrl.Log.C56_violated_notset", "QTrl.Log.C56_violated_dyn_params", "QTrl.Log.C56_violated_twice"], "note": "Levels after create_pulse_optimizer and single display of messages after imports proved. Violated: objects of one module share their level; a second optimiser changes the level of the first; NOTSET takes the level of the previous call, not of the settings; log_level in dyn_params does not reach the timeslot computer; get_logger called twice duplicates messages."},
 {"property": "C57", "status": "partial", "theorems": ["QTrl.Errs.C57_text_partial", "QTrl.Errs.C57_violated_text", "QTrl.Errs.C57_result", "QTrl.Errs.C57_not_swallowed", "QTrl.Errs.C57_family"], "note": "Flags and reasons proved. Violated: str() of every terminating exception raises AttributeError because they never set message."},
 {"property": "C58", "status": "partial", "theorems": ["QTrl.Save.C58_save", "QTrl.Save.C58_exclude", "QTrl.Save.C58_given", "QTrl.Save.C58_not_initialised", "QTrl.Save.C58_optimize", "QTrl.Save.C58_violated_silent", "QTrl.Save.C58_violated_unwritable", "QTrl.Save.C58_violated_broadcast"], "note": "Contents and precision proved for all pulses. Violated: failures (wrong number of times, unwritable file) are only logged and the call returns normally; a single time is written into every line."},
 {"property": "C59", "status": "partial", "theorems": ["QTrl.Dyn.C59_reports_partial", "QTrl.Dyn.C59_by_hand", "QTrl.Dyn.C59_silent", "QTrl.Dyn.C59_eigen_basis", "QTrl.Dyn.C59_tolerance_violated", "QTrl.Dyn.C59_class_violated", "QTrl.Dyn.C59_computer_violated", "QTrl.Dyn.C59_level_violated", "QTrl.Dyn.C59_level_partial", "QTrl.Dyn.C59_logging_violated"], "note": "Proved for DynamicsUnitary with the diagonalising computer (and for closed systems with every computer at level 1). The code violates the rest: np.allclose adds a relative tolerance 1e-5 (C59_tolerance_violated), check_unitarity is missing in the other classes (C59_class_violated), the other computers have no eigen lists (C59_computer_violated), DEBUG logging overrides the level (C59_level_violated) and thereby makes evolutions fail (C59_logging_violated)."},
 {"property": "C60", "status": "partial", "theorems": ["QTrl.PhaseSet.C60_application", "QTrl.PhaseSet.C60_initialise", "QTrl.PhaseSet.C60_initialises_partial", "QTrl.PhaseSet.C60_none_violated", "QTrl.PhaseSet.C60_option", "QTrl.PhaseSet.C60_reported_partial", "QTrl.PhaseSet.C60_option_violated"], "note": "Proved for the accepted values, for rejections of phase_application and for initialisation (C60_application, C60_initialise, C60_option). The code violates the rest: None is accepted for phase_application and the next initialisation raises (C60_none_violated); a rejected phase option is reported afterwards while the old one stays in effect (C60_option_violated)."},
 {"property": "C61", "status": "partial", "theorems": ["QTrl.Dyn.C61_phase_partial", "QTrl.Dyn.C61_diag_violated", "QTrl.Dyn.C61_violated"], "note": "Proved for the computers other than the diagonalising one (C61_phase_partial). The code violates it for the diagonalising computer, the default of unitary dynamics: the propagators are exp(-i*H*tau) whatever phase is assigned and the gradients are multiplied by i*phase (C61_diag_violated, C61_violated)."},
 {"property": "C62", "status": "partial", "theorems": ["QTrl.ViewList.C62_views_partial", "QTrl.ViewList.C62_onto_states_violated", "QTrl.ViewList.C62_onwd_states_violated", "QTrl.ViewList.C62_early_violated", "QTrl.ViewList.C62_target_partial", "QTrl.ViewList.C62_target_violated"], "note": "C62_views_partial covers all histories for generators, propagators and forward evolution, and the onto and onward lists for square initial operators; C62_target_partial covers histories with one target. The code violates the rest: for states with arrays onto_evo raises and then shows an empty list (C62_onto_states_violated) and onwd_evo raises (C62_onwd_states_violated), fwd_evo read too early raises and then shows a short list (C62_early_violated), and the inverse target shown does not follow a changed target (C62_target_violated)."},
 {"property": "C63", "status": "partial", "theorems": ["QTrl.Dyn.C63_names_partial", "QTrl.Dyn.C63_ctrl_partial", "QTrl.Dyn.C63_ctrl_violated", "QTrl.Dyn.C63_combine_violated", "QTrl.Dyn.C63_combine_harmless", "QTrl.Dyn.C63_grad_violated", "QTrl.Dyn.C63_slot_violated", "QTrl.Dyn.C63_flags"], "note": "The old names for the three evolutions, the phased generators, the propagators and the flags give the documented quantities after every history (C63_names_partial, C63_flags). Violated, with proofs: combine_dyn_gen and compute_prop_grad always raise TypeError (the former without disturbing later results), get_ctrl_dyn_gen is that of the first slot only, and get_timeslot_for_fidelity_calc returns a method."},
 {"property": "C64", "status": "proved", "theorems": ["QTrl.Opt.C64_history", "QTrl.Opt.C64_schrodinger", "QTrl.Opt.C64_returned", "QTrl.Opt.C64_stopped"], "note": "Proved for exact arithmetic: the linear algebra routines are taken to return the matrix exponential (or an exact eigendecomposition), and the minimiser is any sequence of calls."},
 {"property": "C65", "status": "partial", "theorems": ["QTrl.Props.Io.C65_settled_partial", "QTrl.Props.Io.C65_gradients", "QTrl.Props.Io.C65_rebase", "QTrl.Props.Io.C65_distinct", "QTrl.Props.Io.C65_host_partial", "QTrl.Props.Io.C65_host_dir_partial", "QTrl.Props.Io.C65_violated_dir", "QTrl.Props.Io.C65_violated_names", "QTrl.Props.Io.C65_violated_summary", "QTrl.Props.Io.C65_violated_forgotten"], "note": "Violated: paths of the summary and logs are kept from their first use, so a later dump_dir, extension or base name is not taken up (C65_violated_dir, _names); a named summary file is never put in the dump directory and ~ is not expanded, because os.path.abspath is tested instead of isabs (C65_violated_summary), and is forgotten when the base name is assigned (C65_violated_forgotten). Proved for settings made before the first use."},
 {"property": "C66", "status": "partial", "theorems": ["QTrl.Dyn.C66_results_partial", "QTrl.Dyn.C66_fewer_partial", "QTrl.Dyn.C66_silent", "QTrl.Dyn.C66_true_partial", "QTrl.Dyn.C66_changes_partial", "QTrl.Dyn.C66_violated_intense", "QTrl.Dyn.C66_violated_difference", "QTrl.Dyn.C66_summary_partial", "QTrl.Dyn.C66_violated_summary_rows", "QTrl.Dyn.C66_violated_summary_result"], "note": "Proved for levels above DEBUG_INTENSE of the time slot computer and for controls that do not depend on time. Violated: at DEBUG_INTENSE and below (NOTSET included) with the default exact gradients every request raises AttributeError (C66_violated_intense); the message of the difference gradient is shown at DEBUG only (C66_violated_difference); with time-dependent controls the summary shows the rows of the first slots as the controls (C66_violated_summary_rows) and raises IndexError if there are more controls than slots (C66_violated_summary_result). The check of unitarity which the level switches on is in C59."},
 {"property": "C67", "status": "partial", "theorems": ["QTrl.DynReset.C67_params", "QTrl.DynReset.C67_defaults", "QTrl.DynReset.C67_slots_partial", "QTrl.DynReset.C67_slots_given_partial", "QTrl.DynReset.C67_violated_tau_order", "QTrl.DynReset.C67_phase", "QTrl.DynReset.C67_as_new", "QTrl.DynReset.C67_apply", "QTrl.DynReset.C67_init_phase", "QTrl.DynReset.C67_violated_stale", "QTrl.DynReset.C67_violated_custom", "QTrl.DynReset.C67_violated_phase_param", "QTrl.DynReset.C67_file_partial", "QTrl.DynReset.C67_violated_file_tau"], "note": "Proved for the plain attributes, the defaults and the phase settings in full, for the time slots if neither num_tslots nor evo_time follows tau in the dictionary. Violated: otherwise the durations given are dropped (C67_violated_tau_order); attributes unknown to reset and the method of applying the phase survive a reset (C67_violated_stale, _custom); a phase among the parameters of symplectic dynamics raises AttributeError (C67_violated_phase_param); durations from a parameter file are rounded to single precision (C67_violated_file_tau). Files are covered for the options about the time slots."},
 {"property": "C68", "status": "partial", "theorems": ["QTrl.Reuse.C68_reuse_partial", "QTrl.Reuse.C68_current", "QTrl.Reuse.C68_generator_partial", "QTrl.Reuse.C68_kept", "QTrl.Reuse.C68_violated_scale", "QTrl.Reuse.C68_violated_more", "QTrl.Reuse.C68_violated_fewer", "QTrl.Reuse.C68_violated_list", "QTrl.Reuse.C68_violated_nested", "QTrl.Reuse.C68_violated_omega", "QTrl.Reuse.C68_violated_level", "QTrl.Reuse.C68_violated_unread"], "note": "Proved for every history of assignments, reads and initialisations with systems that agree in the number and kind of controls, the dimension and the suitable data type: the outcome and the object are those of a new one (C68_reuse_partial), the generators are the documented sums (C68_generator_partial). For all histories: drift, initial and target operator, dimension and time dependence of the drift are the current ones (C68_current), and what was worked out once is kept (C68_kept). Violated beyond that, with witnesses: scale factor, number of controls (more, fewer), kind of controls, nested lists, omega and phase of symplectic dynamics, memory_optimization; and an initialisation whose outcome depends on whether num_ctrls was read."},
 {"property": "C69", "status": "proved", "theorems": ["QTrl.Dyn.C69_basis", "QTrl.Dyn.C69_controls", "QTrl.Dyn.C69_units", "QTrl.Dyn.C69_refined_grid", "QTrl.Dyn.C69_backwards", "QTrl.Dyn.C69_zero_of_energy", "QTrl.Dyn.C69_spectator", "QTrl.Dyn.C69_spectator_default_scale"], "note": "Closed systems with any propagator computer for fidelity and error; gradients where both objects have exact propagator gradients (Frechet, or diagonalisation with well separated eigenvalue phases). Another zero of energy is a statement about PSU only, as the other measures see the phase, and its gradient part excludes zero fidelity, where the PSU fidelity is not differentiable. For the trace difference measure the spectator statement needs matching scale factors; what the default ones do is proved separately."},
 {"property": "C70", "status": "partial", "theorems": ["QTrl.Props.Stats.C70_shown_partial", "QTrl.Props.Stats.C70_dynamic_partial", "QTrl.Props.Stats.C70_stops", "QTrl.Props.Stats.C70_shares_partial", "QTrl.Props.Stats.C70_violated_form", "QTrl.Props.Stats.C70_violated_running", "QTrl.Props.Stats.C70_violated_shares"], "note": "Every statistic is shown once and can be read back, for times from zero to 2.7 million years; a time that cannot be shown ends the report. Violated: times below ten hours, of whole seconds or of a day and more are not of the announced form HH:MM:SS.US; a report during a run shows no time and no shares although calculate was called; the shares can add up to 200 percent because what is computed for the result after the end of the minimisation is counted in the parts and not in the total."},
 {"property": "C71", "status": "proved", "theorems": ["QTrl.Dyn.C71_channels", "QTrl.Dyn.C71_states", "QTrl.Dyn.C71_initial_channel", "QTrl.Dyn.C71_error_states", "QTrl.Dyn.C71_error_channels"], "note": "C71_channels: propagators and onward propagations are channels; C71_states and C71_initial_channel: the forward evolution of a state or channel is one; C71_error_states and C71_error_channels: range of the reported error. The matrix exponential is the exact one, as for C03."},
 {"property": "C72", "status": "proved", "theorems": ["QTrl.Dyn.C72_generators", "QTrl.Dyn.C72_superoperators", "QTrl.Dyn.C72_superoperators_gradient", "QTrl.Dyn.C72_gates", "QTrl.Dyn.C72_states", "QTrl.Dyn.C72_symplectic", "QTrl.Dyn.C72_applications"], "note": "Generators: unitary and general dynamics report the same (for the unitary measure the target must be normalised and la.inv must invert it). Superoperators: evolution, error and gradient for gates, states and isometries. Quadratic forms: symplectic and general dynamics report the same; preop and postop are transposed to each other."},
 {"property": "C73", "status": "proved", "theorems": ["QTrl.Dyn.C73_distance", "QTrl.Dyn.C73_unitary_distance", "QTrl.Dyn.C73_general", "QTrl.Dyn.C73_symplectic", "QTrl.Dyn.C73_unitary", "QTrl.Dyn.C73_unitary_slope"], "note": "For propagator computers with exact gradients (the diagonalising one: away from near-degenerate eigenvalue phases, C16)."},
 {"property": "C74", "status": "proved", "theorems": ["QTrl.Dyn.C74_evolution", "QTrl.Dyn.C74_error", "QTrl.Dyn.C74_amps", "QTrl.Dyn.C74_saved", "QTrl.Dyn.C74_apparatus"], "note": "closed systems, both error measures; two systems, changed or saved amplitudes, fluctuating apparatus"},
 {"property": "C75", "status": "proved", "theorems": ["QTrl.Dyn.C75_sampled", "QTrl.Dyn.C75_limit", "QTrl.Dyn.C75_grids", "QTrl.Dyn.C75_sine"], "note": "closed systems with steady drift and controls; any sampled pulse of bounded rate, and the sine generator end to end"},
 {"property": "C76", "status": "partial", "theorems": ["QTrl.Grape.C76_accepts", "QTrl.Grape.C76_draws", "QTrl.Grape.C76_scale", "QTrl.Grape.C76_shown", "QTrl.Grape.C76_shown_partial", "QTrl.Grape.C76_window", "QTrl.Grape.C76_violated_window", "QTrl.Grape.C76_violated"], "note": "The calls made of matplotlib are as described (C76_accepts, C76_draws, C76_scale). The lines are drawn with the default of step, which shows each amplitude one slot too early (C76_shown), so what is shown is right only where consecutive amplitudes agree (C76_shown_partial). The axis starts at zero whatever the times (C76_window). Violated in general (C76_violated, C76_violated_window)."},
 {"property": "C77", "status": "partial", "theorems": ["QTrl.Grape.C77_equal_partial", "QTrl.Grape.C77_adaptive_partial", "QTrl.Grape.C77_violated"], "note": "Proved for equally spaced ascending times (C77_equal_partial; C77_adaptive_partial for some trial pulse of the adaptive function). Violated for other times: every slot is taken to be as long as the first (C77_violated)."},
 {"property": "C78", "status": "proved", "theorems": ["QTrl.Dyn.C78_unitary", "QTrl.Dyn.C78_distance", "QTrl.Dyn.C78_general", "QTrl.Dyn.C78_interior"], "note": "For the unitary measure and the trace difference measure, any bounds."},
 {"property": "C79", "status": "proved", "theorems": ["QTrl.Opt.C79_limit", "QTrl.Opt.C79_time", "QTrl.Opt.C79_goal"], "note": "Closed systems; no assumption on the drift or on the minimiser."},
 {"property": "C80", "status": "partial", "theorems": ["QTrl.Settings.C80_config", "QTrl.Settings.C80_construct_partial", "QTrl.Settings.C80_reset_partial", "QTrl.Settings.C80_violated_prop_type", "QTrl.Settings.C80_violated_optim_method", "QTrl.Settings.C80_violated_zero_bound"], "note": "Proved for all classes, parameters and histories. Violated: the configuration lacks prop_type, the optimiser ignores optim_method, a bound 0 of the configuration is ignored."},
 {"property": "C81", "status": "partial", "theorems": ["QTrl.Dyn.C81_partial", "QTrl.Dyn.C81_numbers", "QTrl.Dyn.C81_defaults", "QTrl.Dyn.C81_violated_diag", "QTrl.Dyn.C81_violated_approx", "QTrl.Dyn.C81_violated_tdapprox"], "note": "C81_partial and C81_numbers classify exactly, for every combination of classes and after every sequence of requests, what error and gradient requests return; C81_defaults: default choices always work. The full claim fails: create_pulse_optimizer accepts combinations that cannot compute (C81_violated_diag, C81_violated_approx, C81_violated_tdapprox)."},
 {"property": "C82", "status": "partial", "theorems": ["QTrl.Dyn.C82_partial", "QTrl.Dyn.C82_failed_partial", "QTrl.Dyn.C82_unasked_partial", "QTrl.Dyn.C82_check", "QTrl.Dyn.C82_violated_stale", "QTrl.Dyn.C82_violated_shape"], "note": "Proved for every history of updates with arrays of any shape, requests and successful initialisations, from any object; and what follows failed initialisations. The code violates the rest: arrays of a wrong shape are accepted when supplied, and after a failed initialisation the values of the old system are returned from the caches although the object has no amplitudes."},
 {"property": "C83", "status": "proved", "theorems": ["QTrl.Dyn.C83_stages", "QTrl.Dyn.C83_continued", "QTrl.Dyn.C83_pulled_back", "QTrl.Dyn.C83_errors_add"], "note": "Stages and their continuation for every kind of dynamics, pulled-back targets and added errors for closed systems."},
 {"property": "C84", "status": "proved", "theorems": ["QTrl.Dyn.C84_kinds", "QTrl.Dyn.C84_controls", "QTrl.Dyn.C84_units", "QTrl.Dyn.C84_refined_grid", "QTrl.Dyn.C84_basis"], "note": "For any system whose propagators are exponentials of a fixed linear function of the generator; C84_kinds shows that the three dynamics classes of the library are of this form. Gradients are compared for exact propagator gradients."},
 {"property": "C85", "status": "proved", "theorems": ["QTrl.Dyn.C85_evolution", "QTrl.Dyn.C85_trace_difference", "QTrl.Dyn.C85_overlap", "QTrl.Dyn.C85_rates", "QTrl.Dyn.C85_amps"], "note": "For systems whose propagators are exponentials of a linear function of the generator (C84_kinds)."},
 {"property": "C86", "status": "proved", "theorems": ["QTrl.Dyn.C86_apparatus", "QTrl.Dyn.C86_sampled", "QTrl.Dyn.C86_error", "QTrl.Dyn.C86_motion", "QTrl.Dyn.C86_limit"], "note": "General generators, closed and symplectic dynamics share one statement over systems whose propagators are exponentials (C84_kinds shows that all three are)."},
 {"property": "C87", "status": "proved", "theorems": ["QTrl.Opt.C87_returned", "QTrl.Opt.C87_stopped", "QTrl.Opt.C87_limit", "QTrl.Opt.C87_goal"], "note": "C64 and C79 for every kind of dynamics whose propagators are exponentials (C84_kinds)."},
 {"property": "C88", "status": "partial", "theorems": ["QTrl.Reuse.C88_slots_partial", "QTrl.Reuse.C88_arrays", "QTrl.Reuse.C88_unchecked", "QTrl.Reuse.C88_violated_short_drift", "QTrl.Reuse.C88_violated_long_drift", "QTrl.Reuse.C88_violated_short_ctrls"], "note": "Slots that the operators reach have the documented generator, other slots raise IndexError; short arrays of controls are refused with the array data type. The length of a drift list is never checked (too short: IndexError in the middle; too long: ignored), nor that of controls with the Qobj data type."},
 {"property": "C89", "status": "partial", "theorems": ["QTrl.Opt.C89_stopped_partial", "QTrl.Opt.C89_returned", "QTrl.Opt.C89_closed_distance", "QTrl.Opt.C89_closed", "QTrl.Opt.C89_general", "QTrl.Opt.C89_symplectic", "QTrl.Opt.C89_nearby", "QTrl.Opt.C89_violated"], "note": "Proved for runs ended by the own check of the gradient and for runs that end where the gradient was evaluated last, for every kind of dynamics. The claim is also made when L-BFGS-B returns with warnflag 0 (or BFGS with 2), where it is false (C89_violated)."}
]}
