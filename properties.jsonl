{"id": "C01", "title": "Timeslot data is always self-consistent", "statement": "However a Dynamics object's num_tslots, evo_time and tau are set and read, once read they agree: tau has num_tslots entries, evo_time is the sum of tau, and time has num_tslots+1 entries starting at 0 with time[k] = tau[0]+...+tau[k-1] (so it ends at evo_time).", "quantifier": "every finite history of assignments to num_tslots / evo_time / tau, reads of them and init_timeslots calls, with any slot count and any real durations", "why_tests_cant": "Tests fix one order of assignments; the defect classes here (stale tau, wrong length of time) only appear for particular histories.", "anchors": ["src/qutip_qtrl/dynamics.py:Dynamics.num_tslots", "src/qutip_qtrl/dynamics.py:Dynamics.evo_time", "src/qutip_qtrl/dynamics.py:Dynamics.tau", "src/qutip_qtrl/dynamics.py:Dynamics.init_timeslots", "src/qutip_qtrl/dynamics.py:Dynamics.get_amp_times"]}
{"id": "C02", "title": "Last timeslot assignment wins", "statement": "After assigning tau, num_tslots and evo_time are derived from it; after assigning num_tslots or evo_time on an initialised object all slots become equal to evo_time/num_tslots, the other quantity keeping its last value; unset values default to 10 slots and total time 1.", "quantifier": "every prior state of the object and every assigned value (positive slot count)", "why_tests_cant": "The effect of an assignment depends on the hidden initialised flag, i.e. on the whole preceding history.", "anchors": ["src/qutip_qtrl/dynamics.py:Dynamics.num_tslots", "src/qutip_qtrl/dynamics.py:Dynamics.evo_time", "src/qutip_qtrl/dynamics.py:Dynamics.tau", "src/qutip_qtrl/dynamics.py:Dynamics.init_timeslots"]}
{"id": "C03", "title": "Evolution operators are the time-ordered products", "statement": "After computing the evolution, fwd_evo[k] is prop[k-1]...prop[0].initial, onwd_evo[k] is prop[n-1]...prop[k], and onto_evo[k] is (target form).prop[n-1]...prop[k], with prop[k] the propagator of drift+sum_j amps[k,j].ctrl_j over tau[k]; full_evo is fwd_evo[n].", "quantifier": "every number of timeslots and controls, every (non-commuting) generator and amplitude array, time dependent or not", "why_tests_cant": "Ordering mistakes are invisible for commuting or symmetric examples; tests compare only final fidelities of a few systems.", "anchors": ["src/qutip_qtrl/tslotcomp.py:TSlotCompUpdateAll.recompute_evolution", "src/qutip_qtrl/dynamics.py:Dynamics._combine_dyn_gen", "src/qutip_qtrl/dynamics.py:Dynamics.full_evo", "src/qutip_qtrl/propcomp.py:PropagatorComputer._compute_propagator"]}
{"id": "C04", "title": "Overlap does not depend on the timeslot it is evaluated in", "statement": "onto_evo[k].fwd_evo[k] is the same operator for every k, equal to (target form).full evolution, so the fidelity does not depend on the timeslot chosen for the fidelity calculation.", "quantifier": "every timeslot index 0..n, every propagator list", "why_tests_cant": "Universal over slot index and operators; the code evaluates it at one slot only.", "anchors": ["src/qutip_qtrl/tslotcomp.py:TSlotCompUpdateAll._get_timeslot_for_fidelity_calc", "src/qutip_qtrl/fidcomp.py:FidCompUnitary.get_fidelity_prenorm", "src/qutip_qtrl/tslotcomp.py:TSlotCompUpdateAll.recompute_evolution"]}
{"id": "C05", "title": "Caching is transparent: results always match the current amplitudes", "statement": "In any history of amplitude updates, evolution computations and fidelity / error / gradient queries, each query returns exactly what a fresh evaluation at the most recently supplied amplitudes returns; nothing stale is served.", "quantifier": "every finite history of update_ctrl_amps, compute_evolution, get_fidelity, get_fid_err, get_fid_err_gradient calls; unitary and trace-difference measures, cached and uncached gradients", "why_tests_cant": "The lazily-updated flags make correctness a property of histories; tests exercise only the optimiser's own call pattern.", "anchors": ["src/qutip_qtrl/dynamics.py:Dynamics.update_ctrl_amps", "src/qutip_qtrl/dynamics.py:Dynamics.flag_system_changed", "src/qutip_qtrl/dynamics.py:Dynamics.compute_evolution", "src/qutip_qtrl/tslotcomp.py:TSlotCompUpdateAll", "src/qutip_qtrl/fidcomp.py:FidelityComputer.flag_system_changed", "src/qutip_qtrl/fidcomp.py:FidCompUnitary", "src/qutip_qtrl/fidcomp.py:FidCompTraceDiff"]}
{"id": "C06", "title": "No needless recomputation, and statistics count exactly what happened", "statement": "Submitting unchanged amplitudes never triggers an evolution recomputation; the evolution is recomputed exactly once between a real change and any number of queries; num_ctrl_amp_updates, num_ctrl_amp_changes, num_tslot_recompute-type counters equal the number of updates, changed amplitudes and recomputations in the history.", "quantifier": "every finite history of updates and queries", "why_tests_cant": "Counts and skip conditions depend on the entire history.", "anchors": ["src/qutip_qtrl/tslotcomp.py:TSlotCompUpdateAll.compare_amps", "src/qutip_qtrl/tslotcomp.py:TSlotCompUpdateAll.recompute_evolution", "src/qutip_qtrl/dynamics.py:Dynamics.compute_evolution", "src/qutip_qtrl/stats.py:Stats"]}
{"id": "C07", "title": "Configuration changes are reflected in later results", "statement": "Changing the timeslot durations, the phase option or the generator phase of an already initialised system changes later fidelity results accordingly.", "quantifier": "every initialised state and every re-assignment of tau / num_tslots / evo_time / phase_option", "why_tests_cant": "Needs a change after a query; staleness can only be seen along particular histories.", "anchors": ["src/qutip_qtrl/dynamics.py:Dynamics.tau", "src/qutip_qtrl/dynamics.py:Dynamics.initialize_controls", "src/qutip_qtrl/fidcomp.py:FidCompUnitary.phase_option", "src/qutip_qtrl/dynamics.py:Dynamics.dyn_gen_phase"]}
{"id": "C08", "title": "The supplied amplitude array is not aliased", "statement": "Mutating an array after passing it to update_ctrl_amps / initialize_controls has no hidden effect: a later submission of that array with new contents is recognised as a change.", "quantifier": "every array object, every later in-place modification, every history", "why_tests_cant": "Aliasing defects depend on the caller's later behaviour.", "anchors": ["src/qutip_qtrl/tslotcomp.py:TSlotCompUpdateAll.compare_amps", "src/qutip_qtrl/optimizer.py:Optimizer.fid_err_func_wrapper", "src/qutip_qtrl/optimizer.py:Optimizer._get_ctrl_amps"]}
{"id": "C09", "title": "Unitary fidelity lies in its documented range", "statement": "For a unitary target, initial and evolution, the PSU fidelity is in [0,1] and the SU fidelity in [-1,1]; the fidelity error is non-negative; it is 0 exactly when the evolution reaches the target (up to a global phase for PSU).", "quantifier": "every dimension and every unitary target and evolution", "why_tests_cant": "Quantifies over all unitaries of all dimensions (Cauchy-Schwarz).", "anchors": ["src/qutip_qtrl/fidcomp.py:FidCompUnitary.get_fidelity", "src/qutip_qtrl/fidcomp.py:FidCompUnitary.get_fid_err", "src/qutip_qtrl/fidcomp.py:FidCompUnitary.init_normalization", "src/qutip_qtrl/fidcomp.py:FidCompUnitary.normalize_PSU", "src/qutip_qtrl/fidcomp.py:FidCompUnitary.normalize_SU"]}
{"id": "C10", "title": "PSU ignores and SU keeps global phase", "statement": "Multiplying target or evolution by a phase leaves the PSU fidelity and error unchanged, and the gradient wherever the overlap is non-zero; SU equals the real part of the normalised overlap and therefore distinguishes phases.", "quantifier": "every phase factor, unitary and dimension", "why_tests_cant": "Universally quantified invariance over a continuum.", "anchors": ["src/qutip_qtrl/fidcomp.py:FidCompUnitary.normalize_PSU", "src/qutip_qtrl/fidcomp.py:FidCompUnitary.normalize_SU", "src/qutip_qtrl/fidcomp.py:FidCompUnitary.normalize_gradient_PSU"]}
{"id": "C11", "title": "Trace-difference error is a squared distance", "statement": "The trace-difference fidelity error is scale_factor times the squared Frobenius distance between target and final evolution: non-negative, zero exactly when they coincide; with the default scale factor it is 1 - Re tr(target^dag.U)/N for unitaries and so lies in [0,2].", "quantifier": "every pair of matrices of every size and positive scale factor", "why_tests_cant": "Needs all matrices; tests check only convergence on examples.", "anchors": ["src/qutip_qtrl/fidcomp.py:FidCompTraceDiff.get_fid_err", "src/qutip_qtrl/fidcomp.py:FidCompTraceDiff.init_comp"]}
{"id": "C12", "title": "Unitary fidelity-error gradient is the true derivative", "statement": "Each entry [k,j] of the reported gradient equals the partial derivative of the reported fidelity error with respect to amplitude j of slot k, for PSU and SU, wherever the error is differentiable (overlap non-zero for PSU, fidelity below 1).", "quantifier": "every slot, control, amplitude array, dimension and generator set", "why_tests_cant": "Tests compare finite differences at sample points to a tolerance.", "anchors": ["src/qutip_qtrl/fidcomp.py:FidCompUnitary.compute_fid_grad", "src/qutip_qtrl/fidcomp.py:FidCompUnitary.get_fid_err_gradient", "src/qutip_qtrl/fidcomp.py:FidCompUnitary.normalize_gradient_PSU", "src/qutip_qtrl/fidcomp.py:FidCompUnitary.normalize_gradient_SU"]}
{"id": "C13", "title": "Trace-difference gradient is the true derivative", "statement": "Each entry of the trace-difference gradient equals the partial derivative of the trace-difference error with respect to that amplitude.", "quantifier": "every slot, control, amplitude array, generator set and scale factor", "why_tests_cant": "As C12.", "anchors": ["src/qutip_qtrl/fidcomp.py:FidCompTraceDiff.compute_fid_err_grad"]}
{"id": "C14", "title": "Approximate trace-difference gradient is the finite difference of the error", "statement": "The gradient reported by the approximate computer is the finite-difference quotient of the fidelity error in that amplitude with the configured step, so it tends to the derivative as the step goes to zero.", "quantifier": "every slot, control, amplitude array and step", "why_tests_cant": "Only visible with non-commuting generators and several slots.", "anchors": ["src/qutip_qtrl/fidcomp.py:FidCompTraceDiffApprox.compute_fid_err_grad", "src/qutip_qtrl/propcomp.py:PropCompApproxGrad"]}
{"id": "C15", "title": "Diagonalisation propagators equal the matrix exponential", "statement": "For a Hermitian generator the diagonalising propagator computer returns exp(-i.H.tau), which is what the generic exponentiating computer returns, and it is unitary.", "quantifier": "every Hermitian matrix with any (possibly degenerate) spectrum and any duration", "why_tests_cant": "All Hermitian matrices; degenerate spectra are measure zero in random tests.", "anchors": ["src/qutip_qtrl/propcomp.py:PropCompDiag._compute_propagator", "src/qutip_qtrl/dynamics.py:DynamicsUnitary._spectral_decomp", "src/qutip_qtrl/propcomp.py:PropagatorComputer._compute_propagator"]}
{"id": "C16", "title": "Diagonalisation propagator gradient is the exact derivative", "statement": "The gradient returned by the diagonalising computer equals d/du exp(-i(H+u.Hc).tau) at u=0, including repeated eigenvalues; pairs of eigenvalues closer than the rounding precision are treated as equal.", "quantifier": "every Hermitian H, every control Hc, every duration, any degeneracy pattern compatible with the rounding precision", "why_tests_cant": "Degenerate and nearly degenerate spectra are never hit by random tests.", "anchors": ["src/qutip_qtrl/propcomp.py:PropCompDiag._compute_prop_grad", "src/qutip_qtrl/dynamics.py:DynamicsUnitary._spectral_decomp"]}
{"id": "C17", "title": "Augmented-matrix and Frechet gradients are the exact derivative", "statement": "The upper-right block of exp([[A,E],[0,A]]) used by the AUG_MAT computer is the directional derivative of the propagator, its diagonal block is the propagator, and both agree with the FRECHET and DIAG computers, so the choice of exact computer does not change results.", "quantifier": "every generator, control and duration of any dimension", "why_tests_cant": "Universal matrix identity.", "anchors": ["src/qutip_qtrl/propcomp.py:PropCompAugMat", "src/qutip_qtrl/propcomp.py:PropCompFrechet", "src/qutip_qtrl/propcomp.py:PropCompDiag"]}
{"id": "C18", "title": "Unitary dynamics stay unitary", "statement": "With Hermitian drift and controls and real amplitudes every propagator, forward, onward and onto evolution operator is unitary when initial and target are; the norm of a state is preserved.", "quantifier": "every slot count, duration, amplitude array and dimension", "why_tests_cant": "Induction over slots and all Hermitian generators.", "anchors": ["src/qutip_qtrl/dynamics.py:DynamicsUnitary", "src/qutip_qtrl/tslotcomp.py:TSlotCompUpdateAll.recompute_evolution", "src/qutip_qtrl/dynamics.py:Dynamics.unitarity_check"]}
{"id": "C19", "title": "Symplectic form and symplectic evolution", "statement": "calc_omega(n) is the standard symplectic form (antisymmetric, squares to -1, orthogonal); with symmetric generators both phase applications give propagators satisfying P^T.Omega.P = Omega, and any evolution preserves this.", "quantifier": "every number of oscillators n, every symmetric generator, every slot count", "why_tests_cant": "calc_omega is defined by index parity; tests evaluate n=2.", "anchors": ["src/qutip_qtrl/symplectic.py:calc_omega", "src/qutip_qtrl/dynamics.py:DynamicsSymplectic"]}
{"id": "C20", "title": "Memory-optimisation options never change results", "statement": "Caching or not caching phased generators, propagator gradients and eigenvector adjoints, and the order preop/postop for a scalar phase, give the same propagators, gradients and fidelities; explicitly set options are not overridden by memory_optimization.", "quantifier": "every memory level, every combination of explicitly set flags, every system", "why_tests_cant": "Combinatorial in options and universally quantified in systems.", "anchors": ["src/qutip_qtrl/dynamics.py:Dynamics._set_memory_optimizations", "src/qutip_qtrl/dynamics.py:Dynamics._get_phased_dyn_gen", "src/qutip_qtrl/dynamics.py:Dynamics._get_phased_ctrl_dyn_gen", "src/qutip_qtrl/dynamics.py:Dynamics._init_evo"]}
{"id": "C21", "title": "Operator views show the operators actually used", "statement": "The public dyn_gen, prop, fwd_evo, onwd_evo, onto_evo and prop_grad views return the internally computed operators, for both internal data types.", "quantifier": "both operator data types and every history of recomputation and view reads", "why_tests_cant": "Views are cached separately from the data; wrong or stale views are history and option dependent.", "anchors": ["src/qutip_qtrl/dynamics.py:Dynamics.dyn_gen", "src/qutip_qtrl/dynamics.py:Dynamics.prop", "src/qutip_qtrl/dynamics.py:Dynamics.fwd_evo", "src/qutip_qtrl/dynamics.py:Dynamics.onwd_evo", "src/qutip_qtrl/dynamics.py:Dynamics.onto_evo"]}
{"id": "C22", "title": "Generated pulses respect their amplitude bounds", "statement": "After bounds and offset are applied, every amplitude lies within whichever of the lower and upper bounds is set (with lbound <= ubound).", "quantifier": "every raw pulse (any length, any values), offset, scaling and combination of present / absent bounds", "why_tests_cant": "Sixteen or more branch combinations over all real pulses.", "anchors": ["src/qutip_qtrl/pulsegen.py:PulseGen._apply_bounds_and_offset"]}
{"id": "C23", "title": "Bounding preserves the pulse shape", "statement": "Applying bounds and offset is a non-decreasing affine map of the pulse with a factor between 0 and 1 (strictly increasing unless the two bounds are equal): order of amplitudes and ratios of differences are preserved, the pulse is merely shifted by the offset if it then fits, and rescaled only when it cannot fit between two bounds.", "quantifier": "every raw pulse, offset and bounds", "why_tests_cant": "Universal over pulses and branches.", "anchors": ["src/qutip_qtrl/pulsegen.py:PulseGen._apply_bounds_and_offset"]}
{"id": "C24", "title": "Waveform generators produce the documented shapes", "statement": "Square waves take only the two values +-scaling, saw and triangle waves stay within +-scaling, repeat with the configured period and go through the documented extremes; linear pulses go from start to end value; the number of cycles in the pulse is num_waves as configured through freq, wavelen or num_waves.", "quantifier": "every slot count, frequency, phase, scaling and time array", "why_tests_cant": "Real-valued phases; floor-based formulas fail only at special points.", "anchors": ["src/qutip_qtrl/pulsegen.py:PulseGenSquare", "src/qutip_qtrl/pulsegen.py:PulseGenSaw", "src/qutip_qtrl/pulsegen.py:PulseGenTriangle", "src/qutip_qtrl/pulsegen.py:PulseGenSine", "src/qutip_qtrl/pulsegen.py:PulseGenLinear", "src/qutip_qtrl/pulsegen.py:PulseGenPeriodic.init_pulse"]}
{"id": "C25", "title": "Bounds are validated and infinite bounds mean unbounded", "statement": "Every pulse generator rejects ubound < lbound and treats an infinite bound as absent.", "quantifier": "every generator type and bound pair including infinities", "why_tests_cant": "Depends on generator type and initialisation path.", "anchors": ["src/qutip_qtrl/pulsegen.py:PulseGen.init_pulse", "src/qutip_qtrl/pulsegen.py:PulseGenRandom.gen_pulse", "src/qutip_qtrl/pulsegen.py:PulseGenZero.gen_pulse"]}
{"id": "C26", "title": "Random pulses stay within their documented amplitude and step limits", "statement": "Random pulses are within +-scaling; random-walk pulses never step by more than the configured maximum; smoothing and Fourier decomposition terminate with at least one component and keep the documented number of wavelengths; an impossible minimum wavelength is rejected.", "quantifier": "every random seed (random numbers are arbitrary inputs in the documented interval), pulse length and parameter", "why_tests_cant": "Tests sample a few seeds.", "anchors": ["src/qutip_qtrl/pulsegen.py:PulseGenRandom", "src/qutip_qtrl/pulsegen.py:PulseGenRndWalk1", "src/qutip_qtrl/pulsegen.py:PulseGenRndFourier", "src/qutip_qtrl/pulsegen.py:PulseGenRndWaves"]}
{"id": "C27", "title": "CRAB pulses respect their bounds for every coefficient vector", "statement": "Whatever coefficients the search tries, the pulse built from the basis functions, guess pulse and ramping pulse lies within the configured amplitude bounds, and the bounding map is increasing.", "quantifier": "every coefficient vector, frequency set, guess pulse, ramp and bound combination", "why_tests_cant": "The optimiser may try arbitrary coefficients.", "anchors": ["src/qutip_qtrl/pulsegen.py:PulseGenCrab._apply_bounds", "src/qutip_qtrl/pulsegen.py:PulseGenCrab._init_bounds", "src/qutip_qtrl/pulsegen.py:PulseGenCrabFourier.gen_pulse"]}
{"id": "C28", "title": "CRAB optimisation variables and coefficients correspond one to one", "statement": "Collecting the coefficients of all controls into the optimisation vector and distributing a vector back are inverse, each control receiving its own slice in order.", "quantifier": "every number of controls, per-control coefficient counts and vector", "why_tests_cant": "Index arithmetic over heterogeneous sizes.", "anchors": ["src/qutip_qtrl/optimizer.py:OptimizerCrab._get_optim_var_vals", "src/qutip_qtrl/optimizer.py:OptimizerCrab._get_ctrl_amps", "src/qutip_qtrl/pulsegen.py:PulseGenCrab.set_optim_var_vals", "src/qutip_qtrl/pulsegen.py:PulseGenCrab.get_optim_var_vals"]}
{"id": "C29", "title": "GRAPE variables, amplitudes and bounds are aligned", "statement": "Flattening amplitudes to optimisation variables and reshaping back are inverse; the bounds list has one entry per variable and entry t*num_ctrls+j is the bound of control j in every slot t.", "quantifier": "every slot and control count, amplitude array and scalar / per-control bounds including infinite and missing ones", "why_tests_cant": "Index arithmetic for all sizes.", "anchors": ["src/qutip_qtrl/optimizer.py:Optimizer._build_bounds_list", "src/qutip_qtrl/optimizer.py:Optimizer._get_optim_var_vals", "src/qutip_qtrl/optimizer.py:Optimizer._get_ctrl_amps"]}
{"id": "C30", "title": "Termination reasons are truthful", "statement": "Whatever sequence of evaluations the underlying minimiser performs, exactly the matching termination flag and reason are reported: goal achieved only if the error evaluated at the last tried amplitudes is <= target, and the run stops at the first evaluation meeting it; the wall-time, function-call and gradient limits stop the run at the first call at which they are exceeded.", "quantifier": "every minimiser behaviour (arbitrary finite sequence of error, gradient and iteration callbacks with arbitrary points and clock readings)", "why_tests_cant": "The minimiser is external and its call sequence is data dependent.", "anchors": ["src/qutip_qtrl/optimizer.py:Optimizer.fid_err_func_wrapper", "src/qutip_qtrl/optimizer.py:Optimizer.fid_err_grad_wrapper", "src/qutip_qtrl/optimizer.py:Optimizer.iter_step_callback_func", "src/qutip_qtrl/optimizer.py:Optimizer._interpret_term_exception", "src/qutip_qtrl/optimizer.py:Optimizer.run_optimization", "src/qutip_qtrl/errors.py"]}
{"id": "C31", "title": "The returned result describes the returned amplitudes", "statement": "The final amplitudes in the result are those last evaluated, and the final fidelity, fidelity error, gradient norm and evolution reported are those of the final amplitudes.", "quantifier": "every minimiser behaviour and every termination path", "why_tests_cant": "As C30.", "anchors": ["src/qutip_qtrl/optimizer.py:Optimizer._add_common_result_attribs", "src/qutip_qtrl/optimizer.py:Optimizer.run_optimization", "src/qutip_qtrl/optimresult.py:OptimResult"]}
{"id": "C32", "title": "Explicit method options take precedence", "statement": "Method options given by the user are passed to the minimiser unchanged; defaults derived from the termination conditions are only added for missing keys; a method parameter naming an optimiser or termination-condition attribute sets that attribute.", "quantifier": "every parameter dictionary and optimiser class", "why_tests_cant": "All subsets of option keys and routing rules.", "anchors": ["src/qutip_qtrl/optimizer.py:Optimizer._build_method_options", "src/qutip_qtrl/optimizer.py:Optimizer.apply_method_params", "src/qutip_qtrl/optimizer.py:OptimizerLBFGSB", "src/qutip_qtrl/optimizer.py:OptimizerCrabFmin"]}
{"id": "C33", "title": "Optimisation cannot start half-configured", "statement": "run_optimization raises a usage error whenever dynamics, controls, termination conditions or (where needed) pulse generators are missing; otherwise the stopping target used is the one configured through fid_err_targ or fid_goal.", "quantifier": "every combination of configured / unconfigured components", "why_tests_cant": "Combinatorial configuration space.", "anchors": ["src/qutip_qtrl/optimizer.py:Optimizer.init_optim", "src/qutip_qtrl/optimizer.py:OptimizerCrab.init_optim", "src/qutip_qtrl/termcond.py:TerminationConditions"]}
{"id": "C34", "title": "The dynamic-update timeslot computer agrees with the full recompute", "statement": "Selectively recomputing only flagged timeslots yields the same operators as recomputing everything, for any history of partial amplitude changes.", "quantifier": "every history of amplitude changes and timeslot choices", "why_tests_cant": "The invariant relates masks to stored values along all histories.", "anchors": ["src/qutip_qtrl/tslotcomp.py:TSlotCompDynUpdate"]}
{"id": "C35", "title": "Dump records are complete and in order", "statement": "With dumping on, every recorded item gets the next index, items and summaries correspond one to one in order, and each summary refers to the right item; nothing is recorded for disabled categories.", "quantifier": "every history of recorded iterations, errors, gradients and evolution dumps at every level", "why_tests_cant": "History-dependent bookkeeping.", "anchors": ["src/qutip_qtrl/dump.py:OptimDump.add_iter_summary", "src/qutip_qtrl/dump.py:OptimDump.update_fid_err_log", "src/qutip_qtrl/dump.py:OptimDump.update_grad_log", "src/qutip_qtrl/dump.py:DynamicsDump.add_evo_dump", "src/qutip_qtrl/dump.py:DynamicsDump.add_evo_comp_summary"]}
{"id": "C36", "title": "Dumped evolution files contain the operators they are labelled with", "statement": "Each section of a written evolution dump contains the operators of that name, all of them and in slot order.", "quantifier": "every evolution dump with any subset of categories", "why_tests_cant": "Content of files for arbitrary subsets of options.", "anchors": ["src/qutip_qtrl/dump.py:EvoCompDumpItem.writeout"]}
{"id": "C37", "title": "Dump level determines what is recorded", "statement": "Setting level SUMMARY / FULL enables exactly the documented categories; CUSTOM leaves the individually set flags; unknown levels are rejected without changing the state.", "quantifier": "every level value and flag combination and every history of level changes", "why_tests_cant": "Setter order and case handling.", "anchors": ["src/qutip_qtrl/dump.py:Dump.level", "src/qutip_qtrl/dump.py:OptimDump._apply_level", "src/qutip_qtrl/dump.py:DynamicsDump._apply_level"]}
{"id": "C38", "title": "Write-through dumping yields the same files as writing out at the end", "statement": "Writing each record as it occurs gives the same file contents as a single writeout of the accumulated records, with column headers matching the value columns.", "quantifier": "every history of records", "why_tests_cant": "Equality of two write paths for all histories.", "anchors": ["src/qutip_qtrl/dump.py:OptimDump.writeout", "src/qutip_qtrl/dump.py:OptimDump.update_fid_err_log", "src/qutip_qtrl/dump.py:DumpSummaryItem"]}
{"id": "C39", "title": "GRAPE amplitudes stay within u_limits", "statement": "Every amplitude of every iteration after the first returned by the stand-alone GRAPE functions is within u_limits, and so is the first if a start pulse is given.", "quantifier": "every number of iterations, controls, times, gradients and limits with low <= high", "why_tests_cant": "All iterations and arbitrary gradients.", "anchors": ["src/qutip_qtrl/grape.py:grape_unitary", "src/qutip_qtrl/grape.py:cy_grape_unitary", "src/qutip_qtrl/grape.py:grape_unitary_adaptive", "src/qutip_qtrl/cy_grape.py:cy_grape_inner"]}
{"id": "C40", "title": "The two GRAPE implementations agree", "statement": "grape_unitary and cy_grape_unitary produce the same amplitude sequence for the same inputs.", "quantifier": "every input, including penalty parameters alpha and beta", "why_tests_cant": "Equivalence of two programs.", "anchors": ["src/qutip_qtrl/grape.py:grape_unitary", "src/qutip_qtrl/cy_grape.py:cy_grape_inner"]}
{"id": "C41", "title": "GRAPE's reported propagator belongs to its reported pulse", "statement": "The final propagator U_f returned by the stand-alone GRAPE functions is the propagator of the returned final control amplitudes.", "quantifier": "every input", "why_tests_cant": "Off-by-one in the iteration index is invisible near convergence.", "anchors": ["src/qutip_qtrl/grape.py:grape_unitary", "src/qutip_qtrl/grape.py:cy_grape_unitary", "src/qutip_qtrl/grape.py:grape_unitary_adaptive"]}
{"id": "C42", "title": "Adaptive GRAPE never loses ground", "statement": "The best overlap kept by the adaptive GRAPE never decreases from iteration to iteration and the three trial step sizes keep their fixed ratios, the largest-overlap candidate being the one continued from.", "quantifier": "every number of iterations and every overlap sequence", "why_tests_cant": "All runs.", "anchors": ["src/qutip_qtrl/grape.py:grape_unitary_adaptive"]}
{"id": "C43", "title": "Parameter files are applied section by section, type-preservingly", "statement": "Loading a parameter file sets exactly the existing attributes named in the section, converted to the type of their current value; unknown attributes are reported and not created; an error in one section does not prevent the others.", "quantifier": "every parameter file and object attribute state", "why_tests_cant": "All files.", "anchors": ["src/qutip_qtrl/loadparams.py:load_parameters", "src/qutip_qtrl/loadparams.py:set_param"]}
{"id": "C44", "title": "Directory creation reports success iff the directory exists afterwards", "statement": "create_dir returns success exactly if a directory at the resolved path is available afterwards, never touching an existing file.", "quantifier": "every path state and operating-system outcome", "why_tests_cant": "File-system states and errors.", "anchors": ["src/qutip_qtrl/io.py:create_dir", "src/qutip_qtrl/dump.py:Dump.dump_dir"]}
{"id": "C45", "title": "Every accepted configuration yields a matching set of components", "statement": "create_pulse_optimizer either raises a usage error or returns an optimizer whose dynamics, propagator, fidelity, timeslot and pulse-generator classes are the ones requested (documented defaults otherwise), with one CRAB generator per control.", "quantifier": "every combination of alg, optim_method, dyn_type, prop_type, fid_type, pulse type strings in any letter case", "why_tests_cant": "Hundreds of string combinations.", "anchors": ["src/qutip_qtrl/pulseoptim.py:create_pulse_optimizer", "src/qutip_qtrl/pulsegen.py:create_pulse_gen", "src/qutip_qtrl/dynamics.py:Dynamics._create_computers"]}
{"id": "C46", "title": "High-level entry points honour all their parameters", "statement": "optimize_pulse, optimize_pulse_unitary, opt_pulse_crab and opt_pulse_crab_unitary forward every documented parameter to the optimiser they build, in any letter case of alg, and apply zero-valued bounds like any other bound; a parameter left out takes its documented default.", "quantifier": "every parameter value", "why_tests_cant": "Dropped arguments are silent.", "anchors": ["src/qutip_qtrl/pulseoptim.py:optimize_pulse", "src/qutip_qtrl/pulseoptim.py:optimize_pulse_unitary", "src/qutip_qtrl/pulseoptim.py:opt_pulse_crab", "src/qutip_qtrl/pulseoptim.py:opt_pulse_crab_unitary"]}
{"id": "C47", "title": "Deprecated keyword arguments never override explicit dictionary entries", "statement": "A deprecated keyword fills in the corresponding entry of method_params / fid_params only if the caller has not set that entry, and caller dictionaries are not modified across calls.", "quantifier": "every dictionary content, keyword value and sequence of calls sharing dictionaries", "why_tests_cant": "Mutation shows only in later calls.", "anchors": ["src/qutip_qtrl/pulseoptim.py:create_pulse_optimizer", "src/qutip_qtrl/pulseoptim.py:optimize_pulse", "src/qutip_qtrl/pulseoptim.py:opt_pulse_crab"]}
{"id": "C48", "title": "Controls and drift are validated before use", "statement": "A controls container is accepted exactly if it is a list of operators or a rectangular (slots x controls) nested list or array of operators; the number of controls used after every initialisation is the length of the list or the number of columns; anything else is rejected with an exception.", "quantifier": "every container shape and content", "why_tests_cant": "All shapes.", "anchors": ["src/qutip_qtrl/dynamics.py:_check_ctrls_container", "src/qutip_qtrl/dynamics.py:_check_drift_dyn_gen", "src/qutip_qtrl/dynamics.py:Dynamics._get_num_ctrls"]}
{"id": "C49", "title": "Summary statistics are the averages they claim to be", "statement": "Calculated statistics satisfy mean = total / number (nan when nothing was counted) and the categorised wall times add up to at most the total.", "quantifier": "every statistics content including zero counts", "why_tests_cant": "Zero counts and all combinations.", "anchors": ["src/qutip_qtrl/stats.py:Stats.calculate", "src/qutip_qtrl/stats.py:StatsDynTsUpdate.calculate"]}
{"id": "C50", "title": "Combined generator and Hamiltonian mapping", "statement": "The generator of slot k is drift(k) + sum_j amps[k,j].ctrl_j(k), linear in the amplitudes; setting Hamiltonians or dynamics generators on unitary dynamics is interchangeable.", "quantifier": "every slot, number of controls, time-dependent or constant drift and controls", "why_tests_cant": "All amplitudes and container kinds.", "anchors": ["src/qutip_qtrl/dynamics.py:Dynamics._combine_dyn_gen", "src/qutip_qtrl/dynamics.py:DynamicsUnitary._map_dyn_gen_to_ham", "src/qutip_qtrl/dynamics.py:DynamicsUnitary"]}
{"id": "C51", "title": "Phase application of symplectic dynamics takes effect as documented", "statement": "After setting phase_application to preop or postop, in any letter case the setter accepts and whatever was read before, initialisation succeeds and the generators are phased as Omega.G (preop) or G.(-Omega) (postop).", "quantifier": "every sequence of phase_application settings, reads of dyn_gen_phase and initialisations", "why_tests_cant": "Depends on the order of reads and writes and on letter case.", "anchors": ["src/qutip_qtrl/dynamics.py:DynamicsSymplectic.dyn_gen_phase", "src/qutip_qtrl/dynamics.py:DynamicsSymplectic._set_phase_application", "src/qutip_qtrl/dynamics.py:Dynamics._config_phase_application"]}
{"id": "C52", "title": "GRAPE steps follow the gradient", "statement": "Each iteration of the stand-alone GRAPE changes every amplitude by the step size times the derivative, with respect to that amplitude, of the overlap with the target (its real part if phase sensitive, its squared modulus otherwise) less the penalties for large and late amplitudes, limited to u_limits.", "quantifier": "every system, pulse, iteration, control and slot", "why_tests_cant": "Sign, factor and index errors in the gradient still converge on easy problems.", "anchors": ["src/qutip_qtrl/grape.py:grape_unitary", "src/qutip_qtrl/cy_grape.py:cy_grape_inner"]}
{"id": "C53", "title": "Gaussian pulses have the documented profile", "statement": "A Gaussian pulse is, at the start of every slot, the normal density with the configured mean and variance scaled to the peak value scaling, plus the offset; a Gaussian-edge pulse starts and ends at zero and is one in between (times scaling), the ramps taking about the decay time.", "quantifier": "every mean, variance, decay time, pulse time, slot durations, scaling and offset", "why_tests_cant": "Profiles over all slot grids and parameters; wrong factors still look like a bell.", "anchors": ["src/qutip_qtrl/pulsegen.py:PulseGenGaussian.gen_pulse", "src/qutip_qtrl/pulsegen.py:PulseGenGaussianEdge.gen_pulse"]}
{"id": "C54", "title": "The CRAB pulse is the documented series", "statement": "A CRAB generator has the number of coefficients asked for (or estimated from the dimension), starts from the given or random coefficients and frequencies near the harmonics of the pulse time, and its pulse is for every coefficient array the Fourier series at the slot starts, combined with the guess pulse (added or modulated), times the ramping pulse, squashed into the bounds; with zero coefficients the guess pulse is reproduced.", "quantifier": "every number of coefficients, coefficient array, guess and ramping pulse, bounds and slot grid", "why_tests_cant": "All coefficient vectors and combinations of guess, ramp and bounds.", "anchors": ["src/qutip_qtrl/pulsegen.py:PulseGenCrab.init_coeffs", "src/qutip_qtrl/pulsegen.py:PulseGenCrabFourier.init_freqs", "src/qutip_qtrl/pulsegen.py:PulseGenCrabFourier.gen_pulse", "src/qutip_qtrl/pulsegen.py:PulseGenCrab.init_guess_pulse"]}
{"id": "C55", "title": "Parameter dictionaries configure objects as given", "statement": "After construction, apply_params(d) or reset(), every attribute named in the parameters has the value given there and every other configuration attribute its documented default, with the defaults that are fractions of the pulse time following the pulse time in force; apply_params with nothing to apply changes nothing, and reset restores the state after construction.", "quantifier": "every pulse generator, propagator computer, timeslot computer and fidelity computer class, every dictionary and every history of assignments, apply_params and reset", "why_tests_cant": "Orders of assignment in constructor chains over all dictionaries and histories.", "anchors": ["src/qutip_qtrl/pulsegen.py:PulseGen.reset", "src/qutip_qtrl/pulsegen.py:PulseGen.apply_params", "src/qutip_qtrl/pulsegen.py:PulseGenCrabFourier.reset", "src/qutip_qtrl/propcomp.py:PropagatorComputer.apply_params", "src/qutip_qtrl/fidcomp.py:FidelityComputer.reset", "src/qutip_qtrl/tslotcomp.py:TimeslotComputer.apply_params"]}
{"id": "C56", "title": "Log levels and messages", "statement": "Every component of a created optimiser has the log level asked for (or, if none is asked for, that of the settings), a level in the parameters of a component is that component's level, the level set on an object is its own until set again, and each message that reaches the level is shown exactly once.", "quantifier": "every requested level, settings, order of imports and history of assignments and creations", "why_tests_cant": "Global state shared by all objects of a process; depends on the whole history.", "anchors": ["src/qutip_qtrl/logging_utils.py:get_logger", "src/qutip_qtrl/pulseoptim.py:create_pulse_optimizer", "src/qutip_qtrl/dynamics.py:Dynamics.log_level", "src/qutip_qtrl/optimconfig.py:OptimConfig.reset"]}
{"id": "C57", "title": "Exceptions can be shown and end up in the right flag", "statement": "Every exception of the library can be turned into text that contains its message; the exception that ends an optimisation sets exactly the flag of its condition in the result with a reason belonging to that condition only; usage errors are never taken for the end of an optimisation.", "quantifier": "every exception class and argument", "why_tests_cant": "The text of the terminating exceptions is never requested while they are caught.", "anchors": ["src/qutip_qtrl/errors.py:Error.__str__", "src/qutip_qtrl/errors.py:GoalAchievedTerminate", "src/qutip_qtrl/optimizer.py:Optimizer._interpret_term_exception"]}
{"id": "C58", "title": "Saved amplitudes are the amplitudes", "statement": "Saving amplitudes writes one line for each slot with its start time (unless excluded) and its amplitudes, each number correct to six significant digits, to the named or default file and to no other; optimize_pulse with a file extension leaves the initial and the final amplitudes in two files; a save that fails is reported to the caller.", "quantifier": "every pulse, slot grid, file name, times and amplitudes argument", "why_tests_cant": "Precision over all numbers, and the failure paths are swallowed.", "anchors": ["src/qutip_qtrl/dynamics.py:Dynamics.save_amps", "src/qutip_qtrl/dynamics.py:Dynamics.get_amp_times", "src/qutip_qtrl/pulseoptim.py:optimize_pulse"]}
{"id": "C59", "title": "Unitarity checks report what they document and change nothing else", "statement": "With unitarity checks switched on, every recomputation of the evolution warns about exactly the slots whose propagator is not unitary within the tolerance, level 2 also reports on the eigen basis, and neither the check nor the log level changes the computed evolution or makes it fail, for every class of dynamics and propagator computer.", "quantifier": "every system, slot count, amplitude history, check level, tolerance, class and propagator computer", "why_tests_cant": "The check is off by default, and a tolerance is a statement about a continuum of operators.", "anchors": ["src/qutip_qtrl/dynamics.py:Dynamics._is_unitary", "src/qutip_qtrl/dynamics.py:DynamicsUnitary.check_unitarity", "src/qutip_qtrl/tslotcomp.py:TSlotCompUpdateAll.recompute_evolution", "src/qutip_qtrl/dynamics.py:Dynamics._init_evo"]}
{"id": "C60", "title": "Phase settings take effect as accepted and are unchanged when rejected", "statement": "The way a generator phase is applied and the phase option of the unitary fidelity accept exactly their documented values (the former in any case); an accepted value is reported and in effect at once; a rejected one raises and leaves unchanged both what is reported and what is in effect; and every initialisation after accepted settings succeeds.", "quantifier": "every sequence of assignments of accepted and rejected values and of initialisations", "why_tests_cant": "It is about the state after arbitrary sequences of accepted and rejected assignments.", "anchors": ["src/qutip_qtrl/dynamics.py:Dynamics.phase_application", "src/qutip_qtrl/dynamics.py:Dynamics._config_phase_application", "src/qutip_qtrl/fidcomp.py:FidCompUnitary.set_phase_option", "src/qutip_qtrl/fidcomp.py:FidCompUnitary.init_comp"]}
{"id": "C61", "title": "The assigned generator phase is the one the evolution uses", "statement": "With unitary dynamics the phase assigned to the generators is the one in the propagators: after any history each propagator is exp(phase*generator*duration), and the gradients of the exact computers are the derivatives of these propagators with respect to the amplitudes, whichever propagator computer is in use.", "quantifier": "every phase, system, amplitude history, slot and propagator computer", "why_tests_cant": "Only the default phase is exercised; the claim is about all phases and all operators.", "anchors": ["src/qutip_qtrl/dynamics.py:DynamicsUnitary.reset", "src/qutip_qtrl/dynamics.py:DynamicsUnitary._spectral_decomp", "src/qutip_qtrl/propcomp.py:PropCompDiag._compute_propagator", "src/qutip_qtrl/dynamics.py:Dynamics._apply_phase"]}
{"id": "C62", "title": "Public lists of operators can be read for states as for gates", "statement": "Once an evolution was computed, each public list of operators that belongs to it can be read any number of times and shows the operators computed, for gates and for states and for both operator data types, whatever was read before, also before the computation; and the inverse target shown is that of the current target.", "quantifier": "every sequence of target assignments, initialisations, computations and readings, every shape of the initial operator and both data types", "why_tests_cant": "It is about all orders of reading and computing; tests read after one computation of a gate.", "anchors": ["src/qutip_qtrl/dynamics.py:Dynamics.onto_evo", "src/qutip_qtrl/dynamics.py:Dynamics.onwd_evo", "src/qutip_qtrl/dynamics.py:Dynamics.fwd_evo", "src/qutip_qtrl/dynamics.py:Dynamics.onto_evo_target", "src/qutip_qtrl/dynamics.py:Dynamics._init_evo"]}
{"id": "C63", "title": "Deprecated names do what their replacements do", "statement": "Every deprecated method or attribute of the dynamics, propagator, fidelity and timeslot objects that announces a replacement returns, after any history, what the documented quantity is: the forward, onward and onto evolution, the phased generators of a slot and of a control, the propagator and its derivative, the slot used for the overlap and the flags of the fidelity computer; and calling one never disturbs later results.", "quantifier": "all systems, all histories of operations, all slots and controls and all arguments", "why_tests_cant": "The deprecated names are not called by the tests; a name whose call always fails, or is right only for controls that do not depend on time, is only seen by reasoning about every one of them.", "anchors": ["src/qutip_qtrl/dynamics.py:Dynamics.combine_dyn_gen", "src/qutip_qtrl/dynamics.py:Dynamics.get_dyn_gen", "src/qutip_qtrl/dynamics.py:Dynamics.get_ctrl_dyn_gen", "src/qutip_qtrl/dynamics.py:Dynamics.evo_init2t", "src/qutip_qtrl/dynamics.py:Dynamics.evo_t2end", "src/qutip_qtrl/dynamics.py:Dynamics.evo_t2targ", "src/qutip_qtrl/propcomp.py:PropagatorComputer.compute_propagator", "src/qutip_qtrl/propcomp.py:PropagatorComputer.compute_prop_grad", "src/qutip_qtrl/tslotcomp.py:TSlotCompUpdateAll.get_timeslot_for_fidelity_calc", "src/qutip_qtrl/fidcomp.py:FidelityComputer.uses_evo_t2end"]}
{"id": "C64", "title": "The reported evolution and error are those of the solution of the equation of motion", "statement": "For a closed system the final amplitudes, final evolution and fidelity error of the result of an optimisation belong together, and so do the initial ones: the Schroedinger equation with the Hamiltonian that is, in every slot, drift plus amplitudes times controls has a solution starting at the initial object, every solution ends at the reported evolution, and the reported error is the configured error measure of that end.  For any dynamics with exponential propagators the forward evolution is, at every slot boundary and after any history, the value of every solution of the equation of motion.", "quantifier": "all closed systems of any dimension, all numbers of slots and controls and all non-negative durations, all pulses, all propagator computers, all runs of all optimiser classes and all histories before them", "why_tests_cant": "The differential equation and its uniqueness concern a continuum of times and all pulses; tests compare final numbers for a few systems only.", "anchors": ["src/qutip_qtrl/optimizer.py:Optimizer.run_optimization", "src/qutip_qtrl/optimresult.py:OptimResult", "src/qutip_qtrl/dynamics.py:DynamicsUnitary", "src/qutip_qtrl/tslotcomp.py:TSlotCompUpdateAll.recompute_evolution", "src/qutip_qtrl/fidcomp.py:FidCompUnitary", "src/qutip_qtrl/fidcomp.py:FidCompTraceDiff"]}
{"id": "C65", "title": "Dump files are where the settings say", "statement": "The summary, the logs and the gradient files of a dump are in the directory that dump_dir shows, under names formed from fname_base, the kind of file and dump_file_ext, no two of them being the same file; a summary file given by name is in the dump directory unless its path is absolute, with ~ expanded. A host whose dump_to_file is set has a dump after initialisation that writes exactly if its directory is available; assigning the dump_dir of a host creates the dump if needed.", "quantifier": "all histories of assignments to dump_dir, fname_base, dump_file_ext and summary_file and of uses of the files, all file systems, all hosts with or without a dump", "why_tests_cant": "The order of assignments and uses matters because paths are kept from their first use; tests dump once with settings made beforehand.", "anchors": ["src/qutip_qtrl/dump.py:Dump.dump_dir", "src/qutip_qtrl/dump.py:Dump.summary_file", "src/qutip_qtrl/dump.py:Dump.fname_base", "src/qutip_qtrl/dump.py:OptimDump.fid_err_file", "src/qutip_qtrl/dump.py:OptimDump.grad_norm_file", "src/qutip_qtrl/dump.py:OptimDump.update_grad_log", "src/qutip_qtrl/dynamics.py:Dynamics.dump_dir", "src/qutip_qtrl/optimizer.py:Optimizer.dump_dir", "src/qutip_qtrl/optimizer.py:Optimizer.init_optim"]}
{"id": "C66", "title": "The log level changes what is written and nothing else, and what is written is true", "statement": "Whatever the log levels of the modules, a history of operations returns the same results and leaves the same state. A message is written exactly if its severity reaches the level of its module, so a more detailed level adds messages and removes none. The overlap, fidelity, error, gradient, norm and operators in the messages are those of the amplitudes supplied last, the reported number of changed amplitudes is the number of elements that differ, and the summary of the system shows the drift and each control under its number.", "quantifier": "all log levels, all systems, all histories of operations and all amplitudes; all lists of controls of any length, constant or time dependent", "why_tests_cant": "Tests run at one level. Code under a level test is executed at that level only, and an error in it shows only there.", "anchors": ["src/qutip_qtrl/logging_utils.py:DEBUG_INTENSE", "src/qutip_qtrl/dynamics.py:Dynamics.update_ctrl_amps", "src/qutip_qtrl/dynamics.py:Dynamics.compute_evolution", "src/qutip_qtrl/tslotcomp.py:TSlotCompUpdateAll.recompute_evolution", "src/qutip_qtrl/tslotcomp.py:TSlotCompUpdateAll.compare_amps", "src/qutip_qtrl/fidcomp.py:FidCompUnitary.get_fid_err_gradient", "src/qutip_qtrl/fidcomp.py:FidCompTraceDiff.get_fid_err", "src/qutip_qtrl/fidcomp.py:FidCompTraceDiffApprox.compute_fid_err_grad", "src/qutip_qtrl/pulseoptim.py:optimize_pulse"]}
{"id": "C67", "title": "The attributes of a dynamics object are the documented ones, overridden by its parameters", "statement": "After construction or reset of a dynamics object every entry of its dictionary of parameters is the value of its attribute, also where the construction assigns the attribute itself, and every documented attribute not named there has its documented value. Durations given are the durations used; without durations the slots are equal, of the number and the time given. The phase and its application are those given or those of the class. None of this depends on the order of the entries or on what the object held before: a reset object is like a new one. The same values in a parameter file mean the same.", "quantifier": "all three kinds of dynamics and both kinds of time slot computers, all dictionaries of parameters of any length and order, all earlier states of the object, all parameter files with options about the time slots", "why_tests_cant": "Tests construct objects with few parameters. The setters depend on one another and on the state they find, so orders of entries and states before a reset would have to be enumerated.", "anchors": ["src/qutip_qtrl/dynamics.py:Dynamics.reset", "src/qutip_qtrl/dynamics.py:Dynamics.apply_params", "src/qutip_qtrl/dynamics.py:Dynamics._create_computers", "src/qutip_qtrl/dynamics.py:Dynamics.clear", "src/qutip_qtrl/dynamics.py:DynamicsGenMat.reset", "src/qutip_qtrl/dynamics.py:DynamicsUnitary.reset", "src/qutip_qtrl/dynamics.py:DynamicsSymplectic.reset", "src/qutip_qtrl/loadparams.py:set_param"]}
{"id": "C68", "title": "An object prepared for a system does not depend on the systems it was used for before", "statement": "Assigning new operators to a dynamics object and initialising the controls again makes it an object for the new system: its outcome, data type, caching options, number of controls, scale factor, phase and generators are those of a new object with the same options, whatever systems the object was used for before, including failed attempts.", "quantifier": "all systems (drift single or per slot, controls in a list, nested list or array), all options, all histories of assignments, reads of cached attributes and initialisations", "why_tests_cant": "A test reuses an object once, for systems of the same size, and cannot tell apart what was recomputed from what was kept; the histories are unboundedly many.", "anchors": ["src/qutip_qtrl/dynamics.py:Dynamics.initialize_controls", "src/qutip_qtrl/dynamics.py:Dynamics._init_evo", "src/qutip_qtrl/dynamics.py:Dynamics._get_num_ctrls", "src/qutip_qtrl/dynamics.py:Dynamics.refresh_drift_attribs", "src/qutip_qtrl/dynamics.py:Dynamics._choose_oper_dtype", "src/qutip_qtrl/dynamics.py:DynamicsSymplectic._get_omega", "src/qutip_qtrl/fidcomp.py:FidCompTraceDiff.init_comp"]}
{"id": "C69", "title": "Equivalent descriptions of one control problem give equivalent results", "statement": "Writing a closed control problem in another orthonormal basis, with recombined controls (permuted, rescaled, merged, split or partly moved into the drift), in other units of time and energy, on a refined time grid, backwards in time, with another zero of energy (PSU) or beside a system that nothing acts on yields the same fidelity and fidelity error, and gradients related by the corresponding chain rule.", "quantifier": "all dimensions, numbers of slots and controls, durations, amplitudes and operation histories of both objects, all unitary changes of basis, all real recombinations, cuts and energy shifts", "why_tests_cant": "A test compares a few descriptions numerically up to a tolerance; equality for every change of description, and the exact relation of the gradients, is an infinite family of identities between two runs.", "anchors": ["src/qutip_qtrl/dynamics.py:Dynamics.compute_evolution", "src/qutip_qtrl/dynamics.py:Dynamics._combine_dyn_gen", "src/qutip_qtrl/fidcomp.py:FidCompUnitary.get_fid_err", "src/qutip_qtrl/fidcomp.py:FidCompUnitary.get_fid_err_gradient", "src/qutip_qtrl/fidcomp.py:FidCompTraceDiff.get_fid_err", "src/qutip_qtrl/fidcomp.py:FidCompTraceDiff.get_fid_err_gradient", "src/qutip_qtrl/propcomp.py:PropCompDiag", "src/qutip_qtrl/propcomp.py:PropCompFrechet", "src/qutip_qtrl/tslotcomp.py:TSlotCompUpdateAll.recompute_evolution"]}
{"id": "C70", "title": "The printed report shows the statistics", "statement": "The report of the statistics shows every statistic exactly once under its own text: times to the nearest microsecond in the announced form HH:MM:SS.US, the share of each part in the total to the nearest hundredth of a percent whenever a total is known, counts and means as they are. The shares add up to at most a hundred percent up to rounding. The report of the dynamic update mode contains the lines of the ordinary report in the same order and the further counts and means.", "quantifier": "all values of the statistics, all times, both documented names of the generators, all ways to print a float", "why_tests_cant": "A test prints the report of one short run; whether every time can be read back from its text and no line can be taken for another is a statement about all values.", "anchors": ["src/qutip_qtrl/stats.py:Stats.report", "src/qutip_qtrl/stats.py:Stats.report_timings", "src/qutip_qtrl/stats.py:Stats.report_func_calls", "src/qutip_qtrl/stats.py:Stats.report_amp_updates", "src/qutip_qtrl/stats.py:StatsDynTsUpdate.report", "src/qutip_qtrl/stats.py:Stats._format_datetime"]}
{"id": "C71", "title": "The evolution of an open system maps states to states", "statement": "With general dynamics, a Lindblad generator as drift and Hamiltonian controls (or dissipative controls with amplitudes that are not negative), every propagator and every propagation is completely positive and preserves the trace, an initial density matrix stays one at every time, and the reported trace-difference error lies between zero and a known bound: with the default scale factor at most one for a gate given as a channel, and at most one over the number of entries of a density matrix for a transfer between states.", "quantifier": "all dimensions, Hamiltonians, collapse operators, numbers of slots and controls, durations, amplitudes and operation histories, and all ancillary systems", "why_tests_cant": "Complete positivity quantifies over all states of all composite systems, and the amplitudes range over a continuum; a test checks a few states numerically up to a tolerance.", "anchors": ["src/qutip_qtrl/dynamics.py:DynamicsGenMat", "src/qutip_qtrl/dynamics.py:Dynamics.compute_evolution", "src/qutip_qtrl/dynamics.py:Dynamics._combine_dyn_gen", "src/qutip_qtrl/propcomp.py:PropCompFrechet", "src/qutip_qtrl/propcomp.py:PropCompAugMat", "src/qutip_qtrl/propcomp.py:PropCompApproxGrad", "src/qutip_qtrl/tslotcomp.py:TSlotCompUpdateAll.recompute_evolution", "src/qutip_qtrl/fidcomp.py:FidCompTraceDiff.get_fid_err"]}
{"id": "C72", "title": "The kinds of dynamics agree on a problem that can be written for each", "statement": "A closed system can be given to unitary dynamics by its Hamiltonians H, to general dynamics by the generators -iH, and to general dynamics by superoperators (commutators with H, initial and target objects acting from both sides). With the same amplitudes the first two report the same evolution, fidelity, error and gradient. The third evolves by the same evolution applied from both sides; its trace difference error with the default scale factor is 1-(1-e)^2 for gates and that over the squared dimension for states, where e is the error of the closed problem up to a global phase, and its gradient is the corresponding multiple of the other. A symplectic problem given by quadratic forms reports the same as general dynamics with the phased generators, and its two phase applications are each other's transpose with the slots in reverse order.", "quantifier": "all systems, dimensions, numbers of slots and controls, amplitudes, and histories of operations on the two objects; all inputs", "why_tests_cant": "Relates runs of different classes for all inputs; tests compare at most a few numbers of one class.", "anchors": ["src/qutip_qtrl/dynamics.py:DynamicsGenMat", "src/qutip_qtrl/dynamics.py:DynamicsUnitary", "src/qutip_qtrl/dynamics.py:DynamicsSymplectic", "src/qutip_qtrl/dynamics.py:Dynamics._get_onto_evo_target", "src/qutip_qtrl/fidcomp.py:FidCompTraceDiff", "src/qutip_qtrl/fidcomp.py:FidCompUnitary"]}
{"id": "C73", "title": "A step against the reported gradient lowers the reported error", "statement": "After any history, submitting the current amplitudes minus any small enough multiple of the reported gradient makes the object report a smaller error, unless the gradient is zero, and so does a small step in any direction whose inner product with the reported gradient is negative; this holds also where the overlap is zero. Where the reported error is zero the reported gradient is zero, and the slope of the reported error in every direction is the inner product of the direction with the gradient (for the phase-insensitive measure: wherever the overlap is not zero).", "quantifier": "every closed system (gates and states, with and without global phase, and the distance measure), every system given by general generators and every symplectic system, every history of operations, every direction", "why_tests_cant": "The gradient is compared with difference quotients of single amplitudes at a few points only; that the whole array is a descent direction at every point, including the points where the measure has a kink, cannot be sampled.", "anchors": ["src/qutip_qtrl/fidcomp.py:FidCompUnitary.get_fid_err_gradient", "src/qutip_qtrl/fidcomp.py:FidCompUnitary.compute_fid_grad", "src/qutip_qtrl/fidcomp.py:FidCompTraceDiff.compute_fid_err_grad", "src/qutip_qtrl/dynamics.py:Dynamics.update_ctrl_amps"]}
{"id": "C74", "title": "Small deviations of the pulse and of the system change the reported error by little", "statement": "For closed systems with orthonormal initial and target objects, the forward evolutions and the errors reported for two pulses on two systems that share slots, initial and target object differ by no more than the sum over the slots of the spectral norms of the differences of Hamiltonian times duration (times one for the unitary measure, a fixed factor for the trace difference), whatever the histories of the objects.  In particular amplitudes that are changed, or saved to a file and read back, change the error by no more than durations times amplitude differences times control strengths, and an apparatus whose Hamiltonian stays close to the modelled one ends up close to the reported object.", "quantifier": "all closed systems, pulses, perturbations, fluctuating Hamiltonians, histories and measures", "why_tests_cant": "A test can perturb only a few pulses and cannot exclude that a tiny change is amplified for others.", "anchors": ["src/qutip_qtrl/dynamics.py:Dynamics._init_evo", "src/qutip_qtrl/tslotcomp.py:TSlotCompUpdateAll.recompute_evolution", "src/qutip_qtrl/propcomp.py:PropCompDiag._compute_propagator", "src/qutip_qtrl/fidcomp.py:FidCompUnitary.get_fid_err", "src/qutip_qtrl/fidcomp.py:FidCompTraceDiff.get_fid_err", "src/qutip_qtrl/dynamics.py:Dynamics.save_amps"]}
{"id": "C75", "title": "Finer slots approach the continuous pulse", "statement": "If the amplitudes of a closed system are samples, one in each slot, of a pulse that changes at a bounded rate, then the reported evolution and error differ from those of the continuous pulse, whose equation of motion has a solution, by no more than the sum of the squared durations times rates times control strengths.  With n equal slots the reported error converges to that of the continuous pulse like 1/n.  This holds in particular for the pulses made by the sine generator.", "quantifier": "all closed systems, rates, pulses, ways of sampling, numbers of slots, histories and settings of sine generators", "why_tests_cant": "Convergence is a statement about all numbers of slots and about solutions of a differential equation that no test computes exactly.", "anchors": ["src/qutip_qtrl/tslotcomp.py:TSlotCompUpdateAll.recompute_evolution", "src/qutip_qtrl/propcomp.py:PropCompDiag._compute_propagator", "src/qutip_qtrl/fidcomp.py:FidCompUnitary.get_fid_err", "src/qutip_qtrl/fidcomp.py:FidCompTraceDiff.get_fid_err", "src/qutip_qtrl/pulsegen.py:PulseGenSine.gen_pulse"]}
{"id": "C76", "title": "Plots of GRAPE control fields show the fields that were applied", "statement": "plot_grape_control_fields succeeds exactly if u is not empty, there are as many times as amplitudes and a label for each control. It then draws one axis per control, with its label, and on it one line per iteration in order, the last one emphasised, through that iteration's amplitudes over the times; with uniform_axes all axes get the same symmetric scale, the smallest that contains all amplitudes. At each time a line shows the amplitude that GRAPE applies at that time.", "quantifier": "every control pulse matrix of any shape, every list of times and labels", "why_tests_cant": "A plot is judged by eye; a shift by one slot in a fine pulse cannot be seen.", "anchors": ["src/qutip_qtrl/grape.py:plot_grape_control_fields", "src/qutip_qtrl/grape.py:grape_unitary"]}
{"id": "C77", "title": "GRAPE's propagator is the evolution over the given times", "statement": "The final propagator returned by the stand-alone GRAPE functions is the solution, at the last of the given times, of the Schr\u00f6dinger equation started with the identity at the first, under amplitudes each of which applies from its time to the next.", "quantifier": "every list of ascending times, every Hamiltonian, any number of iterations", "why_tests_cant": "Tests use equally spaced times and compare with no independent solution of the equation.", "anchors": ["src/qutip_qtrl/grape.py:grape_unitary", "src/qutip_qtrl/grape.py:cy_grape_unitary", "src/qutip_qtrl/grape.py:grape_unitary_adaptive"]}
{"id": "C78", "title": "At the best pulse within the bounds the reported gradient asks for no change the bounds allow", "statement": "If no pulse within the amplitude bounds and close to the current one is reported with a smaller error, then the reported gradient is not negative wherever the amplitude could still be raised, not positive wherever it could still be lowered, and zero where it is strictly between its bounds. This holds for the unitary measure with exact or exponential-derivative gradients and for the trace difference measure.", "quantifier": "all closed systems and all dynamics generators with exponential propagators, all amplitudes and bounds (also infinite), all earlier histories of the object", "why_tests_cant": "An optimiser run in a test ends near an optimum, never at one, so no test can observe the gradient there; a sign error in one entry still lets many runs converge.", "anchors": ["src/qutip_qtrl/fidcomp.py:FidCompUnitary.get_fid_err_gradient", "src/qutip_qtrl/fidcomp.py:FidCompTraceDiff.get_fid_err_gradient", "src/qutip_qtrl/dynamics.py:Dynamics.update_ctrl_amps", "src/qutip_qtrl/optimizer.py:Optimizer.init_optim"]}
{"id": "C79", "title": "A goal out of reach in the time available is not reported as achieved", "statement": "For a closed system the reported error is below the error reported without a pulse by no more than the sum over all slots and controls of slot duration, amplitude limit and strength of the control (times the factor of the measure), whatever the drift. So reaching a smaller error takes a minimal time, and when every point the minimiser tries is within the limits and the target error is below that reach, the result does not say that the goal was achieved.", "quantifier": "all closed systems, all amplitude limits, all minimisers and sequences of calls, all earlier histories of the object", "why_tests_cant": "A test can run one optimisation that fails; it cannot show that no pulse within the limits, and no behaviour of the minimiser, makes the library report a success that physics forbids.", "anchors": ["src/qutip_qtrl/fidcomp.py:FidCompUnitary.get_fid_err", "src/qutip_qtrl/fidcomp.py:FidCompTraceDiff.get_fid_err", "src/qutip_qtrl/optimizer.py:Optimizer.run_optimization", "src/qutip_qtrl/optimizer.py:Optimizer.fid_err_func_wrapper", "src/qutip_qtrl/propcomp.py:PropCompDiag._compute_propagator"]}
{"id": "C80", "title": "Settings have their documented names, defaults and effect", "statement": "A new optimisation configuration, set of termination conditions or optimiser has every documented attribute at its documented default unless the parameters given name another value; a reset restores this after any history; assigning to the documented attribute, or giving it in a parameter file, has the documented effect. Bounds of the configuration are taken over by the optimiser.", "quantifier": "every class, configuration, parameter dictionary, parameter file and history of assignments, parameter updates and resets", "why_tests_cant": "Which assignment comes last depends on the class and on every attribute name; tests use a few settings.", "anchors": ["src/qutip_qtrl/optimconfig.py:OptimConfig.reset", "src/qutip_qtrl/termcond.py:TerminationConditions.reset", "src/qutip_qtrl/optimizer.py:Optimizer.reset", "src/qutip_qtrl/optimizer.py:OptimizerLBFGSB.reset", "src/qutip_qtrl/optimizer.py:OptimizerCrabFmin.reset"]}
{"id": "C81", "title": "Every accepted combination of components can compute", "statement": "Whatever combination of dynamics, propagator computer and fidelity computer the creating functions accept, the optimiser built from it can compute the fidelity error, and for a gradient based algorithm the gradient, at any amplitudes and after any sequence of earlier requests; combinations that cannot are rejected when they are created. The combinations chosen by default always work.", "quantifier": "all types of dynamics, propagator and fidelity computers, all systems with at least one slot and control, all amplitudes, all sequences of requests", "why_tests_cant": "There are 36 combinations of classes, and whether one works depends on which methods a class inherits without implementing; the failure appears only at the first computation, with caching settings deciding the exception.", "anchors": ["src/qutip_qtrl/pulseoptim.py:create_pulse_optimizer", "src/qutip_qtrl/dynamics.py:Dynamics._spectral_decomp", "src/qutip_qtrl/propcomp.py:PropagatorComputer._compute_prop_grad", "src/qutip_qtrl/propcomp.py:PropagatorComputer._compute_diff_prop", "src/qutip_qtrl/fidcomp.py:FidCompTraceDiffApprox.compute_fid_err_grad"]}
{"id": "C82", "title": "Requests are answered for the system and amplitudes in place, or refused", "statement": "At every moment of the life of an initialised dynamics object a request for the evolution, the fidelity error or the gradient is answered with the value for the system and the amplitudes in place, or raises an exception. An array of amplitudes that does not have one row per time slot and one column per control is refused when it is supplied. An initialisation that raises an exception leaves an object that refuses requests until it is initialised successfully (or leaves it as it was).", "quantifier": "all systems, all two-dimensional arrays of any shape, all sequences of initialisations (failing or not, for changing systems), updates and requests, both fidelity computers", "why_tests_cant": "shapes and the moments at which an initialisation can fail combine freely with the caches that happen to be current; tests only use arrays of the right shape and initialisations that succeed", "anchors": ["src/qutip_qtrl/dynamics.py:Dynamics.initialize_controls", "src/qutip_qtrl/dynamics.py:Dynamics.update_ctrl_amps", "src/qutip_qtrl/dynamics.py:Dynamics.check_ctrls_initialized", "src/qutip_qtrl/dynamics.py:Dynamics.compute_evolution", "src/qutip_qtrl/tslotcomp.py:TSlotCompUpdateAll.compare_amps", "src/qutip_qtrl/tslotcomp.py:TSlotCompUpdateAll.recompute_evolution", "src/qutip_qtrl/fidcomp.py:FidelityComputer.get_fid_err", "src/qutip_qtrl/fidcomp.py:FidelityComputer.get_fid_err_gradient"]}
{"id": "C83", "title": "A pulse may be applied, evaluated and planned in stages", "statement": "A pulse cut into any number of stages, each applied by an optimisation object of its own that starts in what the stage before it reached, leads to the object the whole pulse leads to. The last of these objects reports the fidelity, the error and, slot by slot, the gradient of the whole pulse, or ends with the same exception. For closed systems the first part with the target pulled back through the rest does so too, and a transfer planned through intermediate targets has an error whose square root is at most the sum of the square roots of the errors of the stages.", "quantifier": "all dimensions, numbers and lengths of stages, generators, durations, amplitudes, intermediate targets, measures and operation histories of all the objects", "why_tests_cant": "A test cuts one pulse at one place and compares up to a tolerance; that no way of cutting matters is a statement about runs of arbitrarily many objects.", "anchors": ["src/qutip_qtrl/dynamics.py:Dynamics.compute_evolution", "src/qutip_qtrl/tslotcomp.py:TSlotCompUpdateAll.recompute_evolution", "src/qutip_qtrl/fidcomp.py:FidCompUnitary.get_fid_err", "src/qutip_qtrl/fidcomp.py:FidCompUnitary.get_fid_err_gradient", "src/qutip_qtrl/fidcomp.py:FidCompTraceDiff.get_fid_err", "src/qutip_qtrl/fidcomp.py:FidCompTraceDiff.get_fid_err_gradient"]}
{"id": "C84", "title": "Equivalent descriptions for every kind of dynamics", "statement": "For open systems, systems with given generators and symplectic systems, too, recombining the controls (permuted, rescaled, merged, split or partly moved into the drift), changing the units of time, cutting a time slot in two with repeated amplitudes and changing the orthonormal basis leave the evolution (up to the basis), the fidelity and the fidelity error as they are, and the gradients are related by the corresponding chain rule.", "quantifier": "all dimensions, numbers of slots and controls, generators, durations, amplitudes, measures and operation histories of both objects, all real recombinations, cuts and unitary changes of basis", "why_tests_cant": "A test compares a few descriptions numerically up to a tolerance; equality for every change of description, and the exact relation of the gradients, is an infinite family of identities between two runs.", "anchors": ["src/qutip_qtrl/dynamics.py:Dynamics.compute_evolution", "src/qutip_qtrl/dynamics.py:DynamicsGenMat", "src/qutip_qtrl/dynamics.py:DynamicsSymplectic", "src/qutip_qtrl/dynamics.py:Dynamics._combine_dyn_gen", "src/qutip_qtrl/fidcomp.py:FidCompTraceDiff.get_fid_err", "src/qutip_qtrl/fidcomp.py:FidCompTraceDiff.get_fid_err_gradient", "src/qutip_qtrl/fidcomp.py:FidCompUnitary.get_fid_err", "src/qutip_qtrl/propcomp.py:PropCompFrechet", "src/qutip_qtrl/propcomp.py:PropCompAugMat", "src/qutip_qtrl/tslotcomp.py:TSlotCompUpdateAll.recompute_evolution"]}
{"id": "C85", "title": "Small deviations change the reported error by little in every kind of dynamics", "statement": "For any two systems of whatever dynamics (open, lossy, symplectic or closed) with the same slots, initial and target objects, the forward evolutions differ at every slot by no more than the sum of the spectral norms of the differences of the propagator exponents, times the growth the generators allow (none for closed and lossy systems, at most the exponential of the norms of the exponents) and the size of the initial object. The reported errors (their square roots for the trace difference) differ by no more than a fixed factor of the measure times this, whatever the histories of the objects. For two pulses on one system the exponents differ by no more than durations times amplitude differences times control strengths.", "quantifier": "all dimensions, generators, pulses, growth rates, measures and operation histories of both objects", "why_tests_cant": "A test can perturb only a few pulses and cannot exclude that a tiny change is amplified for others.", "anchors": ["src/qutip_qtrl/dynamics.py:Dynamics.compute_evolution", "src/qutip_qtrl/dynamics.py:DynamicsGenMat", "src/qutip_qtrl/tslotcomp.py:TSlotCompUpdateAll.recompute_evolution", "src/qutip_qtrl/propcomp.py:PropCompFrechet._compute_prop_grad", "src/qutip_qtrl/fidcomp.py:FidCompTraceDiff.get_fid_err", "src/qutip_qtrl/fidcomp.py:FidCompUnitary.get_fid_err"]}
{"id": "C86", "title": "Finer slots approach the continuous pulse in every kind of dynamics", "statement": "If the amplitudes are samples, one in each slot, of a pulse that changes at a bounded rate, then for Hamiltonian, dissipative and symplectic dynamics alike the reported evolution at every slot boundary differs from the motion under the continuous pulse, which exists, by no more than the sum of the squared durations times rates times control strengths, times the growth the generators allow and the size of the initial object.  The reported error follows accordingly with either measure, and with ever more equal slots it converges to the error of the continuous pulse.  The same holds for an apparatus whose generator depends on time in any way and stays close to the generator of each slot.", "quantifier": "all systems of every kind of dynamics, growth rates, pulses, ways of sampling, numbers of slots, histories and both measures", "why_tests_cant": "Convergence is a statement about all numbers of slots and about solutions of a differential equation that no test computes exactly.", "anchors": ["src/qutip_qtrl/tslotcomp.py:TSlotCompUpdateAll.recompute_evolution", "src/qutip_qtrl/propcomp.py:PropCompFrechet._compute_propagator", "src/qutip_qtrl/propcomp.py:PropCompDiag._compute_propagator", "src/qutip_qtrl/fidcomp.py:FidCompTraceDiff.get_fid_err", "src/qutip_qtrl/fidcomp.py:FidCompUnitary.get_fid_err"]}
{"id": "C87", "title": "Results belong together, and goals out of reach are not achieved, in every kind of dynamics", "statement": "Also for open, lossy and symplectic systems the amplitudes, evolution and error of the result of an optimisation belong together, initially and finally: the equation of motion with the generators under the pulse has a solution, every solution ends at the reported evolution, and the reported error is the configured measure of that end.  On the scale of distances (trace difference) or of errors (overlap) the reported error is below the one without a pulse by no more than what durations, amplitudes, control strengths and the growth of the generators allow, however strong the drift; if the target error is further away than that for all points the minimiser tries, the result does not say that the goal was achieved.", "quantifier": "all systems of every kind of dynamics, optimiser classes, minimiser behaviours, termination conditions, histories, amplitude limits and growth rates", "why_tests_cant": "The minimiser may try any sequence of points; a test follows one, and none decides that no pulse reaches the goal.", "anchors": ["src/qutip_qtrl/optimizer.py:Optimizer.run_optimization", "src/qutip_qtrl/optimizer.py:Optimizer._add_common_result_attribs", "src/qutip_qtrl/tslotcomp.py:TSlotCompUpdateAll.recompute_evolution", "src/qutip_qtrl/fidcomp.py:FidCompTraceDiff.get_fid_err", "src/qutip_qtrl/fidcomp.py:FidCompUnitary.get_fid_err"]}
{"id": "C88", "title": "Operators given slot by slot are given for every slot", "statement": "When the drift is given as a list, or the controls as an array with one row per slot, an accepted initialisation should mean that there is one entry for each slot: every slot then has the documented generator. Fewer or more entries than slots should be refused.", "quantifier": "all drifts and controls of one kind, all numbers of slots and controls, all earlier uses of the object, all options", "why_tests_cant": "Tests give lists of the right length; a list that is too short fails only in the slot that it does not reach, and one that is too long never fails, so the mismatch can only be seen by relating the length to the number of slots for all of them.", "anchors": ["src/qutip_qtrl/dynamics.py:Dynamics._init_evo", "src/qutip_qtrl/dynamics.py:_check_drift_dyn_gen", "src/qutip_qtrl/dynamics.py:Dynamics._combine_dyn_gen", "src/qutip_qtrl/dynamics.py:Dynamics.refresh_drift_attribs"]}
{"id": "C89", "title": "A small reported gradient norm means that no direction promises more", "statement": "When a result says that the minimum gradient norm was reached, the reported norm is below the minimum and no change of the final amplitudes lowers the reported error at a higher rate than the norm times the size of the change; the rate is attained. The same relation holds for the norm of any result whose last evaluation was the gradient at the final amplitudes.", "quantifier": "all runs of every optimiser class, all minimisers, all histories of the object before, all closed, open, given and symplectic dynamics with exact gradients, all directions", "why_tests_cant": "A test compares single gradients with finite differences; that the one number in the result bounds the rate of change in all directions of a space with one dimension per slot and control is a statement about all of them.", "anchors": ["src/qutip_qtrl/optimizer.py:Optimizer.fid_err_grad_wrapper", "src/qutip_qtrl/optimizer.py:Optimizer._interpret_term_exception", "src/qutip_qtrl/fidcomp.py:FidelityComputer", "src/qutip_qtrl/optimizer.py:OptimizerLBFGSB.run_optimization"]}
