# Formal model of qutip-qtrl

The source under /repo/src/qutip_qtrl is modelled in Lean 4 (`lean/Verif`).
The code is never run; the only tie between model and code is the reading of
the source, so each model definition cites the file and lines it models.

## Layout

* `Verif/Model/*`  shallow functional models of the Python functions, branch by
  branch; exceptions are `Except` values; in-place loops are folds over `set`.
* `Verif/Spec/*`   small independent specifications used in the theorem statements.
* `Verif/Proofs/*` helper lemmas.
* `Verif/Props/*`  the property theorems (`C01_…`) with non-vacuity `example`s.
* `seeded/LOG.jsonl`  wrong programs the theorems were tried on.

Where the code does not do what a property says, the negation is proved with a
concrete reachable witness (`…violated…`), and what remains true is proved under
the name `…_partial`.  Such properties are `partial` in `MANIFEST.json`.

## Plan per property

| id | what is modelled | how it is proved |
|----|------------------|------------------|
| C01 | `Dynamics` timeslot attributes and setters/getters as a state machine | invariant by induction over operation lists |
| C02 | same | case analysis on each operation from an arbitrary state |
| C03 | `recompute_evolution` loops over lists of operators of an arbitrary monoid | loop invariants; refinement to ordered products |
| C04 | same | telescoping from C03 |
| C05 | dynamics + timeslot computer + fidelity computer caches as a state machine | refinement to a stateless evaluator, induction over histories |
| C06 | same machine with counters | ghost-history invariant |
| C07 | same machine with configuration operations | negation by witness; partial theorem for re-initialisation |
| C08 | same machine with array references (heap) | negation by witness; partial for callers that copy |
| C09 | fidelity formulas over complex matrices | Cauchy-Schwarz for the trace inner product |
| C10 | same | algebra |
| C11 | same | trace inner product |
| C12 | gradient formulas with propagators as functions of one amplitude | chain/product rule (`HasDerivAt`) |
| C13 | same | same |
| C14 | approximate gradient formula | negation by witness; partial for commuting operators |
| C15 | spectral propagator | `Matrix.exp_conj`, diagonal exponentials |
| C16 | spectral gradient with the factor matrix | block-exponential derivative, commutation, continuity |
| C17 | augmented matrix exponential | similarity + continuity of `exp` |
| C18 | C03 + exponentials of anti-Hermitian matrices | induction over slots |
| C19 | `calc_omega`, phase application | parity case analysis; exponentials in the symplectic group |
| C20 | memory option table; cached/uncached generator reads | case analysis; refinement |
| C21 | public operator views | case analysis; negation for `onwd_evo` |
| C22 | `_apply_bounds_and_offset` over an ordered field | min/max lemmas on lists, branch analysis |
| C23 | `_apply_bounds_and_offset` over an ordered field | min/max lemmas on lists, branch analysis |
| C24 | waveform formulas over a floor field | floor lemmas |
| C25 | `init_pulse` per generator with extended-real bounds | case analysis, negation for RND/ZERO |
| C26 | random generators with the random numbers as inputs | induction on pulse index, loop termination |
| C27 | CRAB pulse construction and tanh bounding over the reals | monotonicity/range of tanh |
| C28 | flatten/reshape/slice index arithmetic | list induction |
| C29 | flatten/reshape/slice index arithmetic | list induction |
| C30 | optimiser wrappers driven by an arbitrary list of minimiser callbacks | induction over callback lists |
| C31 | optimiser wrappers driven by an arbitrary list of minimiser callbacks | induction over callback lists |
| C32 | option dictionaries as association lists | fold lemmas |
| C33 | `init_optim` decision logic | case analysis |
| C34 | mask algorithm of `TSlotCompDynUpdate` | mask invariant; negation for staleness |
| C35 | dump objects as state machines with file contents | invariants by induction |
| C36 | dump objects as state machines with file contents | invariants by induction |
| C37 | dump options as attributes set by the level | case analysis over levels and spellings; induction over settings |
| C38 | write-through and final writing over an abstract file system | equality of the file systems reached; negations |
| C39 | GRAPE amplitudes and limits | loop invariant over iterations |
| C40 | `grape_unitary` and `cy_grape_unitary` side by side | program equivalence; negations |
| C41 | what the GRAPE functions return | loop invariant; negation |
| C42 | one iteration of `grape_unitary_adaptive` | loop invariant; negation |
| C43 | parameter loader over typed attribute maps | fold lemmas |
| C44 | `create_dir` over an abstract file-system outcome | case analysis |
| C45 | configuration logic of `pulseoptim` | case analysis over option strings; negations |
| C46 | bindings of the four convenience functions and the objects they build | end-to-end equality of the settings; negations |
| C47 | dictionaries of parameters on a heap | frame lemmas; negation |
| C48 | container checks over shape descriptors | case analysis |
| C49 | statistics records over an ordered field with nan | algebra |
| C50 | generator combination | sum lemmas |
| C51 | phase application of `DynamicsSymplectic` with the signs it introduces | case analysis; negation by witness |
| C52 | one iteration of the plain GRAPE functions with derivatives of the overlap | product rule; negation by witness |
| C53 | Gaussian and Gaussian-edge generators over the reals with extended values | monotonicity of the exponential |
| C54 | CRAB generators: coefficients, frequencies, series, guess and ramping pulses | list lemmas; range of tanh; negations |
| C55 | `apply_params`, `reset` over attribute maps with histories of dictionaries | induction over histories; negations |
| C56 | Python's loggers as far as used: levels shared per module, handlers, propagation | case analysis over import and call sequences |
| C57 | exception classes, their attributes, `str`, and the handler of the optimiser | case analysis |
| C58 | `save_amps` over tables and files, `%.6g` with its rounding as a parameter | bounds on the rounding; induction over rows |
| C59 | `check_unitarity`, `unitarity_check`, level chosen by the initialisation | loop invariant over slots; C18 for closed systems; negations |
| C60 | `phase_application` and `phase_option` as sequences of assignments | induction over histories |
| C61 | the phase given against the one built into the propagator computers | C03/C15/C16 with an arbitrary phase; negation |
| C62 | public lists with shapes, placeholders and aliases | invariant over histories; negations |
| C63 | deprecated names and Python's binding of arguments | refinement to the new names over all histories; negations |
| C64 | nothing new: the models of dynamics, fidelity and optimiser together | uniqueness of the solution of a linear differential equation on each slot; induction over slots |
| C65 | paths of dump files over an abstract file system | invariant over settings and uses; negations |
| C66 | every operation of `Model/Dynamics` written again with the messages, exceptions raised while a text is made included; the summary of `optimize_pulse` | simulation of the silent operations by the logged ones, operation by operation; values by the invariant of C05 |
| C67 | `__init__`, `reset`, `apply_params`, `_create_computers` and `clear` of the dynamics classes with setters as they are; options about time slots from a parameter file | last assignment of a name in a list, the time slots as a fold over the entries; a relation between two objects kept by every step; negations |
| C68 | The attributes that are worked out once and kept (number of controls, checked flag, time dependence, dimension, data type, caching options, omega, phase, scale factor) and the containers of the initialisation; histories of assignments, reads and initialisations. | Invariant over all histories with systems of one kind gives an explicit final object; frame lemmas for what is kept; witnesses where systems of different kinds follow each other. |
| C69 | Nothing new: two configurations of unitary dynamics that are related by a change of description, each with its own history. | The exponential and its derivative (linear, equivariant, product rule, Kronecker) carry each relation from generators to propagators, evolutions, final objects and their derivatives; fidelity, error and gradient are then compared through the stateless specification. |
| C70 | `Model/StatsReport.lean`: `_format_datetime`, `report` of both classes, `str` of a timedelta, percentages; the console is a list of lines | the texts are read back by a parser in `Spec/StatsReport.lean`; lines are told apart by their labels |
| C71 | the evolution of `Model/Dynamics.lean` with pairs as indices; states, channels and Lindblad generators in `Spec/OpenSystem.lean` | the generator plus a multiple of the identity is completely positive up to a term that vanishes in the limit, so its exponential is; bounds from the Choi matrix |
| C72 | Model/General.lean: GEN_MAT dynamics as a system; Spec/Kinds.lean: relations between configurations of different classes | propagators related by the exponential of commuting Kronecker factors, gradients by uniqueness of derivatives |
| C73 | Spec/Descent.lean: steps along a direction, inner product of arrays; systems of Model/Unitary, General and Symplectic | joint differentiability of the evolution (the exponential is analytic), partial derivatives from C12 and C13, a differentiable bound that touches the error where the overlap is zero |
| C74 | spectral norm of the differences of evolutions and errors of closed systems | Duhamel-type bound by the mean value inequality in each slot, telescoping over the unitary propagators; trace bound for the errors |
| C75 | equation of motion under a continuous pulse, sampled pulses, sine generators | linear equations with continuous generators have solutions (Picard-Lindelöf glued over short steps), then C74 with the rate of change as deviation |
| C76 | `plot_grape_control_fields` as a recording of calls of matplotlib; what a step line shows | induction on the passes; negation by a run of GRAPE |
| C77 | `grape_unitary`, `cy_grape_unitary`, `grape_unitary_adaptive` with the solution of the Schrödinger equation over the given times | uniqueness of solutions; negation by times 0, 1, 3 |
| C78 | a best pulse within bounds, compared through the reported errors | each entry of the gradient is tested along the direction that changes only it (C73: every direction with negative inner product lowers the error) |
| C79 | the free evolution and the limits of the pulse, as in C74 | C74 compares the pulse with no pulse; C30 says that success means some tried point met the target |
| C80 | `reset` of configuration, termination conditions and optimisers as assignments in order, with `apply_params` | last assignment wins, by induction over statements and histories; violations by concrete objects |
| C81 | The methods of the component classes with the exceptions of the base classes where a subclass does not implement them (Model/Components.lean), on the state machine of Model/Dynamics.lean | Agreement with the total model where the classes fit; failure in the first slot otherwise; invariant over lists of requests |
| C82 | Arrays with shapes, broadcasting comparison, IndexError inside the generator loop, initialisations stopping at each stage, on top of the state machine of C05 | Invariant that system, array and caches agree, over arbitrary call histories; witnesses for stale answers after failed initialisations and for wrong shapes |
| C83 | The system of consecutive slots started in an object of its own; sequences of objects with histories of their own. | Time-ordered products split at any slot; induction over the stages; the reported errors as squared distances up to the phases a measure disregards, and the triangle inequality. |
| C84 | Pairs of systems of any dynamics related by a change of controls, units, grid or basis. | Propagators as exponentials of a linear function of the generator, their derivatives as directional derivatives of the exponential; then as for C69. |
| C85 | Pairs of systems of any dynamics with the same task; growth rates of generators. | A differential inequality for the squared norm of a driven vector bounds exponentials; the difference of two exponentials is interpolated; induction over the slots. |
| C86 | As C85, with the motion under a generator that depends on time as the solution of the linear equation of motion | Growth bound for the motion by an antitone energy; variation of constants in every slot; induction over the slots; squeeze for the limit |
| C87 | Optimiser runs of C30/C31 over any system whose propagators are exponentials | What a result describes (C31) combined with the solution of the equation of motion; the bound of C85 against the system without pulse, combined with the characterisation of the goal flag (C30) |
| C88 | The model of reuse (Model/Reuse.lean), with operators given slot by slot | The generator of each slot after any history, by whether the lists reach it; independence of the outcome from the length; witnesses for lists of the wrong length |
| C89 | The optimiser model and the gradient theorems of C12, C13 and C73 | Cauchy-Schwarz for the pairing of direction and gradient; the end of a run by the gradient check or at the last gradient evaluation; a witness for the claim made after a normal return |

## State of the properties

| id | title | status | remarks |
|----|-------|--------|---------|
| C01 | Timeslot data is always self-consistent | proved | Holds for slot counts >= 1; C01_fails_for_zero_slots / _negative_slots show the precondition is needed. |
| C02 | Last timeslot assignment wins | proved |  |
| C03 | Evolution operators are the time-ordered products | proved | For the default UpdateAll timeslot computer; expm/eigh are parameters. |
| C04 | Overlap does not depend on the timeslot it is evaluated in | proved |  |
| C05 | Caching is transparent: results always match the current amplitudes | proved | Refinement of the cached machine to a stateless evaluator, for every history. |
| C06 | No needless recomputation, and statistics count exactly what happened | proved |  |
| C07 | Configuration changes are reflected in later results | partial | Violated by the code: C07_violated_* give concrete systems for durations, total time, phase option and generator phase. Partial theorems: the change takes effect after re-initialisation, and (for durations) after an amplitude change. |
| C08 | The supplied amplitude array is not aliased | partial | Violated by the code (C08_violated). Partial theorem: no stale results for callers that hand over arrays and do not modify them. |
| C09 | Unitary fidelity lies in its documented range | proved | Any history, any propagator computer; C09_range gives range, sign and the equality case. |
| C10 | PSU ignores and SU keeps global phase | proved | C10_psu_invariant (phase on target and on the evolved object), C10_energy_offset (phase produced by the drift), C10_su_sees_phase. Gradient invariance needs a non-zero overlap: C10_gradient_zero_overlap shows it fails there. |
| C11 | Trace-difference error is a squared distance | proved |  |
| C12 | Unitary fidelity-error gradient is the true derivative | proved | C12_gradient_is_derivative for any system with exact propagator gradients, C12_unitary for unitary dynamics including the point fidelity = 1. |
| C13 | Trace-difference gradient is the true derivative | proved |  |
| C14 | Approximate trace-difference gradient is the finite difference of the error | partial | Violated by the code: C14_violated gives a two-slot system whose reported approximate gradient entry is not the difference quotient of the reported error. C14_partial: it is under the commutation hypothesis stated in the theorem, and C14_limit_partial: then it tends to the derivative of the reported error as the step goes to zero. C14_diverges: where the order of the factors matters, the entry grows without bound instead; C14_violated_limit is such a system. |
| C15 | Diagonalisation propagators equal the matrix exponential | proved |  |
| C16 | Diagonalisation propagator gradient is the exact derivative | proved | Exact when different eigenvalue phases are at least the rounding precision apart; C16_diag_grad_error bounds the error otherwise. |
| C17 | Augmented-matrix and Frechet gradients are the exact derivative | proved |  |
| C18 | Unitary dynamics stay unitary | proved |  |
| C19 | Symplectic form and symplectic evolution | proved | For the default Frechet propagator computer, every way of configuring preop/postop. |
| C20 | Memory-optimisation options never change results | partial | Option resolution fully proved (C20_options, C20_rejected). Results: violated by the code in three situations (C20_violated_su, C20_violated_symplectic, C20_violated_toggle); C20_results_partial and C20_evolution prove independence of the options otherwise. |
| C21 | Operator views show the operators actually used | partial | Violated for onwd_evo with the Qobj data type (C21_violated, C21_onwd_shows_fwd); C21_views_partial covers every other view, data type and history. |
| C22 | Generated pulses respect their amplitude bounds | proved | Any raw pulse, offset and bounds (C22_bounds), and every generator type through its own initialisation (C22_generators). |
| C23 | Bounding preserves the pulse shape | proved |  |
| C24 | Waveform generators produce the documented shapes | partial | Shapes proved at every time (C24_shapes, C24_range_period) and sampling proved for generators initialised once (C24_samples_partial, C24_linear_partial). Violated by the code: num_waves set after an earlier initialisation or together with freq (C24_violated_num_waves, C24_violated_reinit), a one-slot linear pulse (C24_violated_linear_single) and a linear pulse with both gradient and end value (C24_violated_linear_gradient). |
| C25 | Bounds are validated and infinite bounds mean unbounded | partial | C25_init and C25_generators_partial prove it for all generators that initialise themselves; C25_violated_unchecked and C25_violated_infinite show the zero and random generators that do not. |
| C26 | Random pulses stay within their documented amplitude and step limits | partial | Violated by the code: the second random walk scales its step limit twice (C26_violated_walk2_scaling) and the Fourier decomposition can loop for ever (C26_violated_fourier_diverges); the other theorems prove ranges, step limits and termination otherwise. |
| C27 | CRAB pulses respect their bounds for every coefficient vector | partial | Bounds proved for every history of coefficient vectors (C27_bounds). Monotonicity violated for a single non-positive upper or non-negative lower bound (C27_violated_monotone); C27_monotone_partial covers the other cases. |
| C28 | CRAB optimisation variables and coefficients correspond one to one | proved |  |
| C29 | GRAPE variables, amplitudes and bounds are aligned | partial | Alignment of variables, amplitudes and bounds proved for all sizes (C29_flatten, C29_unflatten, C29_point, C29_bounds, C29_lbfgsb_current). Violated by the base class when the bounds change between two runs (C29_violated_stale). |
| C30 | Termination reasons are truthful | partial | Proved for every minimiser behaviour and every history of the dynamics when a termination condition ends the run (C30_stops, C30_goal, C30_exhaustive, C30_replies) and, when the minimiser returns, as far as C30_returns_partial says. Violated when BFGS converges (C30_violated_bfgs) and when L-BFGS-B converges or BFGS loses precision (C30_violated_grad_min, C30_violated_case). |
| C31 | The returned result describes the returned amplitudes | partial | Amplitudes, error and evolution proved on every path (C31_stopped, C31_returned). The gradient norm is that of the last gradient evaluation, not of the final amplitudes (C31_stale_grad_norm, C31_violated_grad_norm); C31_grad_norm_partial covers the runs whose last evaluation is a gradient. The attribute fidelity of the result is never set (C31_violated_fidelity). |
| C32 | Explicit method options take precedence | partial | Parameter routing and option building proved for all dictionaries (C32_params, C32_options, C32_minimize, C32_lbfgsb_partial, C32_construct_partial). Violated: BFGS, L-BFGS-B and Nelder-Mead ignore most options (C32_violated_ignored, C32_violated_lbfgsb, C32_violated), derived defaults survive into later runs (C32_violated_second_run), class defaults overwrite constructor parameters (C32_violated_construct). |
| C33 | Optimisation cannot start half-configured | partial | C33_checks and C33_target for every configuration. Violated: a goal set on default termination conditions is ignored (C33_violated_goal), also in a second run (C33_violated_second_run); L-BFGS-B can raise AttributeError (C33_violated_lbfgsb). |
| C34 | The dynamic-update timeslot computer agrees with the full recompute | partial | For all systems, placeholders and histories: unmarked operators equal a complete computation (C34_unmarked), marked ones do after a recomputation and current ones are untouched (C34_marked_partial, C34_all_marked), the overlap at the chosen slot is right while the evolution is not current (C34_overlap_partial). Violated: flag_all_calc_now omits the full evolution (C34_violated_flag_all), compute_evolution skips marked operators once it has run (C34_violated_skipped, C34_violated_unmarked), and the present Dynamics lacks compute_dyn_gen so nothing is ever computed (C34_violated_present). |
| C35 | Dump records are complete and in order | partial | Optimiser dump proved for every history (C35_optim). Dynamics dump proved for every history with flags that can be written (C35_dynamics_partial). Violated with file writing on and the generators not chosen: the item is recorded, the dump raises TypeError and the summary is missing (C35_violated). |
| C36 | Dumped evolution files contain the operators they are labelled with | partial | Amplitudes, generators, propagators and gradients are written completely and in order (C36_sections_partial). Violated: the onward and onto sections contain the forward evolution (C36_violated_content, C36_violated_onwd), the last forward operator is never written (C36_violated_last), and without the generators the propagators cannot be written (C36_violated_no_generators). |
| C37 | Dump level determines what is recorded | partial | SUMMARY and FULL set exactly the documented flags, for every case of spelling and every history (C37_optim_levels, C37_dynamics_levels, C37_read, C37_read_dynamics, C37_history_partial, C37_dumping); an unknown level is rejected with the flags unchanged (C37_rejected). Violated: CUSTOM is always rejected (C37_violated_custom, C37_violated_dumping_custom), and a rejected value is stored and read back (C37_violated_rejected). |
| C38 | Write-through dumping yields the same files as writing out at the end | partial | Proved for the dynamics dump (C38_dynamics), the columns (C38_columns, C38_column_counts), and summaries and gradients of the optimiser dump (C38_write_through_partial, C38_writeout). Violated: the logs of numbers are printed differently (C38_violated_number_format, C38_violated_numbers), and a base name changed after the first record splits the summary (C38_violated_base, C38_violated_old_name). |
| C39 | GRAPE amplitudes stay within u_limits | partial | All iterations after the first are within the limits in both plain functions (C39_limits). The first is if a start pulse of floating point numbers is given as a list (C39_start_partial), and then everything the adaptive function returns is (C39_adaptive_partial). Violated: without a start pulse the first iteration is zero (C39_violated_zero), with a start pulse of integers the limit is cut to an integer (C39_violated_integers), with a numpy array and limits the call raises ValueError (C39_violated_array). |
| C40 | The two GRAPE implementations agree | partial | Same results and same exceptions without a penalty for late amplitudes and with a non-negative penalty for large ones (C40_agree_partial). Violated: the penalty for late amplitudes is linear in the slot number in one function and quadratic in the other (C40_violated_late, C40_violated), and negative penalties are ignored by one (C40_violated_negative). |
| C41 | GRAPE's reported propagator belongs to its reported pulse | partial | The propagator returned is that of the last but one row (C41_previous), so the property holds if the last iteration changed nothing (C41_partial). Violated in general (C41_violated), and for the adaptive function (C41_violated_adaptive, C41_violated_rows). |
| C42 | Adaptive GRAPE never loses ground | partial | In every iteration the overlap kept is the larger of the one kept before and the best of the three trials, and the step sizes keep their ratios (C42_iteration); logs and result of a whole run (C42_run). Violated: after a failed iteration another line of trials is continued, and the pulse returned can be worse than the start (C42_violated). |
| C43 | Parameter files are applied section by section, type-preservingly | partial | What every section does (C43_section_partial), exactly the named attributes if every option can be applied (C43_complete), nothing is created (C43_no_create), types other than float and text are kept (C43_types), sections and objects are independent (C43_sections), no file (C43_no_file). Violated: texts become numbers or truth values (C43_violated_text), floats become what an expression evaluates to (C43_violated_float), an option that cannot be applied keeps the later ones of its section from being applied (C43_violated_rest), options of the default section are applied to every section (C43_violated_defaults). |
| C44 | Directory creation reports success iff the directory exists afterwards | partial | Without interference and unless the place is a device, a pipe, a socket or a broken link, success means a directory is there afterwards (C44_available_partial); nothing existing is changed (C44_untouched); success if nothing is in the way (C44_creates); names (C44_name); assigning dump_dir (C44_dump_assign_partial). Violated: devices and pipes (C44_violated_special), broken links (C44_violated_broken), files made by another process (C44_violated_race), relative names with ~ (C44_violated_relative), reading dump_dir (C44_violated_read). |
| C45 | Every accepted configuration yields a matching set of components | partial | Component selection of create_pulse_optimizer is proved against documented class tables for all arguments; violated cases (DYNAMIC timeslot type ignored, fid_type spelling, lower-case crab, unknown pulse types) carry witnesses. |
| C46 | High-level entry points honour all their parameters | partial | Forwarding and its effects and the defaults of parameters left out (C46_defaults) are proved end to end for all four convenience functions; tslot_type/tslot_params are dropped by optimize_pulse, lower-case "crab" raises, a scalar zero bound is dropped by the CRAB generators and init_pulse_params scaling/offset is overridden for GRAPE (violation theorems). |
| C47 | Deprecated keyword arguments never override explicit dictionary entries | partial | A deprecated keyword only completes missing entries and existing entries survive, except scale_factor; caller dictionaries gain entries, which persists across calls (violation theorems with witnesses). |
| C48 | Controls and drift are validated before use | partial | Violated by the code for ragged nested lists (C48_violated_ragged) and when the controls are replaced before a re-initialisation (C48_violated_stale); the remaining C48 theorems prove acceptance, rejection and the derived numbers for all other containers. What numpy does with a non-sequence row is a parameter. |
| C49 | Summary statistics are the averages they claim to be | partial | Counts since the statistics were made or the last run started (C49_counts) and means after any report or calculate (C49_means); the categories add up to at most the time of the run if nothing is computed after the minimiser returned (C49_times_partial); dynamic update mode if everything was counted (C49_dynamic_partial). Violated: what is computed for the result after the end time was taken counts in the categories only (C49_violated_last), calculate during a run leaves the time at zero (C49_violated_running), zero counts raise in the dynamic mode (C49_violated_dynamic), whose counts are not cleared for a second run (C49_violated_dynamic_second), the iteration number differs from the one in the result (C49_violated_iterations). |
| C50 | Combined generator and Hamiltonian mapping | partial | Combined generator fully proved (C50_generator, C50_affine). The names are not interchangeable after an initialisation (C50_violated); partial theorems cover the first initialisation and the generator names. |
| C51 | Phase application of symplectic dynamics takes effect as documented | partial | Violated by the code (C51_violated_case, C51_violated_read); C51_phase_partial covers lower-case settings without earlier reads. |
| C52 | GRAPE steps follow the gradient | partial | The increment is the derivative with respect to a short evolution under the control after the slot (C52_kick), which is the derivative with respect to the amplitude if the control commutes with the Hamiltonian of the slot (C52_gradient_partial). Violated in general: the first-order increment is not the derivative (C52_violated). |
| C53 | Gaussian pulses have the documented profile | partial | Profile and peak proved (C53_gaussian_partial, C53_gaussian_peak, C53_default_peak, C53_edge_partial) for positive variances and decay times. Violated: a negative variance is not rejected and gives amplitudes above the documented maximum (C53_violated_variance), a variance or decay time of zero gives nan (C53_violated_zero), the mean 0 given as argument is ignored (C53_violated_mean_zero), a short Gaussian-edge pulse with the default decay time neither starts at zero nor reaches one (C53_violated_edge). |
| C54 | The CRAB pulse is the documented series | partial | Number, initial values, frequencies and the pulse itself proved for all generators (C54_count, C54_initial, C54_freqs, C54_series, C54_zero_coeffs); the bounds are covered by C54_bounds_partial together with C54_bounds_one_sided (single bounds on the far side of zero). Violated: zero coefficients do not reproduce a bounded guess pulse (C54_violated_guess), optimised frequencies do not start near the harmonics (C54_violated_free_freqs), an unknown guess pulse action raises AttributeError instead of being ignored (C54_violated_action). |
| C55 | Parameter dictionaries configure objects as given | partial | Proved for all dictionaries and histories, except the CRAB keys freqs, randomize_freqs (always overwritten by reset), fix_freqs and num_basis_funcs. Violated: randomize_freqs/freqs and fix_freqs given as parameters are lost; apply_params({}) re-applies the earlier dictionary; a second dictionary makes reset forget the first; reset of a CRAB generator with free frequencies leaves 2 basis functions instead of 3. |
| C56 | Log levels and messages | partial | Levels after create_pulse_optimizer and single display of messages after imports proved. Violated: objects of one module share their level; a second optimiser changes the level of the first; NOTSET takes the level of the previous call, not of the settings; log_level in dyn_params does not reach the timeslot computer; get_logger called twice duplicates messages. |
| C57 | Exceptions can be shown and end up in the right flag | partial | Flags and reasons proved. Violated: str() of every terminating exception raises AttributeError because they never set message. |
| C58 | Saved amplitudes are the amplitudes | partial | Contents and precision proved for all pulses. Violated: failures (wrong number of times, unwritable file) are only logged and the call returns normally; a single time is written into every line. |
| C59 | Unitarity checks report what they document and change nothing else | partial | Proved for DynamicsUnitary with the diagonalising computer (and for closed systems with every computer at level 1). The code violates the rest: np.allclose adds a relative tolerance 1e-5 (C59_tolerance_violated), check_unitarity is missing in the other classes (C59_class_violated), the other computers have no eigen lists (C59_computer_violated), DEBUG logging overrides the level (C59_level_violated) and thereby makes evolutions fail (C59_logging_violated). |
| C60 | Phase settings take effect as accepted and are unchanged when rejected | partial | Proved for the accepted values, for rejections of phase_application and for initialisation (C60_application, C60_initialise, C60_option). The code violates the rest: None is accepted for phase_application and the next initialisation raises (C60_none_violated); a rejected phase option is reported afterwards while the old one stays in effect (C60_option_violated). |
| C61 | The assigned generator phase is the one the evolution uses | partial | Proved for the computers other than the diagonalising one (C61_phase_partial). The code violates it for the diagonalising computer, the default of unitary dynamics: the propagators are exp(-i*H*tau) whatever phase is assigned and the gradients are multiplied by i*phase (C61_diag_violated, C61_violated). |
| C62 | Public lists of operators can be read for states as for gates | partial | C62_views_partial covers all histories for generators, propagators and forward evolution, and the onto and onward lists for square initial operators; C62_target_partial covers histories with one target. The code violates the rest: for states with arrays onto_evo raises and then shows an empty list (C62_onto_states_violated) and onwd_evo raises (C62_onwd_states_violated), fwd_evo read too early raises and then shows a short list (C62_early_violated), and the inverse target shown does not follow a changed target (C62_target_violated). |
| C63 | Deprecated names do what their replacements do | partial | The old names for the three evolutions, the phased generators, the propagators and the flags give the documented quantities after every history (C63_names_partial, C63_flags). Violated, with proofs: combine_dyn_gen and compute_prop_grad always raise TypeError (the former without disturbing later results), get_ctrl_dyn_gen is that of the first slot only, and get_timeslot_for_fidelity_calc returns a method. |
| C64 | The reported evolution and error are those of the solution of the equation of motion | proved | Proved for exact arithmetic: the linear algebra routines are taken to return the matrix exponential (or an exact eigendecomposition), and the minimiser is any sequence of calls. |
| C65 | Dump files are where the settings say | partial | Violated: paths of the summary and logs are kept from their first use, so a later dump_dir, extension or base name is not taken up (C65_violated_dir, _names); a named summary file is never put in the dump directory and ~ is not expanded, because os.path.abspath is tested instead of isabs (C65_violated_summary), and is forgotten when the base name is assigned (C65_violated_forgotten). Proved for settings made before the first use. |
| C66 | The log level changes what is written and nothing else, and what is written is true | partial | Proved for levels above DEBUG_INTENSE of the time slot computer and for controls that do not depend on time. Violated: at DEBUG_INTENSE and below (NOTSET included) with the default exact gradients every request raises AttributeError (C66_violated_intense); the message of the difference gradient is shown at DEBUG only (C66_violated_difference); with time-dependent controls the summary shows the rows of the first slots as the controls (C66_violated_summary_rows) and raises IndexError if there are more controls than slots (C66_violated_summary_result). The check of unitarity which the level switches on is in C59. |
| C67 | The attributes of a dynamics object are the documented ones, overridden by its parameters | partial | Proved for the plain attributes, the defaults and the phase settings in full, for the time slots if neither num_tslots nor evo_time follows tau in the dictionary. Violated: otherwise the durations given are dropped (C67_violated_tau_order); attributes unknown to reset and the method of applying the phase survive a reset (C67_violated_stale, _custom); a phase among the parameters of symplectic dynamics raises AttributeError (C67_violated_phase_param); durations from a parameter file are rounded to single precision (C67_violated_file_tau). Files are covered for the options about the time slots. |
| C68 | An object prepared for a system does not depend on the systems it was used for before | partial | Proved for every history of assignments, reads and initialisations with systems that agree in the number and kind of controls, the dimension and the suitable data type: the outcome and the object are those of a new one (C68_reuse_partial), the generators are the documented sums (C68_generator_partial). For all histories: drift, initial and target operator, dimension and time dependence of the drift are the current ones (C68_current), and what was worked out once is kept (C68_kept). Violated beyond that, with witnesses: scale factor, number of controls (more, fewer), kind of controls, nested lists, omega and phase of symplectic dynamics, memory_optimization; and an initialisation whose outcome depends on whether num_ctrls was read. |
| C69 | Equivalent descriptions of one control problem give equivalent results | proved | Closed systems with any propagator computer for fidelity and error; gradients where both objects have exact propagator gradients (Frechet, or diagonalisation with well separated eigenvalue phases). Another zero of energy is a statement about PSU only, as the other measures see the phase, and its gradient part excludes zero fidelity, where the PSU fidelity is not differentiable. For the trace difference measure the spectator statement needs matching scale factors; what the default ones do is proved separately. |
| C70 | The printed report shows the statistics | partial | Every statistic is shown once and can be read back, for times from zero to 2.7 million years; a time that cannot be shown ends the report. Violated: times below ten hours, of whole seconds or of a day and more are not of the announced form HH:MM:SS.US; a report during a run shows no time and no shares although calculate was called; the shares can add up to 200 percent because what is computed for the result after the end of the minimisation is counted in the parts and not in the total. |
| C71 | The evolution of an open system maps states to states | proved | C71_channels: propagators and onward propagations are channels; C71_states and C71_initial_channel: the forward evolution of a state or channel is one; C71_error_states and C71_error_channels: range of the reported error. The matrix exponential is the exact one, as for C03. |
| C72 | The kinds of dynamics agree on a problem that can be written for each | proved | Generators: unitary and general dynamics report the same (for the unitary measure the target must be normalised and la.inv must invert it). Superoperators: evolution, error and gradient for gates, states and isometries. Quadratic forms: symplectic and general dynamics report the same; preop and postop are transposed to each other. |
| C73 | A step against the reported gradient lowers the reported error | proved | For propagator computers with exact gradients (the diagonalising one: away from near-degenerate eigenvalue phases, C16). |
| C74 | Small deviations of the pulse and of the system change the reported error by little | proved | closed systems, both error measures; two systems, changed or saved amplitudes, fluctuating apparatus |
| C75 | Finer slots approach the continuous pulse | proved | closed systems with steady drift and controls; any sampled pulse of bounded rate, and the sine generator end to end |
| C76 | Plots of GRAPE control fields show the fields that were applied | partial | The calls made of matplotlib are as described (C76_accepts, C76_draws, C76_scale). The lines are drawn with the default of step, which shows each amplitude one slot too early (C76_shown), so what is shown is right only where consecutive amplitudes agree (C76_shown_partial). The axis starts at zero whatever the times (C76_window). Violated in general (C76_violated, C76_violated_window). |
| C77 | GRAPE's propagator is the evolution over the given times | partial | Proved for equally spaced ascending times (C77_equal_partial; C77_adaptive_partial for some trial pulse of the adaptive function). Violated for other times: every slot is taken to be as long as the first (C77_violated). |
| C78 | At the best pulse within the bounds the reported gradient asks for no change the bounds allow | proved | For the unitary measure and the trace difference measure, any bounds. |
| C79 | A goal out of reach in the time available is not reported as achieved | proved | Closed systems; no assumption on the drift or on the minimiser. |
| C80 | Settings have their documented names, defaults and effect | partial | Proved for all classes, parameters and histories. Violated: the configuration lacks prop_type, the optimiser ignores optim_method, a bound 0 of the configuration is ignored. |
| C81 | Every accepted combination of components can compute | partial | C81_partial and C81_numbers classify exactly, for every combination of classes and after every sequence of requests, what error and gradient requests return; C81_defaults: default choices always work. The full claim fails: create_pulse_optimizer accepts combinations that cannot compute (C81_violated_diag, C81_violated_approx, C81_violated_tdapprox). |
| C82 | Requests are answered for the system and amplitudes in place, or refused | partial | Proved for every history of updates with arrays of any shape, requests and successful initialisations, from any object; and what follows failed initialisations. The code violates the rest: arrays of a wrong shape are accepted when supplied, and after a failed initialisation the values of the old system are returned from the caches although the object has no amplitudes. |
| C83 | A pulse may be applied, evaluated and planned in stages | proved | Stages and their continuation for every kind of dynamics, pulled-back targets and added errors for closed systems. |
| C84 | Equivalent descriptions for every kind of dynamics | proved | For any system whose propagators are exponentials of a fixed linear function of the generator; C84_kinds shows that the three dynamics classes of the library are of this form. Gradients are compared for exact propagator gradients. |
| C85 | Small deviations change the reported error by little in every kind of dynamics | proved | For systems whose propagators are exponentials of a linear function of the generator (C84_kinds). |
| C86 | Finer slots approach the continuous pulse in every kind of dynamics | proved | General generators, closed and symplectic dynamics share one statement over systems whose propagators are exponentials (C84_kinds shows that all three are). |
| C87 | Results belong together, and goals out of reach are not achieved, in every kind of dynamics | proved | C64 and C79 for every kind of dynamics whose propagators are exponentials (C84_kinds). |
| C88 | Operators given slot by slot are given for every slot | partial | Slots that the operators reach have the documented generator, other slots raise IndexError; short arrays of controls are refused with the array data type. The length of a drift list is never checked (too short: IndexError in the middle; too long: ignored), nor that of controls with the Qobj data type. |
| C89 | A small reported gradient norm means that no direction promises more | partial | Proved for runs ended by the own check of the gradient and for runs that end where the gradient was evaluated last, for every kind of dynamics. The claim is also made when L-BFGS-B returns with warnflag 0 (or BFGS with 2), where it is false (C89_violated). |

## Trusted base

* Lean 4.33.0's kernel, and Mathlib's proofs as checked by it.
* The axioms `propext`, `Classical.choice`, `Quot.sound`; no theorem uses any other
  (table below). There is no `sorry`, no `native_decide`, no `bv_decide`, no axiom of
  our own.
* The correspondence of the model with the Python text (by reading).
* Numbers are exact (`ℝ`, `ℂ`, `ℚ` or any ordered field) instead of floats. Where
  infinities or nan decide a branch they are modelled (`Model/Flt.lean`, bounds of
  pulses, statistics). Where the type `float` or `int` of an array decides the result
  it is modelled (`Model/Grape.lean`).
* numpy, scipy, qutip and the standard library are taken by their documented meaning:
  matrix product, `expm`, `expm_frechet`, `eigh`/`eig` (any exact decomposition),
  reshaping, `allclose`, `savetxt`, `ConfigParser`, `eval` (a parameter), `logging`.
* `scipy.optimize` is any sequence of calls of the functions handed to it, followed by
  a return of any result or the exception raised by a call. No property rests on what
  the minimiser does.
* The file system is a tree of names with faults as parameters; other processes are a
  parameter; where absence of interference is assumed the theorem says so (`Quiet`).
* Random numbers are inputs.
* Python objects are values, except where sharing matters: arrays handed to and from
  the dynamics (C08), dictionaries of parameters (C47, C55), lists of operators (C62),
  loggers (C56).
* Logged messages are modelled only where they are the subject (C56, C59) or where
  logging itself raises.
* Parameters of the wrong Python type are modelled only where the code inspects types.

Simplifications of single definitions are stated in the comments at the definitions.

## Modelled and unmodelled code

Lines of function bodies (docstrings excluded) cited by the model; functions of which
less than half is cited are named. Plotting, deprecation warnings and constructors that
only call `reset` are not modelled.

| file | model modules | lines | not modelled |
|------|---------------|-------|--------------|
| cy_grape.py | Grape | 29/29 | – |
| dump.py | Dump, DumpLevel, DumpPlace, Io, Logging | 639/651 | `Dump.__init__`, `Dump.dump_any`, `Dump.dump_all`, `DumpItem.__init__`, `DumpSummaryItem.reset` |
| dynamics.py | Components, Controls, Deprecated, Dump, DumpLevel, DumpPlace, DynReset, DynUpdate, Dynamics, General, Life, Logging, Memory, PhaseSettings, PulseOptim, Reconfig, Reuse, SaveAmps, Spectral, Symplectic, Timeslots, UnitCheck, Unitary, Verbose, ViewLists, Views | 990/993 | `_attrib_deprecation`, `_func_deprecation` |
| errors.py | Basic, DynUpdate, Errors, Optimizer | 9/9 | – |
| family.py | – | 0/1 | `version` |
| fidcomp.py | Components, Deprecated, DynUpdate, Dynamics, General, Life, Logging, Optimizer, Params, PhaseSettings, PulseOptim, Reconfig, Reuse, Stats, TDApprox, Unitary, Verbose | 386/405 | `_attrib_deprecation`, `_func_deprecation`, `_trace`, `FidelityComputer.__init__`, `FidelityComputer.init_comp`, `FidelityComputer.get_fid_err`, `FidelityComputer.get_fid_err_gradient` |
| grape.py | Grape, GrapePlot, Logging | 489/492 | `GRAPEResult.__init__` |
| io.py | Io | 33/33 | – |
| loadparams.py | DynReset, LoadParams, Logging | 179/179 | – |
| logging_utils.py | Logging, Verbose | 62/62 | – |
| optimconfig.py | Logging, PulseOptim, Settings | 11/12 | `OptimConfig.check_create_output_dir` |
| optimizer.py | Components, Crab, Dump, DumpLevel, DumpPlace, Errors, Life, Logging, OptimSetup, Optimizer, Settings, Stats | 698/718 | `_is_string` |
| optimresult.py | Optimizer | 21/21 | – |
| propcomp.py | Components, Deprecated, DynUpdate, Dynamics, Logging, Memory, Params, Spectral, TDApprox | 189/194 | `_func_deprecation`, `PropagatorComputer.__init__`, `PropagatorComputer.grad_exact` |
| pulsegen.py | Crab, Logging, Params, PulseGen, PulseOptim | 642/646 | `PulseGen.gen_pulse` |
| pulseoptim.py | Logging, PulseGen, PulseOptim, Reuse, SaveAmps, Verbose | 770/771 | `_param_deprecation` |
| stats.py | Stats, StatsReport | 256/260 | `Stats.__init__`, `Stats.reset`, `StatsDynTsUpdate.__init__` |
| symplectic.py | Symplectic | 9/9 | – |
| termcond.py | Optimizer, Settings | 7/7 | – |
| tslotcomp.py | Basic, Components, Deprecated, Dump, DynUpdate, Dynamics, Life, Logging, Params, Reconfig, Stats, UnitCheck, Verbose, ViewLists | 436/446 | `_func_deprecation`, `TimeslotComputer.__init__`, `TimeslotComputer.flag_all_calc_now`, `TimeslotComputer.init_comp` |

## Axioms of the theorems

* Classical.choice, Quot.sound, propext (468): C01_amp_times, C01_fails_for_negative_slots, C01_fails_for_zero_slots, C01_time_end_points, C01_timeslots_agree, C02_num_then_evo, C02_uninitialised, C03_order, C03_time_ordered, C04_overlap_slot_independent, C05_as_fresh, C05_caching_transparent, C06_exact_statistics, C06_recompute_once, C06_unchanged_is_noop, C07_after_amp_change_partial, C07_after_reinit_partial, C07_change_ignored, C07_evo_time, C07_violated_evo_time, C07_violated_generator_phase, C07_violated_phase_option, C07_violated_tau, C08_hand_over_partial, C08_violated, C09_range, C10_energy_offset, C10_gradient_zero_overlap, C10_psu_invariant, C10_su_sees_phase, C11_default_scale, C11_distance, C12_gradient_is_derivative, C12_unitary, C13_gradient_is_derivative, C13_symplectic, C13_unitary, C14_diverges, C14_kept, C14_limit_partial, C14_partial, C14_violated, C14_violated_limit, C15_diag_is_exp, C15_diag_unitary, C15_unitary, C16_diag_grad, C16_diag_grad_error, C17_aug_mat_grad, C17_aug_mat_prop, C17_diag_agrees, C17_frechet_agrees, C18_unitary, C19_evolution_symplectic, C19_omega, C20_evolution, C20_options, C20_results_partial, C20_symplectic_explicit, C20_toggle_partial, C20_violated_su, C20_violated_symplectic, C20_violated_toggle, C21_onwd_shows_fwd, C21_views_partial, C21_violated, C22_bounds, C22_empty, C22_generators, C23_order, C23_shape, C24_linear_partial, C24_range_period, C24_samples_partial, C24_shapes, C24_unbounded, C24_violated_linear_gradient, C24_violated_linear_single, C24_violated_num_waves, C24_violated_reinit, C25_generators_partial, C25_init, C25_violated_infinite, C25_violated_unchecked, C26_fourier_series, C26_fourier_terminates, C26_random, C26_violated_fourier_diverges, C26_violated_walk2_scaling, C26_walk1, C26_walk2_partial, C26_wave_sums, C26_waves_series, C27_bounds, C27_coeffs_argument, C27_monotone_partial, C27_violated_monotone, C28_collect_distribute, C28_distribute_collect, C28_init, C28_point, C28_too_short, C29_bounds, C29_bounds_short, C29_first_run, C29_flatten, C29_lbfgsb_current, C29_point, C29_unflatten, C29_violated_stale, C30_exhaustive, C30_goal, C30_replies, C30_returns_partial, C30_stops, C30_violated_bfgs, C30_violated_case, C30_violated_grad_min, C31_grad_norm_partial, C31_returned, C31_stale_grad_norm, C31_stopped, C31_violated_fidelity, C31_violated_grad_norm, C31_violated_sum_of_squares, C32_lbfgsb_partial, C32_minimize, C32_options, C32_violated_construct, C33_checks, C33_target, C33_violated_goal, C33_violated_lbfgsb, C33_violated_second_run, C34_all_marked, C34_flag_all_partial, C34_marked_partial, C34_overlap_partial, C34_unmarked, C34_violated_flag_all, C34_violated_present, C34_violated_skipped, C34_violated_unmarked, C35_dynamics_partial, C35_optim, C35_violated, C36_sections_partial, C36_violated_content, C36_violated_last, C36_violated_onwd, C37_dumping, C37_dumping_read, C37_dynamics_levels, C37_history_partial, C37_optim_levels, C37_rejected, C37_violated_custom, C37_violated_dumping_custom, C37_violated_rejected, C38_column_counts, C38_columns, C38_dynamics, C38_headings, C38_violated_base, C38_violated_number_format, C38_violated_numbers, C38_violated_old_name, C38_write_through_partial, C38_writeout, C39_adaptive_partial, C39_limits, C39_limits_checked, C39_start_partial, C39_violated_array, C39_violated_integers, C39_violated_zero, C40_agree_partial, C40_violated, C40_violated_late, C40_violated_negative, C41_partial, C41_previous, C41_violated, C41_violated_adaptive, C41_violated_rows, C42_iteration, C42_run, C42_violated, C44_available_partial, C44_creates, C44_dump_assign_partial, C44_name, C44_untouched, C44_violated_broken, C44_violated_race, C44_violated_read, C44_violated_relative, C44_violated_special, C45_components_partial, C45_stats, C45_usage_error, C45_violated_crab, C45_violated_fid, C45_violated_pulse, C45_violated_tslot, C46_defaults, C46_forwarded_partial, C46_grape_any_case, C46_initial_pulses, C46_violated_case, C46_violated_pulse_params, C46_violated_tslot, C46_violated_zero_bound, C47_fills_partial, C47_kept_partial, C47_unmodified_partial, C47_violated_across_calls, C47_violated_crab, C47_violated_phase_option, C47_violated_scale_factor, C48_array, C48_drift, C48_empty_accepted, C48_first_init, C48_list, C48_rectangular, C48_rejected, C48_rows_partial, C48_violated_ragged, C48_violated_stale, C49_counts, C49_dynamic_partial, C49_means, C49_times_partial, C49_violated_dynamic, C49_violated_dynamic_second, C49_violated_iterations, C49_violated_last, C49_violated_running, C50_affine, C50_generator, C51_phase_partial, C51_reconfigured_partial, C51_violated_case, C51_violated_read, C52_gradient_partial, C52_kick, C52_violated, C53_default_grid, C53_default_peak, C53_edge_partial, C53_gaussian_partial, C53_gaussian_peak, C53_violated_edge, C53_violated_mean_zero, C53_violated_variance, C53_violated_zero, C53_violated_zero_decay, C53_violated_zero_variance, C54_bounds_one_sided, C54_bounds_partial, C54_count, C54_freqs, C54_initial, C54_series, C54_violated_action, C54_violated_free_freqs, C54_violated_guess, C54_zero_coeffs, C55_construct_partial, C55_defaults, C55_num_coeffs, C55_reset_partial, C55_violated_empty, C55_violated_fix_freqs, C55_violated_forgotten, C55_violated_randomize_freqs, C55_violated_reset_basis, C56_once, C56_violated_twice, C58_exclude, C58_given, C58_not_initialised, C58_optimize, C58_save, C58_violated_broadcast, C58_violated_silent, C58_violated_unwritable, C59_by_hand, C59_class_violated, C59_computer_violated, C59_eigen_basis, C59_logging_violated, C59_reports_partial, C59_silent, C59_tolerance_violated, C60_application, C60_initialise, C60_initialises_partial, C60_none_violated, C60_option, C60_option_violated, C60_reported_partial, C61_diag_violated, C61_phase_partial, C61_violated, C63_combine_harmless, C63_combine_violated, C63_ctrl_partial, C63_ctrl_violated, C63_grad_violated, C63_names_partial, C64_history, C64_returned, C64_schrodinger, C64_stopped, C65_distinct, C65_gradients, C65_host_dir_partial, C65_host_partial, C65_rebase, C65_settled_partial, C65_violated_dir, C65_violated_forgotten, C65_violated_names, C65_violated_summary, C66_changes_partial, C66_fewer_partial, C66_results_partial, C66_silent, C66_summary_partial, C66_true_partial, C66_violated_difference, C66_violated_intense, C66_violated_summary_rows, C67_apply, C67_as_new, C67_defaults, C67_init_phase, C67_params, C67_phase, C67_slots_given_partial, C67_slots_partial, C67_violated_custom, C67_violated_file_tau, C67_violated_phase_param, C67_violated_stale, C67_violated_tau_order, C68_violated_fewer, C68_violated_level, C68_violated_list, C68_violated_more, C68_violated_nested, C68_violated_omega, C68_violated_scale, C68_violated_unread, C69_backwards, C69_basis, C69_controls, C69_refined_grid, C69_spectator, C69_spectator_default_scale, C69_units, C69_zero_of_energy, C70_dynamic_partial, C70_shares_partial, C70_shown_partial, C70_stops, C70_violated_form, C70_violated_running, C70_violated_shares, C71_channels, C71_error_channels, C71_error_states, C71_initial_channel, C71_states, C72_applications, C72_gates, C72_generators, C72_states, C72_superoperators, C72_superoperators_gradient, C72_symplectic, C73_distance, C73_general, C73_symplectic, C73_unitary, C73_unitary_distance, C73_unitary_slope, C74_amps, C74_apparatus, C74_error, C74_evolution, C74_saved, C75_grids, C75_limit, C75_sampled, C75_sine, C76_accepts, C76_draws, C76_scale, C76_shown, C76_shown_partial, C76_violated, C76_violated_window, C76_window, C77_adaptive_partial, C77_equal_partial, C77_violated, C78_distance, C78_general, C78_interior, C78_unitary, C79_goal, C79_limit, C79_time, C80_config, C80_construct_partial, C80_reset_partial, C80_violated_optim_method, C80_violated_prop_type, C80_violated_zero_bound, C81_defaults, C81_numbers, C81_partial, C81_violated_approx, C81_violated_diag, C81_violated_tdapprox, C82_check, C82_failed_partial, C82_partial, C82_unasked_partial, C82_violated_shape, C82_violated_stale, C83_continued, C83_errors_add, C83_pulled_back, C83_stages, C84_basis, C84_controls, C84_kinds, C84_refined_grid, C84_units, C85_amps, C85_evolution, C85_overlap, C85_rates, C85_trace_difference, C86_apparatus, C86_error, C86_limit, C86_motion, C86_sampled, C87_goal, C87_limit, C87_returned, C87_stopped, C88_violated_long_drift, C88_violated_short_ctrls, C88_violated_short_drift, C89_closed, C89_closed_distance, C89_general, C89_nearby, C89_returned, C89_stopped_partial, C89_symplectic, C89_violated

* Quot.sound, propext (28): C02_set_evo, C02_set_num, C02_set_tau, C20_rejected, C32_params, C36_violated_no_generators, C43_complete, C43_section_partial, C43_sections, C50_dyn_gen_partial, C50_interchangeable_partial, C55_apply, C59_level_partial, C62_early_violated, C62_onto_states_violated, C62_onwd_states_violated, C62_target_partial, C62_target_violated, C62_views_partial, C66_violated_summary_result, C67_file_partial, C68_current, C68_generator_partial, C68_kept, C68_reuse_partial, C88_arrays, C88_slots_partial, C88_unchecked

* none (15): C32_violated_ignored, C37_read, C37_read_dynamics, C43_no_file, C43_violated_float, C43_violated_text, C50_violated, C56_violated_dyn_params, C56_violated_notset, C56_violated_second, C57_not_swallowed, C57_text_partial, C57_violated_text, C59_level_violated, C63_flags

* propext (14): C32_construct_partial, C32_violated, C32_violated_lbfgsb, C32_violated_second_run, C43_no_create, C43_types, C43_violated_defaults, C56_create, C56_dictionaries, C56_own_partial, C56_violated_shared, C57_family, C57_result, C63_slot_violated

* Quot.sound (1): C43_violated_rest

## Deviations of the code from the properties

Each is a theorem with a witness, or for all inputs of the kind named.

* `C07_violated_evo_time`: C07 is violated (total time). The same for assigning `evo_time`.
* `C07_violated_generator_phase`: C07 is violated (generator phase). After setting the phase to 0 the system does not evolve, but the old error is still reported.
* `C07_violated_phase_option`: C07 is violated (phase option). After switching from SU to PSU the global phase is still counted as an error.
* `C07_violated_tau`: C07 is violated (durations). After changing the slot duration to 0 the reported fidelity error is still that of the old duration.
* `C08_violated`: C08 is violated. The caller initialises with array 0 (amplitude 0: error 0), asks for the error, changes the array in place to amplitude 1 (error 2) and submits it again: the change is not recognised and the old error is returned.
* `C14_violated`: with the two-slot system, at zero amplitudes and for every step, the reported gradient is not the difference quotient of the reported error.
* `C14_violated_limit`: C14 is violated in the limit: with the two-slot system and amplitude 1 in the first slot, the reported entry grows without bound as the step goes to zero. The code multiplies the propagators of the slots in reverse order, and `(err' - err) / epsilon` divides the difference of the two orders by the step.
* `C20_violated_su`: for the phase option `SU`: raising the memory optimisation level from 0 to 1 turns an `IndexError` into a fidelity. This holds for every system of dimension at most 400 (data type unset).
* `C20_violated_symplectic`: for symplectic dynamics: with the data type unset, memory optimisation level 1 (or higher, for more than one mode) makes the evolution raise `AttributeError`, because the phase is created as an array before the data type `Qobj` is chosen; at level 0 it works.
* `C20_violated_toggle`: when caching is switched off and the object re-initialised: the generators used for the propagators stay those of the amplitudes before.
* `C21_violated`: C21 is violated. With the Qobj data type, entry 0 of the onward view is not the evolution from slot 0 to the end (at amplitude 1 that is -1, the view shows 1).
* `C24_violated_linear_gradient`: C24 fails for the gradient argument of linear pulses: its value has no influence at all on the pulse.
* `C24_violated_linear_single`: C24 fails for a linear pulse of one slot: the gradient is divided by the zero distance between the start of the first and of the last slot, and the amplitude is nan.
* `C24_violated_num_waves`: C24 fails for the number of waves: configured through the frequency, the generator reports `pulse_time / freq` waves, not the `freq * pulse_time` that occur. With frequency 2 over a pulse of length 4 there are 8 waves but 2 are reported.
* `C24_violated_reinit`: C24 fails for a second initialisation: it derives the frequency from the number of waves wrongly calculated before, and the frequency configured by the user is lost.
* `C25_violated_infinite`: C25 fails for infinite bounds on the zero and random generators: with the documented default `-inf` as lower bound and an upper bound that has to be enforced, every amplitude becomes `-inf`.
* `C25_violated_unchecked`: C25 fails for the zero and random generators, which are not initialised by `gen_pulse`: inverted bounds are accepted. The zero generator then returns nan, the random one amplitudes above both bounds.
* `C26_violated_fourier_diverges`: C26 fails for a negative minimum wavelength: it is not rejected, and the decomposition never ends.
* `C26_violated_walk2_scaling`: C26 fails for the scaling of the second walk: documented to be factored by `scaling`, the limit on the change of step is not. With limit 1 and scaling 1/4 there are random numbers for which the step changes by 3/4.
* `C27_violated_monotone`: C27 fails for monotonicity with only a negative upper bound: raising an amplitude from -2 to -1 lowers its bounded value.
* `C29_violated_stale`: C29 fails for the base class when the bounds are changed between two runs: the second run still uses those of the first.
* `C30_violated_bfgs`: C30 fails when BFGS converges (`warnflag` 0): the result says that the run has not been started.
* `C30_violated_case`: The hypotheses of `C30_violated_grad_min` (hence of `C30_returns_partial`, `C30_replies`, `C31_returned`) are met by a run with an error evaluation at `u = π/2`, one iteration and a gradient evaluation, in which the gradient norm is 1 and its minimum 1/2: the result claims that the minimum was reached.
* `C30_violated_grad_min`: C30 fails when L-BFGS-B returns with `warnflag` 0 or BFGS with `warnflag` 2: the gradient norm minimum is reported as reached although the norms of all gradients evaluated in the run are at least that minimum.
* `C31_violated_fidelity`: C31 is violated (fidelity). The result documents its attribute `fidelity` as the final fidelity that was achieved, but no run of any class sets it: it is always 0. A run of any class whose final error is below 1 shows the contradiction, for example one that reaches the error 0 exactly.
* `C31_violated_grad_norm`: C31 is violated (gradient norm). Every optimiser class, started on fresh dynamics and reaching its goal (error 1, target 1) at the first point `u = π/2`, reports the gradient norm 0; the norm of the gradient at the final amplitudes is 1.
* `C31_violated_sum_of_squares`: C31 is violated (sum of squares). `grad_norm_final` is documented as the sum of the squares of the gradient (optimresult.py 36-38). A run stopped by the minimum gradient 1 at `u = π/6` reports 1/2, the square root; the sum of the squares at the final amplitudes is 1/4.
* `C32_violated`: C32 is violated: the user asks for `gtol=8` and `maxiter=7`; `minimize` gets them, but L-BFGS-B gets the termination conditions' 3 and 100.
* `C32_violated_construct`: C32 is violated at construction: a memory size or tolerance given among the optimiser parameters is overwritten by the class's default.
* `C32_violated_ignored`: C32 fails for BFGS, L-BFGS-B and Nelder-Mead: the iteration, evaluation and gradient limits they get are those of the termination conditions whatever the user's options say, and no other option is passed on.
* `C32_violated_lbfgsb`: The same for L-BFGS-B and the three limits.
* `C32_violated_second_run`: C32 is violated in a second run: the default `maxiter=100` derived from the termination conditions in a first run stays in the options, and the second run passes it on although the termination conditions now say 200 and the user never gave that option.
* `C33_violated_goal`: C33 is violated (goal ignored). On a new `TerminationConditions` object (error target `1e-5`, no goal) the user sets only `fid_goal = 0.9`: the run still uses `1e-5`.
* `C33_violated_lbfgsb`: C33 is violated (L-BFGS-B). With `config.accuracy_factor` set and no termination conditions, the error is AttributeError and not a usage error.
* `C33_violated_second_run`: C33 is violated (second run). A run with only `fid_goal = 0.9` configured writes the error target `0.1` into the user's object; when the user then sets `fid_goal = 0.99`, the next run still uses `0.1`.
* `C34_violated_flag_all`: C34 refuted for `flag_all_calc_now`: after amplitudes are supplied, everything is flagged and the evolution computed, the full evolution is still the placeholder it was before — for every system and every placeholder — although the computer reports the evolution as current.
* `C34_violated_present`: C34 refuted for the classes as they are: `Dynamics` has no `compute_dyn_gen`, so whatever is done, no operator is ever computed; and the overlap cannot be asked for, since the method that chooses the slot has another name.
* `C34_violated_skipped`: C34 refuted for the gradient after a fidelity: asking for the fidelity first (choose a slot, compute) and then flagging everything for the gradient and computing leaves the forward operator of slot 1 a placeholder, since `compute_evolution` does nothing once it has run, whatever is flagged.
* `C34_violated_unmarked`: C34 refuted for the fidelity after a computation: when the evolution has been asked for without marking anything, the overlap computed afterwards uses the placeholder of the first onward operator.
* `C35_violated`: C35, violated. With file writing on and only the propagators chosen, the dump raises: the item is recorded but its summary is not.
* `C36_violated_content`: C36, violated. The sections for the onward and onto evolutions contain the forward evolution, whatever the operators are.
* `C36_violated_last`: C36, violated. The final forward operator, the evolution over the whole time, is never written.
* `C36_violated_no_generators`: C36, violated. Without the generators nothing after them can be written: with only the propagators chosen the file stays empty and TypeError is raised.
* `C36_violated_onwd`: C36, violated. A section for the onward evolution that is not the onward evolution.
* `C37_violated_custom`: C37 is violated: CUSTOM. Assigning the documented level CUSTOM always raises ValueError, whatever the flags and the class.
* `C37_violated_dumping_custom`: The same through `dumping` of optimiser and dynamics, in any letter case, whether or not a dump object exists.
* `C37_violated_rejected`: C37 is violated: a rejected level is not forgotten. A dump object that could be reset before cannot be reset any more after a rejected assignment.
* `C38_violated_base`: C38, violated. If the base name is changed after the first record, the new summary file begins without a header, and the records before it are missing from it.
* `C38_violated_number_format`: C38, violated. The log of errors written along the way is not what `writeout` writes: the numbers are printed differently.
* `C38_violated_numbers`: In general: the two differ exactly as the two ways of printing.
* `C38_violated_old_name`: C38, violated. The logs of numbers keep going to the file of the old base name, also in `writeout`, while summaries and gradients follow the new one.
* `C39_violated_array`: A start pulse given as a numpy array cannot be used together with limits.
* `C39_violated_integers`: With a start pulse of integers the limit itself is cut to an integer.
* `C39_violated_zero`: Without a start pulse the first iteration is zero, which may be outside the limits.
* `C40_violated`: So the two functions disagree: a concrete case of the theorem above.
* `C40_violated_late`: The penalty for late amplitudes grows with the slot number in one function and with its square in the other: without limits the second rows differ by this.
* `C40_violated_negative`: A negative penalty parameter is ignored by `cy_grape_unitary` only.
* `C41_violated`: In general it is not: one iteration with step size `π` makes the amplitude `-π`, whose propagator is `-1`, while the propagator returned is that of the zero pulse.
* `C41_violated_adaptive`: So the propagator and the pulse returned by the adaptive function do not belong together (C41).
* `C41_violated_rows`: The adaptive function returns one row less than it made iterations and none of the last iteration, whose trials the returned propagator belongs to.
* `C42_violated`: The adaptive function can lose what it found: in this run the first iteration finds a pulse with overlap `√3/2`; the second one fails and is undone, but the pulse then returned is another trial of the first iteration, with overlap `-√3/2`, worse than the start (overlap 0). The propagator returned is that of the rejected trial, not that of the pulse returned.
* `C43_violated_defaults`: Attributes not named in the section are set if the default section of the file names them.
* `C43_violated_float`: Floats do not stay floats: an expression gives whatever it evaluates to.
* `C43_violated_rest`: An option that cannot be applied keeps the later ones of its section, all in order, from being applied; which ones depends on the order in the file.
* `C43_violated_text`: Texts do not stay texts: a text that reads as a number or a truth value becomes one.
* `C44_violated_broken`: A link leading nowhere is taken for a directory made by another process.
* `C44_violated_race`: A file made by another process just then is taken for a directory.
* `C44_violated_read`: Reading `dump_dir` can return the name of a place that is no directory: only assigning resets the name after a failure.
* `C44_violated_relative`: A relative name with `~` somewhere else than at its beginning is not made absolute.
* `C44_violated_special`: A pipe or a device is taken for a directory.
* `C45_violated_crab`: C45 fails: asked for CRAB with a gradient method, it returns an optimiser that is not one for CRAB, together with a list of CRAB generators.
* `C45_violated_fid`: C45 fails: the documented name "TD_APPROX" of a fidelity computer is never accepted.
* `C45_violated_pulse`: C45 fails: an unknown pulse type is reported by a value error, not by a usage error; so is a known type spelt in lower case.
* `C45_violated_tslot`: C45 fails: the timeslot computer that was asked for is not used. With `tslot_type="DYNAMIC"`, a documented option, the returned optimiser has the default one, whatever else is asked for.
* `C46_violated_case`: C46 fails for CRAB: with a spelling of "CRAB" other than upper case `optimize_pulse` never starts the optimisation, although the optimiser itself is created.
* `C46_violated_pulse_params`: C46 fails for the scaling of the initial pulse: with GRAPE the entry `scaling` of `init_pulse_params` is replaced by the default of `pulse_scaling`.
* `C46_violated_tslot`: C46 fails for the timeslot computer: `optimize_pulse` does not pass on `tslot_type` and `tslot_params`; whatever they are, the outcome is the same.
* `C46_violated_zero_bound`: C46 fails for bounds equal to zero: with CRAB, the generator of every control has no lower bound if the lower bound is the number zero; the same holds for the upper bound.
* `C47_violated_across_calls`: C47 fails across calls: a dictionary used in two calls carries the keyword of the first into the second. Here the second call does not mention `max_metric_corr`, and its optimiser has the first call's value; with a dictionary of its own it would not.
* `C47_violated_crab`: C47 fails across calls for `opt_pulse_crab`: the number of coefficients of the first call stays in the caller's `alg_params` and overrides the keyword of the second.
* `C47_violated_phase_option`: C47 fails across calls also for `optimize_pulse_unitary`: the default of `phase_option` is written into the caller's `fid_params`, so that a second call asking for "SU" gets "PSU".
* `C47_violated_scale_factor`: C47 fails for the scale factor: if the caller sets `scale_factor` in `fid_params`, the deprecated `fid_err_scale_factor` replaces it, in the optimiser and in the caller's dictionary.
* `C48_violated_ragged`: for ragged lists: a later row with a single operator is silently used for all controls of that slot.
* `C48_violated_stale`: on reconfiguration: the number of controls is computed once. After an initialisation with one control, an object given two controls and initialised again still has one.
* `C49_violated_dynamic`: In the dynamic update mode the calculation raises if nothing was counted, and the later means are left as they were.
* `C49_violated_dynamic_second`: In the dynamic update mode the numbers of computations are not cleared when a run starts, but the times and the number of updates are: with the first run as before, a second run that computes two propagators in two seconds for one update reports six propagators per update and a third of a second for each.
* `C49_violated_iterations`: The number of iterations in the statistics is not the one in the result: the iteration in which the time limit is exceeded is not counted, and an algorithm that starts counting at one and stops before its first iteration has one.
* `C49_violated_last`: What is computed for the result after the minimiser returned counts in the categories and not in the time of the run: the pulse returned is not the one tried last, and the time of the end was taken before the fidelity of this pulse was computed.
* `C49_violated_running`: `calculate` during a run does not set the time to the time so far, as its comment says: it stays zero, whatever was computed.
* `C50_violated`: by the Hamiltonian names on reconfiguration: once an initialisation has happened, a newly set Hamiltonian is ignored (and overwritten).
* `C51_violated_case`: by letter case: `"PREOP"` is accepted by the setter, but the initialisation then raises `ValueError`.
* `C51_violated_read`: by an earlier read: reading `dyn_gen_phase` stores `-Ω`, and switching to `"preop"` before the initialisation keeps it, so generators are phased with `-Ω·A` instead of `Ω·A`: the evolution runs backwards.
* `C52_violated`: In general the iteration does not follow the gradient: here the objective has derivative zero, but the amplitude moves by the step size times one.
* `C53_violated_edge`: C53 fails for short Gaussian-edge pulses: with the decay time at its default, a tenth of the pulse time, and a pulse time of 1/10, the pulse neither starts at zero nor reaches one: it is negative in every slot, however many there are, and starts below -1/3.
* `C53_violated_mean_zero`: C53 fails for a peak at the beginning: asking for the mean 0 is taken for not asking, and the pulse is the one with the mean of the attribute.
* `C53_violated_variance`: C53 fails for a negative variance, which is not rejected: without bounds and with a positive scaling, the pulse is above the documented maximum `scaling + offset` in every slot that does not begin at the mean.
* `C53_violated_zero`: C53 fails for a variance or a decay time of zero, which are not rejected either: a slot that begins at the mean, and the first slot of a pulse with Gaussian edges, have the amplitude nan.
* `C53_violated_zero_decay`: C53 fails for a decay time of zero, a pulse without ramps: without bounds every slot that begins strictly inside has the full value, but the first is nan instead of zero, and so is a slot that begins at the end.
* `C53_violated_zero_variance`: C53 fails for a zero variance, which is not rejected: without bounds the slots that begin at the mean have the value nan, and all others only the offset.
* `C54_violated_action`: C54 fails for unknown guess pulse actions: a missing or unknown action, announced as being ignored, makes the initialisation raise `AttributeError`, where with a known action it succeeds.
* `C54_violated_free_freqs`: C54 fails for optimised frequencies: the harmonics generated at initialisation have no influence on the pulse, the frequencies start out as random as the other coefficients.
* `C54_violated_guess`: C54 fails for bounded guess pulses: with bounds, coefficients that are all zero do not reproduce the guess pulse although it lies well within them.
* `C55_violated_empty`: `apply_params` with an empty dictionary is not without effect: it applies the earlier dictionary again, undoing an assignment made since.
* `C55_violated_fix_freqs`: the CRAB generator takes `fix_freqs` from the argument of the constructor (by default true), whatever the dictionary says.
* `C55_violated_forgotten`: a second dictionary makes `reset` forget the one given to the constructor.
* `C55_violated_randomize_freqs`: the CRAB generator ignores `randomize_freqs` and `freqs` in the dictionary, whatever their values.
* `C55_violated_reset_basis`: `reset` of a CRAB generator with optimised frequencies does not bring back the state after construction: the number of basis functions drops from three to two while the frequencies are still to be optimised.
* `C56_violated_dyn_params`: the level of the dynamics in `dyn_params` does not reach the timeslot computer, although this takes its level from the dynamics.
* `C56_violated_notset`: without a level the documentation promises the level of the settings, by default `WARN`; it is the level of the call before.
* `C56_violated_second`: creating a second optimiser changes the level of the components of the first.
* `C56_violated_shared`: setting the level of one object sets that of every other object of its module.
* `C56_violated_twice`: asking twice for the logger of a name shows every message twice.
* `C57_violated_text`: asking for the text of any exception that ends an optimisation raises an AttributeError.
* `C58_violated_broadcast`: a single time is written into every line.
* `C58_violated_silent`: times of the wrong number are not written and no exception tells so: the call returns as if the file had been saved.
* `C58_violated_unwritable`: a file that cannot be written is no exception either.
* `C59_class_violated`: C59 violated (classes). The check is called by every time slot computer, but the method exists in `DynamicsUnitary` only: on the other classes a level other than 0 makes the evolution raise `AttributeError`.
* `C59_computer_violated`: C59 violated (computers). Level 2 with any other than the diagonalising propagator computer makes the evolution raise `TypeError`; so does level 1 as soon as some propagator is not unitary, which is the case the check is there to report.
* `C59_level_violated`: C59 violated (level). Initialisation with log level `DEBUG` replaces a requested level 2 by 1, and switches the check on where it was not requested.
* `C59_logging_violated`: C59 violated (logging changes results). The same system, whose propagator is not unitary, with the exact gradient computer and no check requested: at log level `INFO` (20) the evolution is computed, at `DEBUG` (10) it raises `TypeError`.
* `C59_tolerance_violated`: C59 violated (tolerance). With the default tolerance `1e-10` a propagator `P` with `P·P† = exp(4e-6)`, off by more than `4e-6`, is accepted without a warning: `np.allclose` adds its own relative tolerance `1e-5`.
* `C60_none_violated`: C60 violated. On unitary dynamics `None` is accepted by the setter in every state reached by other assignments, and the next initialisation then raises `ValueError`.
* `C60_option_violated`: C60 violated. A rejected option is nevertheless what `phase_option` reports afterwards, while the fidelity goes on being measured with the previous one; also through the old name `set_phase_option`, which rejects its own default.
* `C61_diag_violated`: C61 violated. With the diagonalising computer, the default of unitary dynamics, a closed system evolves with `exp(-i·H·τ)` whatever phase is assigned; the gradients are multiplied by `i·phase`.
* `C61_violated`: C61 violated, concretely: a qubit with `σz` drift, computed at once after the assignment `dyn_gen_phase = 1j`, evolves forwards instead of backwards.
* `C62_early_violated`: C62 violated. Read between initialisation and computation, the forward list of arrays raises `TypeError` once, and then is shown with the initial operator as its only entry.
* `C62_onto_states_violated`: C62 violated for state transfer with arrays: the operators of the onto evolution are bras and get the dimensions of the ket. The first reading raises `ValueError`, every later one shows an empty list.
* `C62_onwd_states_violated`: C62 violated for state transfer with arrays: the onward operators get the dimensions of the ket, and reading them raises `ValueError` every time.
* `C62_target_violated`: C62 violated. Once read, the inverse target stays what it was when the target changes and the evolution is initialised again, while the onto evolution is computed with the new one; for arrays the last entry of the public onto list is the old one too.
* `C63_combine_violated`: violated: combining a generator by its old name raises `TypeError` in every state.
* `C63_ctrl_violated`: With controls that depend on time the old name gives the generator of another slot.
* `C63_grad_violated`: violated: differentiating a propagator by its old name raises `TypeError` for all arguments, whatever the method does, although the present name accepts them.
* `C63_slot_violated`: violated: the slot for the overlap by its old name is no number.
* `C65_violated_dir`: Once a file was used, a new directory is not taken up for it: the summary and the logs go on being written in the old one, although `dump_dir` shows the new one.
* `C65_violated_forgotten`: A name given for the summary is forgotten when the base name is assigned.
* `C65_violated_names`: The same holds of a new extension, for the summary too, and of a new base name for the logs.
* `C65_violated_summary`: A summary file given by name is not put in the dump directory, and `~` in it is not replaced: the name is used as it is, relative to the current directory. This holds for every name.
* `C66_violated_difference`: C66 violated (gradient by differences). The message that announces the gradient, of severity `DEBUG`, is written at the level `DEBUG` only, and not at the more detailed levels.
* `C66_violated_intense`: C66 violated (at `DEBUG_INTENSE`). With exact gradients computed along with the propagators – the defaults – and at least one slot and one control, every request in every history raises `AttributeError`: the text of a message is made from an attribute the object does not have.
* `C66_violated_summary_result`: C66 violated (summary, more controls that depend on time than slots). At `INFO` and below there is an `IndexError` instead of the result that is returned at the other levels.
* `C66_violated_summary_rows`: C66 violated (summary, controls that depend on time). What is shown as control `j` is the row of slot `j`, with one operator for every control.
* `C67_violated_custom`: C67, violated: the method that applies the phase survives a `reset`: with the option 'custom' an object that used 'preop' before goes on with that method, a new object uses the one of its class.
* `C67_violated_file_tau`: C67, violated: durations from a parameter file are converted to single precision, those of a dictionary are not: durations that the conversion changes differ.
* `C67_violated_phase_param`: C67, violated: a phase in the dictionary of symplectic dynamics ends the construction with an `AttributeError`: the property has no setter there.
* `C67_violated_stale`: C67, violated: an attribute that an earlier dictionary created and that neither `reset` nor the present dictionary names keeps its value over a `reset`; a new object has no such attribute.
* `C67_violated_tau_order`: C67, violated: durations followed by a number of slots or by a time are dropped: what remains are equal slots of the number and the time, the one not given being that of the durations. The same entries the other way round keep the durations (`C67_slots_given_partial`).
* `C68_violated_fewer`: C68, violated: an object used for three controls and then initialised for two raises `IndexError` when the generator is combined.
* `C68_violated_level`: C68, violated: raising `memory_optimization` after the first initialisation changes nothing: the caches that a new object would do without stay (dynamics.py 625-673).
* `C68_violated_list`: C68, violated: an object used for controls given for each slot and then initialised for a plain list raises `TypeError` when the generator is combined: `time_depend_ctrl_dyn_gen` is never set back (dynamics.py 1133-1139).
* `C68_violated_more`: C68, violated: an object used for two controls and then initialised for three ignores the third without a word (`_num_ctrls` is worked out once, dynamics.py 1129-1150): the generator lacks it.
* `C68_violated_nested`: C68, violated: a new object accepts a list of lists of controls, one used before does not: `_ctrl_dyn_gen_checked` is never set back, so the list of lists is not made an array (dynamics.py 720-722) and, with arrays as the data type, `c.full()` of a list raises `AttributeError`.
* `C68_violated_omega`: C68, violated: symplectic dynamics keep the matrix `omega` and the phase made of it with the dimension of the first system (dynamics.py 1781-1826).
* `C68_violated_scale`: C68, violated: an object used for operators of two rows keeps the scale factor 1/4 of the trace difference when it is initialised for operators of four rows, where a new object has 1/8 (fidcomp.py 585-586): the fidelity error is twice what it should be.
* `C68_violated_unread`: C68, violated: whether controls given for each slot can be initialised depends on whether `num_ctrls` was read before, if an operator and an array of operators cannot be added: the kind of the controls is only found out there, after the data type was chosen by adding rows as if they were operators (dynamics.py 684-694, 724-726, 1133-1139). The optimiser objects read it first.
* `C70_violated_form`: The heading announces `HH:MM:SS.US`. No time below ten hours is shown in this form, nor is any time of whole seconds, nor one of a day or more.
* `C70_violated_running`: A report during a run shows no time for the run, and no shares, although `calculate` was called before as documented.
* `C70_violated_shares`: With the run of `C49_violated_last` the four shares shown are fifty percent each.
* `C76_violated`: The plot shows every amplitude one slot too early: `step` is called without `where`, so each amplitude is drawn up to its time, while GRAPE applies it from its time on. A run that applies 0 in the first and 1 in the second slot, as the returned propagator shows, is drawn as 1 throughout; the amplitude of the first slot is not drawn at all.
* `C76_violated_window`: Times need not start at zero for GRAPE, but the plot always does: a pulse from time -3 to time -1 lies outside of the axis, which goes from 0 to -1.
* `C77_violated`: For other times it is not: all slots are taken to be as long as the first. Under the Hamiltonian 1 the evolution from time 0 to 3 is `exp(-3i)`, but for the times 0, 1, 3 the propagator returned is `exp(-2i)`.
* `C80_violated_optim_method`: C80 is violated (`optim_method`). `run_optimization` documents that the method is taken from the attribute `optim_method`. A new optimiser does not have this attribute; giving it as a parameter or assigning to it later creates it, but the method handed to the minimiser stays the one of the undocumented attribute `method`; and no parameter file can set it.
* `C80_violated_prop_type`: C80 is violated (`prop_type`). A new configuration lacks the documented attribute `prop_type`, so a parameter file cannot set it: whatever a file says, the configuration still lacks it afterwards, while it can set `fid_type`.
* `C80_violated_zero_bound`: C80 is violated (bounds of the configuration). A bound that the configuration has is taken over by a new optimiser, unless it is zero: an optimiser for a configuration with the bounds 0 and 1 has no lower bound.
* `C81_violated_approx`: C81 fails: `create_pulse_optimizer` accepts GRAPE with the approximate propagator computer and the default fidelity computer, of any dynamics; the error can be computed but the gradient that the optimiser needs raises `TypeError` (cached gradients) or `UsageError`.
* `C81_violated_diag`: C81 fails: `create_pulse_optimizer` accepts propagators by diagonalisation for general and symplectic dynamics; whatever the system, every request for the error or the gradient then raises `UsageError`.
* `C81_violated_tdapprox`: C81 fails: `create_pulse_optimizer` accepts the finite difference fidelity computer with propagator computers that cannot compute the propagators it needs, among them the default ones; the gradient then raises `UsageError`.
* `C82_violated_shape`: C82 fails: arrays of a wrong shape are accepted, by initialisations and by updates. With too few rows or columns the next request raises `IndexError`; surplus rows and columns are ignored; and an array with one row is taken for no change when it repeats the rows in place.
* `C82_violated_stale`: C82 fails: after a request for the error (or the gradient), an initialisation for another system that raises an exception midway is not noticed: the next request returns the number of the old system and the old amplitudes again, although the object has no amplitudes any more, and the check whether the controls are initialised passes.
* `C88_violated_long_drift`: C88 fails for a drift that is given for too many slots: everything succeeds, and the operators beyond the last slot are ignored without a word.
* `C88_violated_short_ctrls`: C88 fails for controls that are given for too few slots with `Qobj` as the data type: the initialisation succeeds, the last slot raises `IndexError`. With arrays the same controls are refused by the initialisation.
* `C88_violated_short_drift`: C88 fails for a drift that is given for too few slots: documented is one operator for each slot (dynamics.py 232-236), but the length is never compared with the number of slots; the initialisation succeeds, the first slots have generators, and the first slot without an operator raises `IndexError` in the middle of the first evaluation.
* `C89_violated`: C89 fails when L-BFGS-B returns with `warnflag` 0, for instance because the error has stopped to fall: the result says that the gradient minimum (1/2) was reached, but at the final amplitudes the error falls at the rate 1.
