{
"C01": ["`_utils.py` on ordered dictionaries", "induction over the dictionary"],
"C02": ["`update_pam_if_numeric`", "induction over the list of updatable keys"],
"C03": ["driver, handler, both carbon cycles, both thermal models as a state machine over a list of runs", "simulation relation between two histories, induction over runs and years; negation by concrete pairs of runs"],
"C04": ["`check_pamset_consistency`, `_run`", "invariant over lists of runs"],
"C05": ["`calculate_hemispheric_forcing`; whole runs with the reported forcing table", "algebra over ℝ, case analysis on the tracer; induction over the components and the perturbation rows of a year"],
"C06": ["`conc2forc` and the driver's reporting", "fold invariant for one year; `C06_run` lifts it to every year of every history"],
"C07": ["all forcing branches of `conc2forc`", "case analysis per component, start-year values cancel"],
"C08": ["the aerosol weight of `conc2forc`", "sums of same-signed terms; negation by a perturbed run"],
"C09": ["`ForcingPerturbation.add_forcing_pert`", "induction over perturbation rows"],
"C10": ["forcing perturbation of pre-computed gases", "induction over rows (last one wins); negation with two rows"],
"C11": ["`perturb_emissions`", "induction over rows, frame updates"],
"C12": ["`emi2conc` and `fill_one_row_conc` in a concentration run", "fold over the gas table, lifted to every history"],
"C13": ["the decay update of `emi2conc`", "ODE solution over ℝ (derivative and initial value), convexity bounds"],
"C14": ["`_precalculate_concentrations_vanilla_gases` against `emi2conc`", "induction over years"],
"C15": ["`_add_precalculated_strat_o3`, `calculate_strat_quantities`", "list indexing, algebra"],
"C16": ["the whole driver loop with arbitrary carbon cycle and thermal model", "relational induction over years"],
"C17": ["`methane_lifetime`", "case analysis on the mode, positivity of exp"],
"C18": ["default carbon cycle step", "induction over sub-steps and years; `C18_run` for whole runs"],
"C19": ["default carbon cycle step", "telescoping sum over sub-steps"],
"C20": ["`back_calculate_emissions`", "induction over years, from the stopping rule of the search"],
"C21": ["`_guess_emissions_iteration`", "well-founded recursion, invariant of the bracket, geometric decrease"],
"C22": ["box carbon cycle step", "sum over boxes, induction over sub-steps; `C22_run` for whole runs"],
"C23": ["box carbon cycle step", "algebra at the fixed point"],
"C24": ["the temperature feedback functions", "real analysis of the sigmoid"],
"C25": ["`_get_ocean_pco2` polynomial branches", "derivatives at the joints, positivity by polynomial bounds"],
"C26": ["`rfuns.py`", "sums of coefficients, exponentials; both branches of the default functions"],
"C27": ["`_process_flat_carbon_parameters`", "induction over keys, injectivity of the key index"],
"C28": ["`get_airborne_fraction`", "list induction"],
"C29": ["two-layer model", "algebra per sub-step, telescoping over the year"],
"C30": ["two-layer model", "spectral bound of the 2×2 step, convergence of geometric series"],
"C31": ["both thermal models' use of volcanic forcing", "algebra; negation with concrete years"],
"C32": ["two-layer heat content", "algebra"],
"C33": ["upwelling diffusion ocean", "sum over layers of the solved tridiagonal system"],
"C34": ["surface air balance of the diffusion model", "linear algebra"],
"C35": ["the tridiagonal system of the diffusion model", "diagonal dominance, maximum principle by induction over layers"],
"C36": ["one year of the diffusion model", "linearity by induction over sub-steps, uniqueness of the solve"],
"C37": ["`OHC` calculation of the diffusion model", "sums over layers"],
"C38": ["`set_feedback` of both models", "state invariant"],
"C39": ["sub-yearly forcing of the diffusion model", "algebra"],
"C40": ["driver loop and output arrays", "induction over years"],
"C41": ["`forc_set`", "case analysis on the input's columns"],
"C42": ["`cscmparwrapper`, `run_parallel`", "list induction"],
"C43": ["executor with arbitrary completion order", "permutation arguments; timeout as an arbitrary subset"],
"C44": ["chunking of configuration lists", "list induction"],
"C45": ["`make_config_lists` routing of names", "case analysis over the name tables; negation by `foan`, fixed rb/rs"],
"C46": ["configuration files as name → JSON maps", "round trip by induction over configurations"],
"C47": ["`InputHandler` precedence", "case analysis over supplied sources"],
"C48": ["`set_sun_volc_luc_defaults`", "case analysis"],
"C49": ["`read_inputfile`, in-memory tables", "filters on the year index"],
"C50": ["`read_data_on_year_row`", "list indexing"],
"C51": ["`reformat_cscm_results` sums", "list induction over the species tables"],
"C52": ["carbon pool outputs", "list induction (cumulative sums)"],
"C53": ["`pub_utils` name parser on strings", "parser invariants on code lists; negation with concrete names"],
"C54": ["`_check_array_consistency`", "case analysis"],
"C55": ["`make_regional_aerosol_gaspamdata`; its effect in a run", "induction over rows; run theorems over every history"],
"C56": ["`component_factory_functions`, driver options", "case analysis over arbitrary strings"],
"C57": ["`write_data_to_file` with each model's output dictionary", "lookup in the result dictionary; negation for the two-layer model"],
"C58": ["chunked file names", "injectivity of the file name; negation without `.json`"],
"C59": ["`conc2forc` branch by branch against `Spec/Forcing`", "case analysis; `C59_run` for every year of every history"],
"C60": ["three main gas forcing", "derivatives and explicit bounds over ℝ"],
"C61": ["`emi2conc` with arbitrary carbon cycle", "trace of calls by induction over years"],
"C62": ["`add_results_to_dict`", "frame lookups, every history"],
"C63": ["constructor and every run step", "progress lemma per function, invariant over runs"],
"C64": ["which configuration keys each read path looks at", "equality of construction for configurations that agree on the read keys"],
"C65": ["`_check_gaspam_compatibility`", "induction over the gas table"],
"C66": ["`read_forc`, `forc_set`", "column sums"],
"C67": ["`get_variable_from_results` and both models' outputs", "lookup per documented variable"],
"C68": ["file and in-memory unit routes", "case analysis over unit strings"],
"C69": ["default carbon cycle, mixed-layer sum", "induction over sub-steps; `C69_partial` is the exact convolution computed"],
"C70": ["default carbon cycle, land sum", "induction over sub-steps"],
"C71": ["driver loop with both carbon cycles", "trace of calls (C61) composed with the stand-alone carbon cycle; induction over years"],
"C72": ["`get_carbon_cycle_output` after an emission run", "the state after a run (C71) put through the table functions"],
"C73": ["`back_calculate_emissions` after a concentration run, interleaved with runs", "C20 at the state after a run; simulation relation that ignores the working variables"],
"C74": ["`CICEROSCM.__init__` with the input handler, runs", "the built state put through every run (C03), one field at a time"],
"C75": ["`cut_and_check_pamset`, the models' `required_pamset`s, `reset_with_new_pams`; README tables in Spec/Defaults", "runs on parameter sets that look the same to the code agree (run_agree)"],
"C76": ["`energy_budget` of the diffusion model, the reader's unit conversion", "invariant over sub-steps for the weighted means; C33 and C34 combined; negation for a first year of forcing"],
"C77": ["the tables added to the results after a run and the reader of results in memory", "every cell of the tables exists (invariants over the year loop), then the reader's dictionaries are looked up; the list of variables is a separate literal specification"],
"C78": ["The yearly step of the diffusion model with its 12 sub-steps, the banded matrices and right-hand sides, refreshed coefficients for temperature-dependent upwelling (Model/UDM).", "Comparison with the constant temperature M: M plus or minus the solution satisfies a system with the same strictly dominant matrix and a non-negative right-hand side, so the maximum principle bounds it; then induction over sub-steps and years."],
"C79": ["Same models as C20/C21 (`Model/Carbon`, `Model/BackCalc`).", "One sub-step per year: the year's concentration is an affine flux plus a strictly increasing pressure, hence strictly increasing and continuous in the emission; the intermediate value theorem gives the solution inside the interval and C21 the convergence. A witness shows that the interval can miss the emission. Any number of sub-steps: continuity in the emission is kept by every sub-step while the concentration is positive; the bisection keeps an interval with a solution."],
"C80": ["the parameter checks, the reset, the yearly forcing and the run loop", "induction over the history for the value in force, then the forcing of each year of the run"],
"C81": ["The driver loop (Model/Driver), both thermal models as it uses them (Model/ThermalInst), the forcing sources", "C81_two_layer, C81_diffusion: from the trace of the loop, by induction over the years, each series is the list of outputs of the model's own run; any number type. C81_emission_budget, C81_array_budget: with C06 and C29 the budget in the reported columns. C81_array_bounded: with C78, completion and bound for runs driven by an array. C81_diffusion_emission_budget, C81_diffusion_array_budget: with C33, C34, C76 and C91's chain of years the budget of the diffusion model in the reported columns (Spec/DiffusionReport)"],
"C82": ["`boxOutput`, `carbonCycleData`, `carbonTable` (Model/CarbonOut) on top of the whole driver run", "From C71_run_box (reported CO2 is the stand-alone box model) and an invariant of the box parameters over all runs; budget by induction over years at the reals"],
"C83": ["`write_output_to_files`, `write_data_to_file` and the end of `_run` as a list of writes and an outcome; files as grids of fields", "file names are injective in kind and prefix; columns of a written grid read back; the tables are those of `runResults`; negation for the two-layer model"],
"C84": ["Model/Batch.lean: the worker with the real driver, results dictionary and reader (Model/Driver, Model/Results, Model/Reader) inside the scheduling of Model/Parallel.lean", "C84_forcing: a run does not depend on the series the instance held before (lockstep); C84_default_partial, C84_box_partial: relation between the carbon cycles of a new and of a used instance kept by every year and by asking for the table, completeness of every further run, then C42_result; C84_workers_false: kernel-executed run with one and two workers"],
"C85": ["`read_natural_emissions`, `check_inputfiles`, `InputHandler` and the constructor of `CICEROSCM` (Model/InputHandler); files are a table from names to contents", "the built object is taken apart (`built`, `gas_run_inputs`), the file route of the input handler gives the table, and the table is indexed by year"],
"C86": ["`CarbonCycleModel.__init__`, `reset_co2_hold`, `precalc_r_functions`, `co2em2conc` as operations on an object (Model/CarbonInst), flat keys (Model/FlatParams)", "induction over the life of the object: what it holds under the two names is what was given latest, and its response arrays belong to what it holds"],
"C87": ["`Model/Sampling.lean` (construction with prior, both samplers, the default tables; the unit sample and the normal draws are inputs; `qmc.scale` and `np.random.normal(loc, scale)` by their documented formulas and refusals)", "the column of a parameter is the same in prior and configuration; order arithmetic; table check for the default prior"],
"C88": ["The upwelling-diffusion model as for C33-C36: object, sub-steps, tridiagonal systems, yearly outputs, with an exact solver.", "A quiet year at the start leaves the object as constructed, so the response to one more year minus the response so far is, by linearity (C36), the response to a single pulse and by the maximum principle (C35) not negative: temperatures rise. Bounded by C78, hence convergent; the sign restriction is removed by splitting the forcing into parts. The heat content's increments then vanish and the heat budget (C33) and surface balance (C34) determine the limits."],
"C89": ["The driver with the tables of its results dictionary, over a list of calls (`Model/Session.lean`); results as dictionary or as files.", "Invariants by induction on the history; a run does not read the series held before; the witnesses for stale tables are executed by the kernel."],
"C90": ["`Model/UDM.lean`: `wcfac`, `setupEbud2`, `refresh`, `subStep`, `energyBudget`, `run`; the equation is `DeepStep` with `down` and `upwelling` in `Spec/Diffusion.lean`", "`C90_layers_partial` by induction over the sub-steps of a year after any history, from the rows of the tridiagonal systems. The claim is false of the code in the first sub-step of each year, where upwelling is that of an unwarmed ocean. `C90_annual_false`: with one sub-step per year the threshold has no effect on any output of any history"],
"C91": ["`Model/Driver.lean`: `run` for both kinds of source; `Spec/Replay.lean` says what a replay is (`Replays`) and which series must agree (`SameSeries`)", "`C91_table`: for every thermal model, by following both runs year by year from the chain of handler states of the first (`RunChain`). `C91_two_layer`: the array of totals suffices when the feedback does not depend on aerosols. For the diffusion model the claim with the array is false (`C91_diffusion_false`: black carbon alone); `C91_diffusion_partial` says exactly when it holds: if and only if the hemispheres were forced alike in every year"],
"C92": ["`Model/Shared.lean`: `leftBehind`, the caller's dictionary with the tables the model shares with it; `Spec/Reuse.lean`: which configurations keep their tables", "`C92_dictionary`: entry by entry. `C92_build_again`: the sanitised settings of the updated dictionary are the sanitised settings of the original, so the constructor's update changes nothing the second time. `C92_reuse_partial`: the gas table does not change in a run (`run_gas`) when the natural emissions are those of the table. False with perturbed emissions given as data (`C92_perturbed_false`), and of a gas table shared by two configurations (`C92_shared_table_false`)"],
"C93": ["run with prescribed forcing through both thermal models (Model/Driver, TwoLayer, UDM, ThermalInst); Spec/Superpose states the inputs of a year, superposition, order and the parameter range", "the years of the thermal model are the inputs of the run (C81); two-layer: induction over the years on three (two) states; diffusion: C36 linearity, C35 positivity of the difference history, C76 and C37 for surface means and upper ocean heat content"],
"C94": ["construction and yearly forcing of two handlers side by side (Model/Handler, Driver); Spec/OneGas states what differs, the kind of gas and its documented effect", "relational invariant between the two handlers (Lemmas/OneGas, OneGasRun), kept by reset, every year and every run; the temperatures by the order theorems of C93 applied to the forcings of the years"],
"C95": ["construction, reset and runs of two drivers side by side (Model/Handler, Driver, CarbonInst); Spec/Length and Spec/LookAhead state what is equal", "relational invariant between the two runs up to the last common year (Lemmas/Agree, AgreeConstruct, AgreeRun), the same that gives C16; carbon cycle models by relating the two model objects; the exception by kernel-executed runs"],
"C96": ["construction, reset, emi2conc, conc2forc and runs of two drivers side by side (Model/Handler, Driver); both thermal models (Model/ThermalInst)", "simulation relation between the two handlers that lets CO2, and the forcings of CO2, N2O and the total, differ (Lemmas/Co2), the two forcings by the formulas of Spec/MoreCo2; real analysis for the sign of the sum; the order theorems of C93 for the temperatures"],
"C97": ["whole runs (Model/Handler, Model/Driver) with any carbon cycle and thermal model, the recorded concentrations and forcings", "the run-level theorems C12, C13, C14, C59 give each series as a function of the emissions it depends on; induction over the years; for methane the year's update grows with the emissions and falls with the loss rate (convexity of exp), which falls with the concentration"],
"C98": ["The run with its reported forcing table; the hemispheric sums as weighted sums of the reported columns (`C05_run`)", "Weights are not negative, so the hemispheric forcings are ordered; then the order theorems of both thermal models (C93) by induction over the years"],
"C99": ["Emission-driven runs (`Ran`), their reported concentrations and forcings, the box carbon cycle inside them", "Other components by C97 and the table computed ahead; CO2 and N2O by the documented formulas; the sum of both effects is not negative (C96) and the order of the thermal models (C93); for the box model the order of its pools is an invariant of the yearly step"],
"C100": ["Concentration-driven runs, their reported concentrations and forcings, the formulas of CH4, N2O, ozone and water vapour", "The reported forcings as functions of the reported data (C59) for both runs, which differ in methane and ozone only; a lower bound on the slope of the CH4 formula against the overlap term of N2O; the order of the thermal models (C93)"],
"C101": ["Emission-driven runs, their reported concentrations and forcings, the formulas of CH4, N2O, ozone and water vapour, the box carbon cycle", "The components methane does not reach from C97; the four it reaches from the reported forcings as functions of the reported data (C59) of both runs; the box carbon cycle by induction over the years; more methane from C97_methane_more; the order of the thermal models (C93)"]
}
