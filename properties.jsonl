{"id": "C01", "title": "Sanitised parameter sets are complete, numeric and contain nothing unexpected", "statement": "Whatever dictionary a user passes as a parameter set, the sanitised set contains every required parameter; a required parameter has the user's value if that value is a Python int/float (bool counts as int) and the documented default otherwise; optional (allowed) keys keep the user's value of any type; no other key survives; the user's dictionary is not modified; sanitising the result again changes nothing.", "quantifier": "all user dictionaries (any keys, any value types, any insertion order), all required/default tables with numeric defaults, all tables of allowed optional keys", "why_tests_cant": "the space of user dictionaries is unbounded; tests try two or three dictionaries", "anchors": ["src/ciceroscm/_utils.py: check_numeric_pamset, cut_non_required, cut_and_check_pamset"]}
{"id": "C02", "title": "Updating parameters between runs only touches parameters that may change", "statement": "Updating an existing parameter set with a new one changes a parameter exactly when it is on the may-change list, already present, and the new value is an int/float; every other parameter keeps its value, no key is added or removed and key order is preserved.", "quantifier": "all old sets, all new sets (or None), all may-change lists", "why_tests_cant": "frame properties quantify over all keys that are not mentioned", "anchors": ["src/ciceroscm/_utils.py: update_pam_if_numeric"]}
{"id": "C03", "title": "A re-run does not depend on which parameter sets were run before", "statement": "For one model instance, the parameters in force during a run (and therefore its results) are a function of the instance configuration and of the parameter sets passed to that run only; omitted parameters fall back to their documented defaults. (As coded this holds for the thermal and the non-optional emission/concentration parameters, but NOT for carbon-cycle parameters and not for just_one, which stick from earlier runs.)", "quantifier": "all instances, all finite histories of earlier runs with arbitrary parameter sets, all parameter sets of the final run", "why_tests_cant": "needs a quantifier over histories of runs of any length", "anchors": ["src/ciceroscm/ciceroscm.py: CICEROSCM._run", "src/ciceroscm/concentrations_emissions_handler.py: check_pamset, check_pamset_consistency, ConcentrationsEmissionsHandler.reset_with_new_pams", "src/ciceroscm/carbon_cycle/carbon_cycle_mod.py: CarbonCycleModel.reset_co2_hold"]}
{"id": "C04", "title": "Start, end and emission-start years, sub-steps and run mode are fixed for the life of an instance", "statement": "No parameter set passed to a run can change nystart, nyend, emstart, idtm or the concentration-driven flag of an existing instance; after any sequence of runs they equal the values given at construction.", "quantifier": "all finite sequences of runs with arbitrary parameter sets", "why_tests_cant": "invariant over unbounded run histories", "anchors": ["src/ciceroscm/concentrations_emissions_handler.py: check_pamset_consistency, reset_with_new_pams"]}
{"id": "C05", "title": "Hemispheric weighting preserves the global mean of every forcing component", "statement": "Distributing a component's global forcing q to the hemispheres adds amounts whose mean is exactly q, for every component name (listed or not) and every q; components outside the four weighted groups are split equally. In every year of every run driven by emissions or concentrations (without a single chosen component), the forcings of the two hemispheres the thermal model is called with are the sums of the reported components, each with its weight, plus perturbations of the total itself and the solar forcing.", "quantifier": "all tracer names, all forcing values, all accumulated NH/SH values; all runs, histories and years", "why_tests_cant": "quantifies over all strings and reals", "anchors": ["src/ciceroscm/perturbations.py: calculate_hemispheric_forcing"]}
{"id": "C06", "title": "Reported total forcing equals the sum of reported components, and the hemispheres average to total plus solar", "statement": "In every year of an emission or concentration run, Total_forcing equals the sum over all reported component columns (computed and pre-computed, after perturbations), plus any perturbation that names the reserved column Total_forcing itself instead of a component; and the two hemispheric forcings handed to the thermal model average to Total_forcing plus solar forcing. With just_one set, total and hemispheric mean equal the chosen component (plus solar) instead.", "quantifier": "all gas tables, all concentrations and emissions, all years, all perturbation tables, all parameter sets", "why_tests_cant": "budget identity over all inputs; a test checks one scenario to a tolerance", "anchors": ["src/ciceroscm/concentrations_emissions_handler.py: ConcentrationsEmissionsHandler.conc2forc, add_results_to_dict", "src/ciceroscm/perturbations.py: ForcingPerturbation.add_forcing_pert"]}
{"id": "C07", "title": "Forcing is measured from the start year", "statement": "In the start year every computed component forcing is exactly zero, except land-use albedo which equals its prescribed series, so Total_forcing is exactly the land-use value (without perturbations).", "quantifier": "all gas tables, all emission/concentration inputs with positive start-year concentrations, all parameter sets", "why_tests_cant": "identity for all inputs", "anchors": ["src/ciceroscm/concentrations_emissions_handler.py: calculate_forc_three_main, tropospheric_ozone_forcing, calc_aerosol_forcing, conc2forc, _precalculate_erf_vanilla_gases, calculate_strat_quantities"]}
{"id": "C08", "title": "The aerosol forcing fraction passed to the thermal model lies between 0 and 1", "statement": "w_aero, the share of aerosol magnitude in the summed forcing magnitude, lies in [0,1] in every year, in emission/concentration runs and for forcing-file runs. (As coded this can fail when forcing perturbations are applied to aerosol components, because numerator and denominator are taken before and after the perturbation.)", "quantifier": "all component forcings, all years, all perturbation tables; all forcing files with component columns", "why_tests_cant": "range claim over all inputs; the failing case needs a specific sign combination", "anchors": ["src/ciceroscm/concentrations_emissions_handler.py: conc2forc", "src/ciceroscm/input_handler.py: read_forc"]}
{"id": "C09", "title": "Forcing perturbations shift the result by exactly the perturbation", "statement": "A forcing perturbation of a reported, year-by-year computed component in a year adds exactly its value to that component, to the total and to the hemispheric mean of that year; repeated rows accumulate; the order of rows does not matter; rows naming unknown components change nothing; other components and other years are untouched.", "quantifier": "all perturbation tables (any number, order and repetition of rows), all prior forcings", "why_tests_cant": "superposition over unbounded tables", "anchors": ["src/ciceroscm/perturbations.py: ForcingPerturbation.add_forcing_pert"]}
{"id": "C10", "title": "Forcing perturbations of pre-computed gases accumulate like those of other components", "statement": "For gases whose forcing is pre-computed, the perturbed forcing equals the unperturbed one plus the sum of all perturbation rows for that gas and year. (As coded this holds when every (gas, year) occurs at most once; duplicate rows overwrite instead of accumulating.)", "quantifier": "all perturbation tables and all pre-computed forcing tables", "why_tests_cant": "needs arbitrary repetition patterns", "anchors": ["src/ciceroscm/perturbations.py: ForcingPerturbation.add_forcing_pert_for_vanilla"]}
{"id": "C11", "title": "Emission perturbations add up and touch nothing else", "statement": "Perturbing an emission table adds, for every (component, year), the sum of all matching rows; nothing else changes; row order is irrelevant; rows for CO2 go to fossil CO2 exactly when the table has no CO2 column.", "quantifier": "all emission tables, all perturbation tables", "why_tests_cant": "sum over unbounded tables, frame property", "anchors": ["src/ciceroscm/perturbations.py: perturb_emissions"]}
{"id": "C12", "title": "Concentration-driven years reproduce the prescribed concentrations", "statement": "In a concentration-driven run every year's reported concentration of every gas with a prescribed series equals the prescribed input; in an emission-driven run the same holds for every gas except CO2 for every year before emstart. (Tropospheric ozone is diagnosed in every year and has no prescribed series.)", "quantifier": "all prescribed concentration tables, all years, all gas tables", "why_tests_cant": "pass-through for all inputs and years", "anchors": ["src/ciceroscm/concentrations_emissions_handler.py: emi2conc, fill_one_row_conc, _precalculate_concentrations_vanilla_gases"]}
{"id": "C13", "title": "The one-year concentration update is the exact decay solution", "statement": "For positive decay rate the updated concentration is the exact solution after one year of dC/dt = source - C/lifetime: it lies between the old value and the equilibrium, is non-negative if old value and source are, is increasing in both, and leaves the equilibrium unchanged; repeating it converges to the equilibrium.", "quantifier": "all non-negative emissions, all prior concentrations, all positive lifetimes and conversion factors", "why_tests_cant": "real-analysis statement over a continuum", "anchors": ["src/ciceroscm/concentrations_emissions_handler.py: emi2conc"]}
{"id": "C14", "title": "Pre-computed gases follow the same yearly update as the others", "statement": "The pre-computed concentration series equals prescribed values before emstart and from emstart on is the iteration of the same one-year decay update started from the last prescribed value; it is non-negative for non-negative inputs and monotone and additive in emissions.", "quantifier": "all emission and concentration series, all run lengths, all emstart with nystart < emstart", "why_tests_cant": "induction over run length", "anchors": ["src/ciceroscm/concentrations_emissions_handler.py: _precalculate_concentrations_vanilla_gases, _precalculate_erf_vanilla_gases"]}
{"id": "C15", "title": "Stratospheric ozone responds to chlorine and bromine with a three-year lag", "statement": "Stratospheric ozone forcing is zero in the first three years and in year y depends only on halogen concentrations of year y-3 and of the start year; it is never positive when halogens are at or above their start-year level.", "quantifier": "all halogen concentration series, all run lengths", "why_tests_cant": "dependency statement over all series", "anchors": ["src/ciceroscm/concentrations_emissions_handler.py: calculate_strat_quantities, _add_precalculated_strat_o3"]}
{"id": "C16", "title": "No look-ahead", "statement": "Results of an emission run up to and including year y depend on emissions, prescribed concentrations and forcing series only at years up to y (plus the documented reference years): changing later inputs cannot change them.", "quantifier": "all pairs of inputs agreeing up to y, all y, all parameter sets", "why_tests_cant": "relational (two-run) property over all inputs", "anchors": ["src/ciceroscm/ciceroscm.py: CICEROSCM._run", "src/ciceroscm/concentrations_emissions_handler.py: emi2conc, conc2forc", "src/ciceroscm/carbon_cycle/carbon_cycle_mod.py: co2em2conc"]}
{"id": "C17", "title": "Methane lifetime is positive and the documented modes are honoured", "statement": "The methane decay rate is positive in every lifetime mode whose concentration and lifetime inputs are positive (TAR: as long as the OH scaling stays positive); CONSTANT gives exactly a 12-year lifetime; any other unknown mode string behaves like WIGLEY as documented.", "quantifier": "all mode strings, concentrations, emissions and years", "why_tests_cant": "all strings; all inputs", "anchors": ["src/ciceroscm/concentrations_emissions_handler.py: methane_lifetime"]}
{"id": "C18", "title": "Without emissions the default carbon cycle stays exactly pre-industrial", "statement": "With zero CO2 emissions the atmospheric CO2 concentration stays exactly at its pre-industrial value in every year, for every temperature history and every parameter set.", "quantifier": "all run lengths, all temperature feedback histories, all parameter sets, all impulse response functions", "why_tests_cant": "induction over unbounded number of sub-yearly steps", "anchors": ["src/ciceroscm/carbon_cycle/carbon_cycle_mod.py: CarbonCycleModel.co2em2conc"]}
{"id": "C19", "title": "The default carbon cycle closes its carbon budget", "statement": "At every sub-step, atmospheric CO2 excess plus cumulative ocean uptake equals cumulative net (fossil minus biospheric) input, up to an explicitly stated end-point term of the trapezoidal rule.", "quantifier": "all emission and temperature histories, all step counts, all parameters", "why_tests_cant": "telescoping identity by induction over steps", "anchors": ["src/ciceroscm/carbon_cycle/carbon_cycle_mod.py: CarbonCycleModel.co2em2conc, _calculate_partial_pressure_mixed_layer"]}
{"id": "C20", "title": "Back-calculated emissions reproduce the concentrations when run forward", "statement": "The internal carbon state after back-calculating emissions for a concentration series is the same as after a forward run with the returned emissions; in each year either the forward concentration matches the target to the requested relative tolerance or the iteration limit was used up.", "quantifier": "all concentration series, all tolerances and iteration limits, all temperature histories", "why_tests_cant": "state-restoration across retries of unbounded number of years", "anchors": ["src/ciceroscm/carbon_cycle/carbon_cycle_abstract.py: _guess_emissions_iteration, back_calculate_emissions, simplified_em_backward", "src/ciceroscm/carbon_cycle/carbon_cycle_mod.py: _set_co2_hold, _get_co2_hold_values, co2em2conc"]}
{"id": "C21", "title": "The emission search terminates, stays in its bracket and converges for a monotone response", "statement": "The search makes at most maxit+1 forward evaluations; every guess lies inside the initial bracket, whose width is at least one and is halved each time; if the concentration response is non-decreasing and the bracket encloses a solution the guess is within width/2^k of it after k halvings.", "quantifier": "all response functions, all targets, all brackets, all iteration limits", "why_tests_cant": "loop invariant for arbitrary response functions", "anchors": ["src/ciceroscm/carbon_cycle/carbon_cycle_abstract.py: _guess_emissions_iteration, get_initial_max_min_guess"]}
{"id": "C22", "title": "The box carbon model conserves carbon", "statement": "Atmosphere + vegetation + soil + mixed ocean + deep ocean carbon after any number of years equals the initial content plus the sum of all emissions, exactly.", "quantifier": "all emission and temperature histories of any length, all parameters", "why_tests_cant": "conservation by induction over years", "anchors": ["src/ciceroscm/carbon_cycle/carbon_cycle_mod_box.py: co2em2conc"]}
{"id": "C23", "title": "The box carbon model is at rest in its pre-industrial state", "statement": "With zero emissions, zero temperature change and default parameters all five pools stay exactly at their pre-industrial values forever; net primary production is never negative.", "quantifier": "all run lengths; all states for the NPP bound", "why_tests_cant": "fixed point for all horizons", "anchors": ["src/ciceroscm/carbon_cycle/carbon_cycle_mod_box.py"]}
{"id": "C24", "title": "Carbon temperature feedbacks are normalised, bounded and well-signed", "statement": "At zero temperature change land productivity is exactly its pre-industrial value, ocean solubility scaling exactly 1 and the carbon mixed layer exactly its configured depth; solubility scaling never leaves [0, 1+limit] and never increases with warming for non-negative sensitivity; the mixed layer is never shallower than the configured minimum; sigmoid and threshold lie strictly between 0 and 1.", "quantifier": "all temperatures, all parameter values with non-zero widths", "why_tests_cant": "continuum of temperatures and parameters", "anchors": ["src/ciceroscm/carbon_cycle/carbon_cycle_mod.py: sigmoid_gen, threshold_gen, CarbonCycleModel.fnpp_from_temp, solubility_temp_feedback, mixed_layer_temp_feedback"]}
{"id": "C25", "title": "Mixed-layer pCO2 is a strictly increasing, C1 function of dissolved carbon", "statement": "The relation between dissolved inorganic carbon perturbation and partial pressure is zero at zero, continuous with matching slope at the validity cap, and strictly increasing.", "quantifier": "all real dissolved carbon perturbations", "why_tests_cant": "calculus over all reals", "anchors": ["src/ciceroscm/carbon_cycle/carbon_cycle_mod.py: _calculate_partial_pressure_mixed_layer and the cap constants"]}
{"id": "C26", "title": "Impulse response functions are properly normalised", "statement": "A custom ocean response starts at exactly 1, stays in [0,1] and decreases towards its constant share; a custom biosphere response starts at 0, is non-negative and integrates to 1 (one per year of sub-steps); the built-in ocean response starts at 1 and is decreasing. (The built-in biosphere response is slightly negative at time 0.)", "quantifier": "all coefficient/timescale lists the checker accepts with positive timescales and non-zero coefficient sum, all times", "why_tests_cant": "continuum of times, unbounded lists", "anchors": ["src/ciceroscm/carbon_cycle/rfuns.py: rs_function, rs_function2, rb_function, rb_function2"]}
{"id": "C27", "title": "Flat and structured impulse-response parameters mean the same", "statement": "Giving coefficients as flat keys (prefix plus index) yields the same structured function parameters as giving them as lists, independent of key order; other keys are untouched and the caller's dictionary is not modified; a count mismatch is rejected. (Gaps in the indices are silently closed up.)", "quantifier": "all coefficient/timescale lists of any length, all key orders, all other keys", "why_tests_cant": "unbounded lists and permutations", "anchors": ["src/ciceroscm/carbon_cycle/rfuns.py: _process_flat_carbon_parameters, _extract_indexed_parameters"]}
{"id": "C28", "title": "Airborne fraction is the ratio of the accumulated excess to accumulated emissions", "statement": "For every year the reported airborne fraction times cumulative emissions equals the carbon excess above the pre-industrial value; if cumulative emissions are zero in any year the whole series is not-a-number instead of an exception.", "quantifier": "all emission and concentration series of any length", "why_tests_cant": "all series", "anchors": ["src/ciceroscm/carbon_cycle/common_carbon_cycle_functions.py: calculate_airborne_fraction"]}
{"id": "C29", "title": "The two-layer model closes its heat budget", "statement": "Each year the change of total ocean heat content equals forcing minus feedback minus the efficacy correction, evaluated at the temperatures at the start of the year, converted to 1e22 J; hence the change over any number of years equals the accumulated imbalance.", "quantifier": "all forcing histories, all parameters with non-zero capacities", "why_tests_cant": "conservation by induction", "anchors": ["src/ciceroscm/thermal_model/two_layer_ocean.py: energy_budget"]}
{"id": "C30", "title": "The two-layer model is stable and reaches the textbook equilibrium", "statement": "Under constant positive forcing and step-stable parameters both layers warm monotonically, the deep ocean never overtakes the surface layer, neither exceeds forcing/feedback, and both converge to forcing/feedback; zero forcing keeps the model exactly at rest; the response is linear in the forcing.", "quantifier": "all constant forcings, all parameters with efficacy 1 or above satisfying the step-size condition, all horizons", "why_tests_cant": "limit statement over infinite horizon", "anchors": ["src/ciceroscm/thermal_model/two_layer_ocean.py: energy_budget"]}
{"id": "C31", "title": "Volcanic forcing acts like any other forcing of the same size", "statement": "Supplying a hemispherically symmetric forcing as volcanic forcing gives the same temperature response as supplying it as ordinary forcing, in both thermal models. (As coded the two-layer model doubles volcanic forcing.)", "quantifier": "all forcing values", "why_tests_cant": "relational statement over all inputs", "anchors": ["src/ciceroscm/thermal_model/two_layer_ocean.py: energy_budget", "src/ciceroscm/thermal_model/upwelling_diffusion_model.py: energy_budget"]}
{"id": "C32", "title": "Upper-700m heat content is consistent with total heat content (two-layer)", "statement": "Two-layer OHC700 equals OHCTOT when the two layers together are no deeper than 700 m, never exceeds it for non-negative temperatures, and is the depth-proportional share otherwise.", "quantifier": "all non-negative temperatures, all depths", "why_tests_cant": "all depths", "anchors": ["src/ciceroscm/thermal_model/two_layer_ocean.py: energy_budget"]}
{"id": "C33", "title": "The diffusion model conserves heat in its interior", "statement": "A sub-yearly step of the upwelling-diffusion ocean changes the area- and depth-weighted heat content only through the air-sea exchange: diffusion, upwelling, polar sinking and inter-hemispheric exchange cancel exactly, for any number of layers (ocean efficacy 1).", "quantifier": "all layer counts, all parameters, all ocean states, all forcings", "why_tests_cant": "sum over unbounded number of layers", "anchors": ["src/ciceroscm/thermal_model/upwelling_diffusion_model.py: coeff, setup_ebud, setup_ebud2, energy_budget, _band"]}
{"id": "C34", "title": "Air temperatures satisfy the surface energy balance", "statement": "The two hemispheric air temperatures returned by a step satisfy the two coupled energy balance equations, so that globally ocean heat uptake equals forcing minus feedback times air temperature.", "quantifier": "all parameters with a regular 2x2 system, all ocean temperatures and forcings", "why_tests_cant": "algebraic identity over all inputs", "anchors": ["src/ciceroscm/thermal_model/upwelling_diffusion_model.py: energy_budget, setup_ebud"]}
{"id": "C35", "title": "The implicit ocean solve always has exactly one solution and respects the maximum principle", "statement": "For physically ordered parameters the tridiagonal system of each hemisphere is strictly diagonally dominant: it has exactly one solution for every right-hand side and a non-negative right-hand side gives non-negative temperatures.", "quantifier": "all layer counts, all right-hand sides, all parameters in the stated range", "why_tests_cant": "unbounded dimension", "anchors": ["src/ciceroscm/thermal_model/upwelling_diffusion_model.py: coeff, _band"]}
{"id": "C36", "title": "The diffusion model is at rest without forcing and linear without upwelling feedback", "statement": "Zero forcing history keeps all temperatures and heat contents exactly zero for ever; with the temperature threshold for upwelling switched off the response to a sum of forcing histories is the sum of responses.", "quantifier": "all horizons, all forcing histories, all parameters", "why_tests_cant": "superposition over histories of any length", "anchors": ["src/ciceroscm/thermal_model/upwelling_diffusion_model.py: energy_budget"]}
{"id": "C37", "title": "Upper-700m heat content integrates exactly 700 m (diffusion model)", "statement": "The layer weights used for OHC700 add up to exactly 700 m of water. (As coded: only for mixed layers shallower than 700 m.)", "quantifier": "all mixed layer depths", "why_tests_cant": "real interval of depths", "anchors": ["src/ciceroscm/thermal_model/upwelling_diffusion_model.py: ocean_temperature"]}
{"id": "C38", "title": "Aerosol-dependent feedback never accumulates", "statement": "After any sequence of yearly feedback updates, the effective feedback depends only on the configured sensitivity and the latest aerosol fraction; with the coefficient at zero it never changes.", "quantifier": "all histories of feedback updates", "why_tests_cant": "unbounded histories", "anchors": ["src/ciceroscm/thermal_model/upwelling_diffusion_model.py: set_feedback_gregory", "src/ciceroscm/thermal_model/two_layer_ocean.py: set_feedback_gregory, energy_budget"]}
{"id": "C39", "title": "Sub-yearly forcing ramps linearly from last year's to this year's forcing", "statement": "Within a year the non-volcanic forcing applied at each sub-step is a convex combination of last year's and this year's value, reaches this year's value at the last sub-step, and constant forcing is applied unchanged.", "quantifier": "all sub-step counts, all forcing pairs", "why_tests_cant": "all step counts", "anchors": ["src/ciceroscm/thermal_model/upwelling_diffusion_model.py: energy_budget"]}
{"id": "C40", "title": "Every year of a run is computed once, in order, and lands in its own output slot", "statement": "A run visits every year from nystart to nyend exactly once in increasing order; each output series has exactly nyend-nystart+1 entries; the entry of year y is the thermal model's output in year y; the carbon cycle sees the previous year's thermal output (none in the first year).", "quantifier": "all year ranges, all thermal and concentration models", "why_tests_cant": "induction over run length", "anchors": ["src/ciceroscm/ciceroscm.py: CICEROSCM._run, initialise_output_arrays, add_year_data_to_output"]}
{"id": "C41", "title": "Forcing-driven runs use the prescribed forcing plus solar", "statement": "In a forcing run, hemispheric and total forcing of year y are the prescribed values plus solar forcing of year y; an array input is used for both hemispheres; without a total column the total is the mean of the hemispheres. (As coded the derived total of a hemispheric file is not-a-number.)", "quantifier": "all forcing inputs, all years", "why_tests_cant": "all inputs", "anchors": ["src/ciceroscm/ciceroscm.py: forc_set", "src/ciceroscm/input_handler.py: read_forc"]}
{"id": "C42", "title": "Parallel batching runs every scenario/configuration pair exactly once, in order", "statement": "For every number of scenarios, configurations and workers, the batches sent to the workers contain every (scenario, configuration) pair exactly once, and the concatenated result is scenario-major in the given order, the same for every number of workers.", "quantifier": "all list lengths, all worker counts", "why_tests_cant": "unbounded lists, integer division edge cases", "anchors": ["src/ciceroscm/parallel/cscmparwrapper.py: run_ciceroscm_parallel"]}
{"id": "C43", "title": "Parallel results do not depend on the completion schedule", "statement": "The list of results of the parallel executor is in submission order for every completion order of the workers, equals the serial result, and any worker failure surfaces as an exception. (As coded the pool-less mode returns the front-serial results last.)", "quantifier": "all completion orders (permutations), all task lists, all front-serial/front-parallel splits", "why_tests_cant": "all schedules", "anchors": ["src/ciceroscm/parallel/_parallel_process.py: _parallel_process, _run_parallel, _run_serial"]}
{"id": "C44", "title": "Chunked configuration lists are a partition of the samples with unique indices", "statement": "Splitting n samples into chunks of at most m keeps every sample exactly once and in order, no chunk exceeds m, and all configuration indices are distinct.", "quantifier": "all n, all m >= 1, all index prefixes", "why_tests_cant": "unbounded n and integer division", "anchors": ["src/ciceroscm/parallel/_configdistro.py: make_config_lists, make_single_config_list"]}
{"id": "C45", "title": "Each sampled or fixed parameter reaches exactly one component, the one that uses it", "statement": "Every sampled parameter ends up in exactly one of the three parameter sets, namely the thermal or carbon set if that component knows it, otherwise the emission/concentration set; fixed values are routed in the same way. (As coded fixed impulse-response parameters are routed to the wrong set.)", "quantifier": "all priors, all fixed-value dictionaries, all samples", "why_tests_cant": "all names and sets", "anchors": ["src/ciceroscm/parallel/_configdistro.py: _set_pamsets_start, _initialise_ordering, make_single_config_list"]}
{"id": "C46", "title": "Configuration files round-trip", "statement": "Writing a configuration list with meta information and loading it again gives the same configurations and meta information, also for legacy list-only files; re-writing a loaded file keeps both. (As coded re-writing without passing meta information drops it.)", "quantifier": "all configuration lists, all meta information", "why_tests_cant": "all JSON values", "anchors": ["src/ciceroscm/parallel/distributionrun.py: DistributionRun"]}
{"id": "C47", "title": "Input source precedence", "statement": "For every input, a configured file takes precedence over directly supplied data, data is used if there is no file, and if neither exists a KeyError is raised for mandatory inputs and the documented default used for optional ones.", "quantifier": "all configurations", "why_tests_cant": "all combinations of present/absent keys", "anchors": ["src/ciceroscm/input_handler.py: InputHandler.get_data, optional_pam"]}
{"id": "C48", "title": "Solar and volcanic forcing are off unless sunvolc is 1", "statement": "If sunvolc is absent or different from 1, solar and volcanic forcing are zero in every year whatever other options are given. (As coded a configured *_file still wins; and rf_volc_file is silently ignored.)", "quantifier": "all configurations", "why_tests_cant": "all option combinations", "anchors": ["src/ciceroscm/input_handler.py: set_sun_volc_luc_defaults, get_data, InputHandler.__init__"]}
{"id": "C49", "title": "Input tables are cut to exactly the run years", "statement": "For a table with contiguous years, reading with a start and end year keeps exactly the rows with year in [start, end], each with its own values.", "quantifier": "all contiguous tables, all start/end years", "why_tests_cant": "all ranges", "anchors": ["src/ciceroscm/input_handler.py: read_inputfile"]}
{"id": "C50", "title": "Row-per-year forcing files are aligned to the run years", "statement": "For runs starting in or after 1750 the value used for year y of a row-per-year file is the row of year y (first row 1750); a file that is too short is rejected. (A run that starts before 1750 is not refused; the value it uses for year y is that of the year as many years after 1750 as y is after the start.)", "quantifier": "all start/end years >= 1750, all files", "why_tests_cant": "all ranges", "anchors": ["src/ciceroscm/input_handler.py: read_data_on_year_row"]}
{"id": "C51", "title": "Aggregated output variables are the sums of their parts", "statement": "Aggregated forcing variables (fluorinated gases, greenhouse gases, aerosols) equal the sum over the reported components of that group. (As coded the aerosol aggregates contain only direct sulphate.)", "quantifier": "all result tables", "why_tests_cant": "all tables", "anchors": ["src/ciceroscm/formattingtools/reformat_cscm_results.py: get_data_from_forc_common"]}
{"id": "C52", "title": "Carbon pool outputs are the running sums of the reported fluxes", "statement": "Reported land/ocean pool changes are cumulative sums of the reported fluxes, and the net flux to the atmosphere is minus land flux minus ocean flux, for every year.", "quantifier": "all flux series", "why_tests_cant": "all series lengths", "anchors": ["src/ciceroscm/formattingtools/reformat_cscm_results.py"]}
{"id": "C53", "title": "Halogen atom counts follow the chemical naming rules", "statement": "For every halocarbon name built from carbon/hydrogen/fluorine/double-bond numbers the derived chlorine count is the number of free valences; for explicit formulae and halons it is the number written in the name.", "quantifier": "all compositions", "why_tests_cant": "all compositions", "anchors": ["src/ciceroscm/pub_utils.py: find_num_cl_in_hcfc, make_cl_and_br_dictionaries"]}
{"id": "C54", "title": "Impulse-response input validation accepts exactly well-formed input", "statement": "Custom response coefficients are accepted exactly when the lengths fit and no coefficient or timescale is negative; the documented requirement is positive. (Zero timescales are accepted although they make the response undefined.)", "quantifier": "all coefficient and timescale lists", "why_tests_cant": "all lists", "anchors": ["src/ciceroscm/pub_utils.py: _check_array_consistency"]}
{"id": "C55", "title": "Regional aerosol tables extend the gas table without changing it", "statement": "Adding regional aerosol rows keeps every existing row, adds one row per listed aerosol and region with the regional efficiency in the sensitivity column and all other columns of the parent aerosol; regional rows switch off the corresponding global sensitivity so that nothing is counted twice.", "quantifier": "all region tables, all gas tables", "why_tests_cant": "unbounded tables", "anchors": ["src/ciceroscm/pub_utils.py: make_regional_aerosol_gaspamdata", "src/ciceroscm/concentrations_emissions_handler.py: avoid_regional_double_counting"]}
{"id": "C56", "title": "Component selection is total and exact", "statement": "Exactly the documented component names select a component, every other string is rejected with ValueError, and the name given by the user at construction is the one used.", "quantifier": "all strings, all configurations", "why_tests_cant": "all strings", "anchors": ["src/ciceroscm/component_factory_functions.py", "src/ciceroscm/ciceroscm.py: CICEROSCM.__init__", "src/ciceroscm/input_handler.py: InputHandler.__init__"]}
{"id": "C57", "title": "Standard output files can be written for every thermal model", "statement": "After any run the standard output writer finds all the series it writes. (As coded it fails for the two-layer model, which does not produce hemispheric series.)", "quantifier": "all thermal models, all runs", "why_tests_cant": "needs all model/output combinations", "anchors": ["src/ciceroscm/ciceroscm.py: write_data_to_file, initialise_output_arrays", "src/ciceroscm/thermal_model/abstract_thermal_model.py"]}
{"id": "C58", "title": "Chunked configuration files do not overwrite each other", "statement": "When configurations are generated in chunks and written to files, every chunk's configurations are in a file of their own afterwards. (As coded this needs the file name to contain '.json'; otherwise all chunks go to the same file.)", "quantifier": "all file names, all numbers of chunks", "why_tests_cant": "all file names", "anchors": ["src/ciceroscm/parallel/_configdistro.py: make_config_lists"]}
{"id": "C59", "title": "Reported forcing is the documented function of reported concentrations, emissions and parameters", "statement": "In every year of every run, the forcing reported for each component equals the documented formula (Etminan et al. for CO2, CH4 and N2O; linear in concentration or emission change for the others; scaled ozone; water vapour from methane; prescribed land use) evaluated on the concentrations reported for that year and the start year, the emissions used and the parameters of the run, plus the forcing perturbations that name the component.", "quantifier": "all gas tables, input tables, parameter sets, perturbations, instance histories and years", "why_tests_cant": "A test compares a few components in a few years with stored numbers; which branch a component takes depends on its name, its table row and the parameters, and errors in rarely used branches or in one year's reference are invisible in totals.", "anchors": ["src/ciceroscm/concentrations_emissions_handler.py:ConcentrationsEmissionsHandler.conc2forc", "src/ciceroscm/concentrations_emissions_handler.py:ConcentrationsEmissionsHandler.calculate_forc_three_main", "src/ciceroscm/concentrations_emissions_handler.py:ConcentrationsEmissionsHandler.tropospheric_ozone_forcing", "src/ciceroscm/concentrations_emissions_handler.py:ConcentrationsEmissionsHandler.calc_aerosol_forcing", "src/ciceroscm/concentrations_emissions_handler.py:ConcentrationsEmissionsHandler.add_results_to_dict"]}
{"id": "C60", "title": "Main gases warm when they rise and cool when they fall", "statement": "The forcing of CO2, CH4 and N2O is zero at the start-year concentration, has the sign of the change since the start year, and grows strictly with the gas's own concentration.", "quantifier": "all concentrations within the stated ranges (unbounded for the negation)", "why_tests_cant": "The formulas are fits with quadratic and overlap terms of opposite sign; whether they change sign or bend over is a statement about all concentrations, not the few in a scenario.", "anchors": ["src/ciceroscm/concentrations_emissions_handler.py:ConcentrationsEmissionsHandler.calculate_forc_three_main"]}
{"id": "C61", "title": "The carbon cycle gets all CO2 emissions, once a year and in order, and its answer is what is reported", "statement": "In an emission-driven run the carbon cycle is reset with the run's carbon parameters and then stepped exactly once per year in order; each step receives fossil plus land use plus natural emissions of that year and the feedback values reported for the previous year, and the concentration it returns is the reported CO2 concentration. In a concentration-driven run it is never stepped.", "quantifier": "all carbon cycle models, inputs, parameter sets, instance histories and years", "why_tests_cant": "A carbon cycle model is a state machine driven from two places of the handler (before and after emission start); a skipped, doubled or misordered call or a dropped emission term only shows as a drift in concentrations.", "anchors": ["src/ciceroscm/concentrations_emissions_handler.py:ConcentrationsEmissionsHandler.emi2conc", "src/ciceroscm/ciceroscm.py:CICEROSCM._run"]}
{"id": "C62", "title": "Reported emissions are the emissions used", "statement": "The emission table in the results has one row per run year; its CO2 column is fossil plus land use emissions and every other column is the input table plus all emission perturbations.", "quantifier": "all emission tables, perturbations, run modes and instance histories", "why_tests_cant": "The table is assembled by dropping labels and assigning columns by position; whether rows and years stay aligned depends on which years the user's table covers.", "anchors": ["src/ciceroscm/concentrations_emissions_handler.py:ConcentrationsEmissionsHandler.add_results_to_dict", "src/ciceroscm/perturbations.py:perturb_emissions"]}
{"id": "C63", "title": "Complete inputs never make a run fail", "statement": "If the tables cover every run year and every component the gas table names (with the driving emissions of aerosols, ozone and methane), the instance can be built and completes every run and every sequence of runs, in emission and in concentration mode, whatever numbers, missing or malformed values the parameter sets contain, provided the reference year is covered and no single component is asked for.", "quantifier": "all gas tables, input tables, perturbations, parameter sets, and sequences of runs of any length", "why_tests_cant": "Whether some lookup raises in some year depends on the combination of gas table, column sets, run mode, perturbations and the parameters left behind by earlier runs; tests run a few standard files.", "anchors": ["src/ciceroscm/concentrations_emissions_handler.py:ConcentrationsEmissionsHandler", "src/ciceroscm/ciceroscm.py:CICEROSCM._run", "src/ciceroscm/carbon_cycle/carbon_cycle_mod.py:CarbonCycleModel", "src/ciceroscm/carbon_cycle/carbon_cycle_mod_box.py:CarbonCycleModel", "src/ciceroscm/thermal_model/two_layer_ocean.py:TwoLayerOceanModel"]}
{"id": "C64", "title": "Every configuration option that is accepted is read", "statement": "Every option a user can put into the configuration dictionary that the package documents (input files, in-memory data, carbon cycle model, response functions) can change the result: none is silently ignored.", "quantifier": "all configuration dictionaries and all files", "why_tests_cant": "An ignored option leaves results plausible; a test of one option compares against a stored reference and cannot show that no other option is ignored.", "anchors": ["src/ciceroscm/input_handler.py:InputHandler", "src/ciceroscm/ciceroscm.py:CICEROSCM.__init__", "src/ciceroscm/carbon_cycle/abstract_carbon_cycle_model.py:AbstractCarbonCycleModel"]}
{"id": "C65", "title": "Input files in the wrong unit are rejected", "statement": "If the unit row of the emission or concentration file differs from the unit given in the gas table for some gas, the model object is not constructed.", "quantifier": "all gas tables and all file headers", "why_tests_cant": "Which gases are compared depends on which columns all the files have; tests try one wrong unit in one complete file.", "anchors": ["src/ciceroscm/input_handler.py:InputHandler._check_gaspam_compatibility"]}
{"id": "C66", "title": "Prescribed forcing files mean what their columns say", "statement": "With component columns and no total, the run's total forcing is the sum of the components and both hemispheres get it; with hemispheric columns and no total it is their mean; the aerosol weight is the share of aerosol components in the magnitude of all components and lies between 0 and 1.", "quantifier": "all forcing files, years and column sets", "why_tests_cant": "Each column set takes another path; the test files cover only a few.", "anchors": ["src/ciceroscm/input_handler.py:read_forc", "src/ciceroscm/ciceroscm.py:CICEROSCM.forc_set"]}
{"id": "C67", "title": "Every documented result variable can be requested after a run", "statement": "After every successful run, asking the result reader for a documented climate variable (surface air temperature, blended temperature, sea surface temperature, heat uptake, ocean heat content, its upper 700 m, anomalous radiation) returns one value per model year, equal to the model's series converted to the documented unit.", "quantifier": "all configurations, all runs with either thermal model", "why_tests_cant": "Which series exist depends on the thermal model and on the run; tests request a few variables after one configuration.", "anchors": ["src/ciceroscm/formattingtools/reformat_cscm_results.py:CSCMREADER.get_variable_timeseries", "src/ciceroscm/ciceroscm.py:CICEROSCM.add_year_data_to_output"]}
{"id": "C68", "title": "Units do not depend on how the gas table was supplied", "statement": "The unit reported for the emissions or concentrations of a gas is the same whether the gas table was given as a file or as an in-memory table with the same rows.", "quantifier": "all gas tables and all gases with emissions", "why_tests_cant": "Two separate routines parse the units; agreement on the rows of one table says nothing of other unit spellings.", "anchors": ["src/ciceroscm/formattingtools/reformat_inputdata_to_cscm_format.py:COMMONSFILEWRITER", "src/ciceroscm/formattingtools/reformat_cscm_results.py:CSCMREADER.get_variable_timeseries"]}
{"id": "C69", "title": "Dissolved carbon is the integral of past air-sea fluxes weighted by the ocean response", "statement": "At every sub-step the dissolved inorganic carbon of the mixed layer equals the sum over all earlier sub-steps of the air-sea flux times the response function at the time elapsed since.", "quantifier": "all emission histories, parameters and sub-steps", "why_tests_cant": "An off-by-one in the convolution shifts results by one twenty-fourth of a year, far below the tolerance of comparisons with stored output.", "anchors": ["src/ciceroscm/carbon_cycle/carbon_cycle_mod.py:CarbonCycleModel"]}
{"id": "C70", "title": "Net land uptake is production minus the decay of earlier production", "statement": "At every sub-step the land sink equals fertilised net primary production minus the sum over all earlier sub-steps of their production times the decay rate at the number of sub-steps in between, and the reported biosphere flux of a year is its mean over the year's sub-steps.", "quantifier": "all concentration histories, parameters and sub-steps", "why_tests_cant": "The statement is about a sum over the whole history, which tests compare only at the end of one scenario.", "anchors": ["src/ciceroscm/carbon_cycle/carbon_cycle_mod.py:CarbonCycleModel"]}
{"id": "C71", "title": "CO2 in a coupled run is the carbon cycle alone, driven by that run's emissions and last year's temperature", "statement": "In every emission-driven run the reported CO2 concentration of every year is the one the carbon cycle by itself gives when stepped year by year with the run's CO2 emissions (fossil, land use and natural, after perturbations) and the warming reported for the year before (zero in the first year), starting from an undisturbed state. No other gas, forcing component or earlier run takes part.", "quantifier": "all gas tables, emission tables, perturbations, parameter sets, run histories and years, for the default and the simple box carbon cycle", "why_tests_cant": "The carbon cycle is a state machine inside the driver; tests compare one scenario with stored output and cannot rule out a leak from another component or an earlier run.", "anchors": ["src/ciceroscm/ciceroscm.py:CICEROSCM._run", "src/ciceroscm/concentrations_emissions_handler.py:ConcentrationsEmissionsHandler.emi2conc", "src/ciceroscm/carbon_cycle/carbon_cycle_mod.py:CarbonCycleModel.co2em2conc", "src/ciceroscm/carbon_cycle/carbon_cycle_mod_box.py:CarbonCycleModel.co2em2conc"]}
{"id": "C72", "title": "The carbon cycle table describes the run that was made", "statement": "After an emission-driven run the carbon cycle table can always be asked for, and asking leaves the instance unchanged. Its rows are the run's years. With the reported numbers the carbon budget closes in every year: increase of atmospheric carbon plus cumulative ocean and land flux equals cumulative emissions, up to the emission that has not yet entered the atmosphere. The airborne fraction is the atmospheric increase over cumulative fossil and land use emissions. Mixed layer depth, solubility and net primary production are those the carbon cycle worked with in the row's year.", "quantifier": "all gas tables, emission tables, perturbations, parameter sets, thermal models, run histories and years, with the default carbon cycle", "why_tests_cant": "The table is recomputed after the run from the stored state and the reported temperatures; a test compares one table with stored numbers, which were produced by the same recomputation.", "anchors": ["src/ciceroscm/concentrations_emissions_handler.py:ConcentrationsEmissionsHandler.add_results_to_dict", "src/ciceroscm/carbon_cycle/carbon_cycle_mod.py:CarbonCycleModel.get_carbon_cycle_output", "src/ciceroscm/carbon_cycle/carbon_cycle_abstract.py:AbstractCarbonCycleModel"]}
{"id": "C73", "title": "The carbon cycle table of a concentration-driven run", "statement": "After a concentration-driven run the carbon cycle table can always be asked for. Its emissions, run forward through the same carbon cycle with the run's temperatures, reproduce the prescribed CO2 concentrations within the search tolerance in every year in which the search was not cut off, and its ocean and land fluxes are those of that forward run. Asking for the table has no influence on any later run of the same instance and prevents none.", "quantifier": "all gas tables, concentration tables, parameter sets, thermal models, run histories with the table asked for at any points, and years", "why_tests_cant": "The back-calculation overwrites the working variables of the carbon cycle; whether a later run notices depends on every path through reset and run, and reproduction must hold for every concentration history, not for the stored one.", "anchors": ["src/ciceroscm/carbon_cycle/carbon_cycle_abstract.py:AbstractCarbonCycleModel.back_calculate_emissions", "src/ciceroscm/carbon_cycle/carbon_cycle_abstract.py:AbstractCarbonCycleModel._guess_emissions_iteration", "src/ciceroscm/carbon_cycle/carbon_cycle_mod.py:CarbonCycleModel.get_carbon_cycle_output", "src/ciceroscm/concentrations_emissions_handler.py:ConcentrationsEmissionsHandler.add_results_to_dict"]}
{"id": "C74", "title": "Every input is used for what it is named after", "statement": "A configuration that builds a model gives the model exactly the data the named inputs hold: the gas table from gaspam_file or gaspam_data, emissions and concentrations from the ones named so, natural methane and nitrous oxide emissions each from its own input, solar and volcanic forcing of each hemisphere from its own input. Every later run of the instance still uses them. A forcing run uses the forcing input, and a configuration without a forcing input or emissions does not build one.", "quantifier": "all configurations, all contents of the files and tables, all numbers of runs of the instance", "why_tests_cant": "Swapped inputs of the same shape go unnoticed unless the test data differ in the right column; tests use one configuration.", "anchors": ["src/ciceroscm/ciceroscm.py:CICEROSCM.__init__", "src/ciceroscm/input_handler.py:InputHandler.get_data", "src/ciceroscm/concentrations_emissions_handler.py:ConcentrationsEmissionsHandler.__init__"]}
{"id": "C75", "title": "A parameter that is left out has its documented default", "statement": "A run with parameter sets that leave parameters out gives the same results, or the same error, as the run in which every parameter left out is given with the default value the documentation states. This holds for the parameters of the upwelling-diffusion model, the two-layer model, concentrations and emissions, and both carbon cycle models. For carbon cycle parameters it holds if no earlier run of the instance gave them.", "quantifier": "all parameter sets, all subsets of parameters left out, all input data, both carbon cycles, all thermal models", "why_tests_cant": "Each default is written at several places in the code and in the documentation; a test fixes one set of parameters and compares with stored numbers of the same code.", "anchors": ["README.md", "src/ciceroscm/pub_utils.py:cut_and_check_pamset", "src/ciceroscm/thermal_model/upwelling_diffusion_model.py:UpwellingDiffusionModel", "src/ciceroscm/thermal_model/two_layer_ocean.py:TwoLayerOceanModel", "src/ciceroscm/concentrations_emissions_handler.py:ConcentrationsEmissionsHandler.reset_with_new_pams", "src/ciceroscm/carbon_cycle/carbon_cycle_mod.py", "src/ciceroscm/carbon_cycle/carbon_cycle_mod_box.py"]}
{"id": "C76", "title": "Reported imbalance and heat content of the diffusion model fit together", "statement": "Every reported global temperature is the mean of the hemispheres', and a hemisphere's surface temperature is the mean of its sea and air temperatures weighted with the ocean fraction. The reported imbalance is forcing minus feedback times surface temperature minus the anomalous radiation, which is the efficacy's excess over one times the heat that went below the mixed layer. The reported heat uptake is the increase of the reported heat content. (As coded the last sentence is false: under constant forcing the uptake shows a fixed share of the increase, about 0.79 with the default parameters.)", "quantifier": "all parameters, all forcing histories, all years", "why_tests_cant": "Tests compare stored output of the same code; the relation between two outputs has to hold in every year of every history.", "anchors": ["src/ciceroscm/thermal_model/upwelling_diffusion_model.py:UpwellingDiffusionModel.energy_budget", "src/ciceroscm/thermal_model/upwelling_diffusion_model.py:UpwellingDiffusionModel.ocean_temperature", "src/ciceroscm/formattingtools/reformat_cscm_results.py"]}
{"id": "C77", "title": "Requested emissions, concentrations and forcings are those of the run", "statement": "After a run whose results are kept in memory, asking for a variable by its public name (concentration of a gas, forcing of a component, emissions of CO2, CH4 or N2O) returns exactly the values the run used or produced for that species: one value for each run year, in order, with the unit of the gas table. CO2 emissions of an emission-driven run are fossil plus land use emissions with the perturbations; of a concentration-driven run they are those of the carbon cycle table. A species outside the run raises KeyError. (As coded this fails in two places: every request for emissions needs the carbon cycle outputs to have been asked for, and the name for tropospheric ozone has a stray apostrophe.)", "quantifier": "all inputs, parameters, histories of runs, both carbon cycles, all thermal models, all variables of the public list, all years", "why_tests_cant": "Tests read a few stored variables; the mapping has to be right for every variable after every run.", "anchors": ["src/ciceroscm/formattingtools/reformat_cscm_results.py:CSCMREADER.get_variable_timeseries", "src/ciceroscm/ciceroscm.py:CICEROSCM._run", "src/ciceroscm/concentrations_emissions_handler.py:ConcentrationsEmissionsHandler.add_results_to_dict"]}
{"id": "C78", "title": "Bounded forcing gives bounded temperatures in the upwelling-diffusion model", "statement": "If, in every year of a history, the ordinary forcing of each hemisphere stays within a bound b and every entry of the volcanic series within a bound v, and the feedback of that year is strong enough for b + v to be balanced below a temperature M at every upwelling rate that surface temperatures within M can produce, then no year of the history fails and every temperature the model returns (all ocean layers, surface, air and sea, per hemisphere and global) stays within M in absolute value. The upwelling may weaken with temperature, as it does by default; with the default parameters 12 W/m2 never moves any temperature by more than 10 K.", "quantifier": "all parameter sets meeting the stated conditions, all bounds, all histories of any number of years with any forcing and volcanic series within the bounds, all exact solvers", "why_tests_cant": "A test runs a few scenarios over a few centuries; it cannot exclude that a different sequence of bounded forcings drives the implicit scheme unstable, makes the matrix singular once the upwelling has weakened, or lets temperatures creep past any bound over a longer run.", "anchors": ["src/ciceroscm/thermal_model/upwelling_diffusion_model.py:energy_budget", "src/ciceroscm/thermal_model/upwelling_diffusion_model.py:setup_ebud2", "src/ciceroscm/thermal_model/upwelling_diffusion_model.py:coeff"]}
{"id": "C79", "title": "Emissions that produced a concentration path are found again", "statement": "Run the default carbon cycle forward with some emissions and hand the resulting concentrations back to the emission search: the emissions it returns lead to these concentrations again, to one part in ten million, in every year; and a higher emission in a year always gives a higher concentration at the end of that year, so no other emission explains it.", "quantifier": "all parameter sets, carbon states, emission paths and temperature paths", "why_tests_cant": "The search looks only inside an interval computed from the change of the concentration and an estimate of the land uptake. Whether the emission lies in it depends on the whole path and on the parameters; test paths are smooth and slow, for which it does.", "anchors": ["src/ciceroscm/carbon_cycle/carbon_cycle_abstract.py:get_initial_max_min_guess", "src/ciceroscm/carbon_cycle/carbon_cycle_abstract.py:back_calculate_emissions", "src/ciceroscm/carbon_cycle/carbon_cycle_mod.py:co2em2conc", "src/ciceroscm/carbon_cycle/carbon_cycle_mod.py:make_guess_emsize_estimates"]}
{"id": "C80", "title": "A run restricted to one component is driven by that component", "statement": "When a parameter set given to an instance (at construction or for any run so far) asks for one component with `just_one`, a run that completes names a row of the gas table whose forcing is computed year by year (or the total), the reported total of every year is the reported forcing of that component, and the thermal model is driven by it, split between the hemispheres with the component's weights, plus solar forcing. The forcing of every other component, the concentrations and the aerosol fraction of a year are what they are without the restriction. (As coded: a gas whose forcing is computed ahead, that is any gas with a concentration other than CO2, CH4 and N2O, cannot be asked for, every such run fails; and the restriction stays in force for later runs.)", "quantifier": "all inputs, all parameter sets, all histories of runs, all years, both run modes", "why_tests_cant": "all components, inputs and histories", "anchors": ["src/ciceroscm/concentrations_emissions_handler.py: conc2forc, check_pamset, reset_with_new_pams", "src/ciceroscm/ciceroscm.py: _run"]}
{"id": "C81", "title": "The reported temperatures, imbalance and heat contents of a run are those of the chosen thermal model and close its energy budget", "statement": "Whatever drives a run and whatever ran before, every temperature, imbalance and heat-content series in the results is, year by year, the quantity of that name of the thermal model started from rest with the parameters given and stepped through the forcings of the run. For the two-layer model the reported columns close the energy budget: the yearly gain of OHCTOT is the imbalance of the reported forcing (total, solar, volcanic) and the temperatures reported for the year before; RIB_glob and dT_glob follow from the temperatures of the year. For the diffusion model the reported columns do so too: the forcing applied in the year (total, solar, volcanic; ordinary forcing rising from last year's value) is used up by feedback on the reported air temperatures and by the flux into the ocean, OHCTOT grows by that flux, RIB_glob and the global temperatures follow from the hemispheres' (ocean efficacy one). For the diffusion model driven by a forcing array within bounds, the run completes and no reported temperature exceeds the bound set by the feedback.", "quantifier": "every source of forcing (handler, array, frame), parameter set, history of runs, length of run; both thermal models, every tridiagonal solver (exact solver for the bound)", "why_tests_cant": "Tests compare a few series with stored numbers; a column filled from a neighbouring output, or a feedback weight that is not passed on, shows only in the runs that use it.", "anchors": ["src/ciceroscm/ciceroscm.py:CICEROSCM._run", "src/ciceroscm/ciceroscm.py:CICEROSCM.add_year_data_to_output", "src/ciceroscm/thermal_model/two_layer_ocean.py:TwoLayerOceanModel.energy_budget", "src/ciceroscm/thermal_model/upwelling_diffusion_model.py:UpwellingDiffusionModel.energy_budget"]}
{"id": "C82", "title": "Carbon table of runs with the box carbon cycle", "statement": "With the box carbon cycle, add_results_to_dict with carbon-cycle output always yields a table and leaves the instance as it was. An emission-driven run has the columns Net primary production, Ocean carbon flux and Airborne fraction CO2; a concentration-driven run only the first two. Each row holds production and uptake at the CO2 concentration and global temperature reported for that year. These are the fluxes the carbon cycle applies in the following year: next year's concentration is this year's plus (emissions of next year - reported uptake + soil respiration - reported production)/2.123, and summed over years the emissions equal the growth of the atmosphere, the reported uptake of the years before and the growth of vegetation and soil. The airborne fraction counts from 278 ppm whatever the concentration table says. In direct calls, leaving out the temperatures means zero temperatures, for both carbon cycles.", "quantifier": "all inputs, parameters, thermal models reporting dT_glob, histories of runs on one instance and run lengths", "why_tests_cant": "The relation between the table and the run has to hold for every year of every run after any history; tests look at the presence of columns for a few fixed inputs.", "anchors": ["src/ciceroscm/carbon_cycle/carbon_cycle_mod_box.py:get_carbon_cycle_output", "src/ciceroscm/carbon_cycle/carbon_cycle_mod_box.py:calculate_npp", "src/ciceroscm/carbon_cycle/carbon_cycle_mod_box.py:calculate_ocean_uptake", "src/ciceroscm/concentrations_emissions_handler.py:get_carbon_cycle_data", "src/ciceroscm/carbon_cycle/carbon_cycle_abstract.py:get_preindustrial_co2_conc"]}
{"id": "C83", "title": "The output files hold the results of the run", "statement": "Running with file output (results_as_dict=False) ends in the same state as running with results in memory, and afterwards each of the files <prefix>_em, _conc, _forc.txt has one line per run year, a column Year and exactly the columns and values of the corresponding table in memory, formatted; <prefix>_carbon.txt exists iff carbon_cycle_outputs is in the configuration and holds the carbon table without a year column; <prefix>_ohc, _rib, _temp, _sunvolc.txt hold the yearly series under Year. A run driven by forcings writes the last four and _forc with the total forcing, nothing else. However the writing ends, no file outside these eight names is touched, the names are distinct, and a run with another (relative) prefix in the same folder leaves the files as they are. Year is the first column except in the forcing file of runs with components computed ahead. This fails with the two-layer model: the run ends with KeyError after the em, conc and forc files, without the other four; a forcing run leaves no file.", "quantifier": "all inputs, carbon cycles, thermal models with the outputs of the diffusion model, histories, run lengths, folders, prefixes and earlier contents of the disk", "why_tests_cant": "Agreement of files and memory has to hold for all tables, lengths and name combinations, and non-interference for all pairs of prefixes and all ways a run can fail; tests compare a few files of one run.", "anchors": ["src/ciceroscm/ciceroscm.py:_run", "src/ciceroscm/ciceroscm.py:write_data_to_file", "src/ciceroscm/concentrations_emissions_handler.py:write_output_to_files", "src/ciceroscm/concentrations_emissions_handler.py:add_results_to_dict"]}
{"id": "C84", "title": "Rows of a batch are those of single runs", "statement": "run_ciceroscm_parallel gives for every scenario and configuration the rows that a newly built instance gives which runs this configuration and nothing else, in scenario-major order, whatever the number of workers, the batches formed and the order in which workers finish. (True for prescribed forcing, and for emission and concentration runs whose configurations give values for the same carbon parameters and agree on giving just_one; false otherwise, because workers reuse one instance and carbon parameters of earlier configurations stay in force.)", "quantifier": "all scenarios with complete inputs, all lists of configurations, requested variables, worker counts, schedules, thermal models and both carbon cycles", "why_tests_cant": "depends on every history of configurations an instance may have run before, every batch split and completion order", "anchors": ["src/ciceroscm/parallel/cscmparwrapper.py:run_ciceroscm_parallel", "src/ciceroscm/parallel/cscmparwrapper.py:CSCMParWrapper", "src/ciceroscm/parallel/cscmparwrapper.py:run_over_cfgs", "src/ciceroscm/parallel/distributionrun.py:run_over_distribution", "src/ciceroscm/ciceroscm.py:_run"]}
{"id": "C85", "title": "Natural emission files: one number per year from 1750, for their own gas", "statement": "If a file of natural methane or nitrous oxide emissions is configured, a model with gases can only be made if the file has 751 numbers, and the model then has, for that gas and for no other, the first number in 1750, the second in 1751 and so on, whatever the years of the run and whatever data are configured beside it. If the configured file does not exist the file of the standard name below the current directory takes its place; this is not reported.", "quantifier": "all configurations, all file contents, all years, both gases", "why_tests_cant": "ranges over all files and run years; tests use two files of the right length", "anchors": ["src/ciceroscm/input_handler.py:read_natural_emissions", "src/ciceroscm/input_handler.py:check_inputfiles", "src/ciceroscm/input_handler.py:InputHandler"]}
{"id": "C86", "title": "A carbon cycle model uses the response functions it was given latest", "statement": "At any time in the life of a default carbon cycle model (made, then reset and stepped through years in any order), its ocean and land responses are those of the latest parameter set that gave them, independently of each other, as lists or as numbered keys; if none did, the built-in ones. Lists are accepted exactly if they have no negative number and the ocean response has one more coefficient than timescales, the land response as many; otherwise ValueError is raised.", "quantifier": "all histories of construction, resets and years, all parameter sets and lists", "why_tests_cant": "histories of any length; lists of any length", "anchors": ["src/ciceroscm/carbon_cycle/carbon_cycle_mod.py:CarbonCycleModel.reset_co2_hold", "src/ciceroscm/carbon_cycle/carbon_cycle_mod.py:CarbonCycleModel.precalc_r_functions", "src/ciceroscm/pub_utils.py:_check_array_consistency"]}
{"id": "C87", "title": "Sampled configurations have every parameter in its own interval", "statement": "A configuration list drawn from a parameter distribution has, in each of its n configurations and in the set the parameter belongs to, every parameter without a fixed value at the place in that parameter's own interval that the sampler drew, different parameters using different draws. With the Latin method the n values of a parameter lie one in each of n equal parts of its interval; with any other method they lie z standard deviations from the middle, the bounds being one standard deviation away. Latin sampling works exactly if there is something to sample and all sampled intervals have two increasing bounds; the default distribution always works. Every configuration drawn from the default distribution is accepted by the default carbon cycle model (false with the Gaussian method). Documented: a malformed distribution is replaced by the default one (false of the code).", "quantifier": "all distributions, fixed values, options, numbers of samples, chunk sizes and random draws", "why_tests_cant": "the draws are random, and distributions have any number of parameters", "anchors": ["src/ciceroscm/parallel/_configdistro.py:_ConfigDistro.__init__", "src/ciceroscm/parallel/_configdistro.py:_ConfigDistro._set_prior", "src/ciceroscm/parallel/_configdistro.py:_ConfigDistro.get_samples_from_distro_latin", "src/ciceroscm/parallel/_configdistro.py:_ConfigDistro.get_samples_from_distro_gaussian", "src/ciceroscm/parallel/_configdistro.py:_ConfigDistro.make_config_lists", "src/ciceroscm/parallel/_configdistro.py:prior_flat", "src/ciceroscm/carbon_cycle/carbon_cycle_mod.py:CarbonCycleModel.reset_co2_hold"]}
{"id": "C88", "title": "Under unchanging inputs the upwelling-diffusion model settles at the configured climate sensitivity", "statement": "When the upwelling-diffusion thermal model is given the same year's inputs for ever (any forcing of either sign, any volcanic series), with constant upwelling and a feedback that dominates the heat upwelling brings to the surface, no year fails, every temperature stays bounded and tends to a limit. With ocean efficacy one the global mean air temperature and the global mean surface temperature tend to the forcing divided by the configured feedback (forcing times lambda when no aerosol feedback is configured), and the flux into the ocean and the reported radiative imbalance tend to zero. If no forcing is negative, every temperature rises from each year to the next.", "quantifier": "All physically meaningful parameter sets with threstemp zero and a dominating feedback, all repeated years (northern and southern forcing, volcanic series, aerosol weight), all numbers of years, every layer and both hemispheres.", "why_tests_cant": "The limit is reached only after infinitely many years and the default ocean needs thousands of years to come close; a test can only look at a finite prefix of one parameter set and one forcing.", "anchors": ["src/ciceroscm/thermal_model/upwelling_diffusion_model.py:energy_budget", "src/ciceroscm/thermal_model/upwelling_diffusion_model.py:setup_ebud", "src/ciceroscm/thermal_model/upwelling_diffusion_model.py:set_feedback_gregory"]}
{"id": "C89", "title": "After any sequence of runs, everything in an instance's results describes its last run", "statement": "Whatever runs an instance did before, with whatever parameters and however their results were asked for (dictionary with or without carbon cycle outputs, or files), after its next run every entry of `results` (each yearly series and each table) is what that run alone would have put there.", "quantifier": "All instances (prescribed forcing or emissions/concentrations), all histories of successful runs of any length with any mix of parameter sets and output options, all last runs, all thermal and carbon cycle models, every entry of the results dictionary.", "why_tests_cant": "A test runs an instance once or twice and compares the entries it asked for; stale entries appear only for particular orders of output options over a history, and the histories are unbounded.", "anchors": ["src/ciceroscm/ciceroscm.py:_run", "src/ciceroscm/ciceroscm.py:initialise_output_arrays", "src/ciceroscm/concentrations_emissions_handler.py:add_results_to_dict"]}
{"id": "C90", "title": "The deep ocean of the upwelling diffusion model follows its heat equation, with upwelling set by the surface temperature", "statement": "For every parameter set, every history of forced years and every sub-step of every year, the temperature of each ocean layer below the mixed layer changes by exactly what diffusion and upwelling bring in from above minus what they carry on below, plus water sunk from the surface into the lowest layer, plus exchange with the other hemisphere; and the upwelling rate in that sub-step is W*(1 - 0.3*T/threstemp) with T the hemisphere's mixed layer temperature at its start.", "quantifier": "all parameter sets with a positive mixed layer and at least two layers, all histories of years (forcing, volcanic series, aerosol feedback weights), all sub-steps, all layers, both hemispheres", "why_tests_cant": "Tests compare a handful of output numbers of one configuration with stored values; the layer temperatures within a year are never reported, and no run of a few years can show that the threshold is without effect for every history.", "anchors": ["src/ciceroscm/thermal_model/upwelling_diffusion_model.py:UpwellingDiffusionModel", "src/ciceroscm/thermal_model/upwelling_diffusion_model.py:setup_ebud", "src/ciceroscm/thermal_model/upwelling_diffusion_model.py:energy_budget", "src/ciceroscm/thermal_model/upwelling_diffusion_model.py:coeff"]}
{"id": "C91", "title": "A run driven by the forcing another run reported reproduces its temperatures", "statement": "For every run driven by emissions or concentrations, a second run driven by the forcing the first reported (as an array of totals, or as a table with hemispheric columns), with the same years, thermal parameters, solar and volcanic series, reports the same temperatures, heat contents and imbalances in every year. Its reported total is the first run's total plus the solar forcing.", "quantifier": "all emission- or concentration-driven runs (any gas table, parameter sets, perturbations, carbon cycle and history of the instance), both thermal models, all years", "why_tests_cant": "Tests compare single runs with stored numbers; none replays a reported forcing, and no single replay shows for which runs the total alone is enough.", "anchors": ["src/ciceroscm/ciceroscm.py:CICEROSCM._run", "src/ciceroscm/ciceroscm.py:CICEROSCM.forc_set", "src/ciceroscm/ciceroscm.py:CICEROSCM.add_year_data_to_output", "src/ciceroscm/concentrations_emissions_handler.py:ConcentrationsEmissionsHandler.conc2forc"]}
{"id": "C92", "title": "A configuration can be used again", "statement": "Building a model from a configuration dictionary, and running it any number of times, leaves the dictionary fit for use: entries other than the six settings are untouched, the settings only gain defaults, and building a second model from it gives the same model as building from the untouched dictionary.", "quantifier": "all configurations (files or data for each input, any settings), all files, all histories of runs of the first model, both kinds of model (forcing or gases)", "why_tests_cant": "Tests build each model from a fresh dictionary; what a model leaves in the caller's dictionary and tables depends on which inputs are data, on the perturbations and on the runs made.", "anchors": ["src/ciceroscm/ciceroscm.py:CICEROSCM.__init__", "src/ciceroscm/input_handler.py:InputHandler.get_data", "src/ciceroscm/perturbations.py:perturb_emissions", "src/ciceroscm/concentrations_emissions_handler.py:ConcentrationsEmissionsHandler.emi2conc"]}
{"id": "C93", "title": "Prescribed forcings add up, and more forcing never gives less warming", "statement": "Runs with prescribed forcing (an array or a table), the same thermal parameters, the same years and the same aerosol weights. If in every year the inputs of one run (forcing of each hemisphere with the solar forcing, and every entry of the volcanic rows) are a times those of a second plus b times those of a third, then every series the thermal model adds to the results is, in every year, a times that of the second plus b times that of the third; for the two-layer model always, for the diffusion model with the upwelling threshold zero. If no input of one run is larger than that of another, no temperature and no heat content reported by the first is larger than that reported by the second in any year; for parameters with which no layer loses more heat in a step than it has, and constant upwelling in the diffusion model.", "quantifier": "all numbers a and b, all run lengths, all forcing arrays or tables, solar and volcanic series, all parameter sets in the stated ranges, both thermal models, every year and every reported series", "why_tests_cant": "A test compares a few runs; superposition and monotonicity are statements about all pairs of forcing histories, and an implementation with a nonlinear or sign-dependent correction in some regime passes tests outside that regime.", "anchors": ["src/ciceroscm/ciceroscm.py:_run", "src/ciceroscm/ciceroscm.py:add_year_data_to_output", "src/ciceroscm/thermal_model/two_layer_ocean.py:energy_budget", "src/ciceroscm/thermal_model/upwelling_diffusion_model.py:energy_budget"]}
{"id": "C94", "title": "Changing one gas moves its own forcing and the total, and nothing else", "statement": "Two models driven by concentrations whose inputs differ only in the prescribed concentrations of one gas that is not CO2, CH4, N2O or a row without concentration unit and contains no chlorine or bromine. After the same runs and with the same parameters (no single component requested), every run reports the same forcing for every other component and the same concentration for every other gas; the forcing of the gas and the total forcing differ by its efficiency times its ERF factor times the difference of the two concentration changes since the start year. If that difference is not negative in any year, no temperature and no ocean heat content is lower in any year, with either thermal model (constant feedback, parameters in the physical range, constant upwelling).", "quantifier": "all inputs, all gases of the stated kind, all pairs of concentration histories of it, all years, all earlier runs and parameter sets, both carbon cycle models, any thermal model for the forcings", "why_tests_cant": "A test perturbs one gas in one scenario; that no other column depends on it and that the sign of the temperature response is fixed are statements about all scenarios and all pairs of histories.", "anchors": ["src/ciceroscm/concentrations_emissions_handler.py:conc2forc", "src/ciceroscm/concentrations_emissions_handler.py:_precalculate_concentrations_vanilla_gases", "src/ciceroscm/concentrations_emissions_handler.py:_precalculate_erf_vanilla_gases", "src/ciceroscm/ciceroscm.py:_run"]}
{"id": "C95", "title": "The length of a run does not change its years", "statement": "Two models that are configured identically except that one of them ends in a later year (and its tables and series of forcing may go further) give, when run with the same parameter sets, the same result series, the same reported concentrations and the same reported forcings in every year that both run, for prescribed forcing, prescribed concentrations and emissions, with any thermal model and with a carbon cycle model that does not look at the last year, which neither of the two carbon cycle models does. Exception in the code: if the emission period begins in the last year of the shorter run, that year differs.", "quantifier": "all inputs, all pairs of last years, all parameter sets, all years of the shorter run, both carbon cycle models, any thermal model", "why_tests_cant": "Tests run one or two periods. Whether the end year leaks into earlier years (through arrays sized by it, cut tables, concentrations computed ahead, pulse response arrays) is a statement about all pairs of periods and all inputs.", "anchors": ["src/ciceroscm/ciceroscm.py:_run", "src/ciceroscm/concentrations_emissions_handler.py:precalculate_concentrations", "src/ciceroscm/concentrations_emissions_handler.py:ConcentrationsEmissionsHandler", "src/ciceroscm/carbon_cycle/carbon_cycle_mod.py:CarbonCycleModel"]}
{"id": "C96", "title": "More CO2 in concentration-driven runs", "statement": "Two concentration-driven models that differ in the prescribed CO2 concentrations only, with the same value in the start year, and are run with the same parameter sets: in every year the reported forcing of CO2 differs by exactly the documented formula, that of N2O by exactly the documented overlap with CO2, the reported total by the sum of both, and no other reported forcing or concentration differs. If the second model has at least as much CO2 in every year (up to 5000 ppm, within 1500 ppm of the start year, N2O up to 10000 ppb, ERF factor of N2O at most 1.5 times that of CO2), its total forcing is not lower in any year, the loss through the overlap with N2O included, and without a state dependent feedback none of its reported temperatures and heat contents is lower in any year, with the two-layer model and with the diffusion model.", "quantifier": "all inputs, all pairs of CO2 series, all parameter sets and earlier runs, all years", "why_tests_cant": "Tests compare a few prescribed scenarios. That the increase through CO2 always outweighs the overlap term, that the branch of the formula around the start value keeps the order, and that no other component depends on CO2 are statements about all pairs of series.", "anchors": ["src/ciceroscm/concentrations_emissions_handler.py:calculate_strat_quantities", "src/ciceroscm/concentrations_emissions_handler.py:calculate_forc_three_main", "src/ciceroscm/concentrations_emissions_handler.py:conc2forc", "src/ciceroscm/ciceroscm.py:_run"]}
{"id": "C97", "title": "In emission-driven runs the emissions of a species reach only what they should, and more of a gas emitted never gives less of it", "statement": "In an emission-driven run, changing the emissions of some species leaves the reported concentration of every gas but CO2 as it was in every year, unless the gas itself is among them (for methane and tropospheric ozone: methane, NOx, CO or NMVOC); likewise the reported forcing of every component but CO2 and N2O, unless it is driven by one of them (aerosols: the emissions they are computed from; methane and stratospheric water vapour: methane, N2O, NOx, CO, NMVOC; tropospheric ozone: methane, NOx, CO, NMVOC; the other gases: themselves). With at least as much of a gas (not CO2) prescribed before emissions start and emitted afterwards, its concentration is at least as high in every year, whatever else differs between the runs; for methane with the same lifetime mode and the same NOx, CO and NMVOC, in every mode, as long as its loss rate stays positive.", "quantifier": "all pairs of emission-driven runs with complete gas tables, all run years, gases and components, all histories, parameters, carbon cycles and thermal models", "why_tests_cant": "a test compares a few scenarios; leaks between species (a shared column, a lifetime or an overlap that reads another gas) and the sign of the response under a lifetime that depends on the concentration concern all scenarios", "anchors": ["src/ciceroscm/concentrations_emissions_handler.py:emi2conc", "src/ciceroscm/concentrations_emissions_handler.py:methane_lifetime", "src/ciceroscm/concentrations_emissions_handler.py:conc2forc", "src/ciceroscm/concentrations_emissions_handler.py:tropospheric_ozone_forcing"]}
{"id": "C98", "title": "Of two runs, the one with no smaller reported forcings reports no lower temperatures", "statement": "Take any two runs driven by emissions or concentrations, with any inputs, parameters, carbon cycles and histories of earlier runs. If in every year no component of the reported forcing table of the second run is smaller than that of the first (and neither are solar and volcanic forcing), then no reported temperature and no reported ocean heat content of the second run is lower in any year. This holds for both thermal models, without a state dependent feedback and with parameters in the physical range.", "quantifier": "all pairs of runs, all inputs and parameter sets without a single chosen component, all histories, all years, both thermal models", "why_tests_cant": "orders every pair of runs; needs the weights of every component in both hemispheres and an induction over the years", "anchors": ["src/ciceroscm/concentrations_emissions_handler.py:conc2forc", "src/ciceroscm/perturbations.py:calculate_hemispheric_forcing", "src/ciceroscm/perturbations.py:add_forcing_pert", "src/ciceroscm/ciceroscm.py:_run", "src/ciceroscm/thermal_model/two_layer_ocean.py:energy_budget", "src/ciceroscm/thermal_model/upwelling_diffusion_model.py:energy_budget"]}
{"id": "C99", "title": "More CO2 emitted", "statement": "Take two emission-driven runs whose inputs differ in the emissions of CO2 only. In every reported year the forcing of CO2 moves by the documented effect of the two reported concentrations, the forcing of N2O by the documented effect of the overlapping absorption bands, and every other component of the forcing table is the same, with any carbon cycle and thermal model. If the second run reports no less CO2 in any year (in the range of the formulas), it reports no lower temperature and no smaller ocean heat content in any year, although its N2O forcing is smaller. With the box carbon cycle without temperature effects, emitting no less CO2 in any year gives no lower reported CO2 in any year.", "quantifier": "all pairs of emission-driven runs of inputs that differ in the emissions of CO2 only, all carbon cycles, both thermal models, all histories of earlier runs, all years", "why_tests_cant": "compares every pair of emission scenarios; the claim has to hold for every component of the table and every year", "anchors": ["src/ciceroscm/concentrations_emissions_handler.py:emi2conc", "src/ciceroscm/concentrations_emissions_handler.py:conc2forc", "src/ciceroscm/carbon_cycle/carbon_cycle_mod_box.py:co2em2conc", "src/ciceroscm/ciceroscm.py:_run"]}
{"id": "C100", "title": "More methane", "statement": "Take two concentration-driven runs whose inputs differ in the prescribed concentrations of methane only, with the same methane in the first year of the run and in the reference year. In every reported year the forcing of CH4 moves by the documented formula, the forcing of N2O by the documented effect of the overlapping absorption bands, stratospheric water vapour by its share of the CH4 forcing, tropospheric ozone by the documented logarithm of methane, and every other component of the forcing table is the same, with any carbon cycle and thermal model. If the second input has no less methane in any year (in the range of the formulas), the run reports no lower temperature and no smaller ocean heat content in any year, although its N2O forcing is smaller.", "quantifier": "all pairs of concentration-driven runs of inputs that differ in the prescribed methane only, all carbon cycles, both thermal models, all histories of earlier runs, all years", "why_tests_cant": "compares every pair of methane scenarios; the claim has to hold for every component of the table and every year, and methane reaches four components by four routes", "anchors": ["src/ciceroscm/concentrations_emissions_handler.py:conc2forc", "src/ciceroscm/concentrations_emissions_handler.py:tropospheric_ozone_forcing", "src/ciceroscm/concentrations_emissions_handler.py:emi2conc", "src/ciceroscm/ciceroscm.py:_run"]}
{"id": "C101", "title": "More methane emitted", "statement": "Take two emission-driven runs whose inputs differ in the emissions of methane only, without perturbed forcings, and which report the same CO2 (the carbon cycle reacts to methane only through the temperature; with the box carbon cycle without temperature effects the reported CO2 is the same). In every reported year the forcings of CH4, N2O, stratospheric water vapour and tropospheric ozone move by the documented effects of the methane the runs report, and every other component of the forcing table is the same, with any carbon cycle and thermal model. If the second run reports no less methane in any year (in the range of the formulas), it reports no lower temperature and no smaller ocean heat content in any year, although its N2O forcing is smaller.", "quantifier": "all pairs of emission-driven runs of inputs that differ in the emissions of methane only, all carbon cycles, both thermal models, all histories of earlier runs, all years", "why_tests_cant": "compares every pair of methane emission scenarios; the claim has to hold for every component of the table and every year, with the lifetime of methane depending on its own concentration", "anchors": ["src/ciceroscm/concentrations_emissions_handler.py:emi2conc", "src/ciceroscm/concentrations_emissions_handler.py:methane_lifetime", "src/ciceroscm/concentrations_emissions_handler.py:conc2forc", "src/ciceroscm/concentrations_emissions_handler.py:tropospheric_ozone_forcing", "src/ciceroscm/ciceroscm.py:_run"]}
