# Formal model of ciceroscm in Lean 4

A Lean 4 model of the Python package in `/repo/src/ciceroscm` (pinned commit) and machine-checked proofs of the
properties listed in `properties.jsonl`. Build with `lake build` in `lean/`.

* `properties.jsonl` – the properties in English.
* `MANIFEST.json` – for each property its status and theorem names (written by `tools/sync.py`).
* `seeded/LOG.jsonl` – edits of the model that mimic bugs, and which theorems failed (section 8).
* `tools/` – scripts that write the manifest and the generated tables below.

## 1. How the model is built

One Lean definition per Python function, with the same branches in the same order. Each carries a comment with file and
lines, and says where it simplifies.

**Layout.**

| directory | content |
|---|---|
| `Verif/Py` | Python data: values, exceptions, ordered dictionaries, frames; number instances for ℝ and ℚ |
| `Verif/Model` | the model; nothing in it refers to a property |
| `Verif/Spec` | small specifications that properties are stated with, written without the model's helpers where possible |
| `Verif/Lemmas` | helper lemmas |
| `Verif/Props` | the property theorems (`Cnn_…`), each followed by an `example` that meets its hypotheses; further examples, each applying a theorem by name, are in `RichExamples.lean` (whole runs) and `Cases.lean` |
| `Verif/Exec` | concrete inputs used by the examples: kernel-computed ones over ℚ, real ones over ℝ |

**Numbers.** Model functions are polymorphic in the number type `F`. They ask only for the *operations* they use
(`Add F`, `Mul F`, `LT F`, `MathFn F` with exp, log, sqrt, …), not for laws.

* Data-flow theorems (parameter handling, re-runs, causality, batching, reporting, completion) are proved for **every** `F`,
  so they hold for IEEE doubles as well. Some ask for `YearLaw F`: comparison of integer years in `F` behaves like
  comparison of integers. This is true of doubles for all years below 2^53 and proved for ℝ (`yearLaw_real`).
* Algebraic and analytic theorems are proved at `F := ℝ`. Decimal literals are exact rationals. They say nothing about
  rounding.
* Examples use `F := ℚ` with toy `exp`/`log` where the kernel has to compute, and `F := ℝ` elsewhere.

**Control.** Python dictionaries are ordered association lists. Python values (`PyVal`) are an inductive type with
integers, floats, strings, booleans, `None`, lists and opaque functions. Exceptions are values of `Except PyErr`, so "raises
KeyError" can be stated and "never raises" has to be proved. Mutable objects are explicit state. Objects shared with the
caller (the user's emission frame, the gas table) are part of that state when the code writes to them.

**Runs.** `Driver.run` models `CICEROSCM._run`; the carbon cycle and the thermal model are interface records
(`CarbonOps`, `ThermalOps`) with the code's two implementations of each as instances. `After cops tops d0 ps d`
(`Spec/History`) says that `d` is the instance `d0` after the runs `ps`, in order; `AfterAsked` (`Spec/Asked`) also allows the
carbon cycle table to be asked for in between. Theorems named `Cnn_run` hold for every run of every such history.

## 2. Properties: what is modelled and how it is proved

A property whose status is *partial* either is false of the code as pinned, or part of it is missing. In the first case the
negation is proved with a concrete witness under the suffix `_false` and the part that does hold is proved under `_partial`.

<!-- begin properties -->

| id | property | modelled | how proved | status, theorems |
|---|---|---|---|---|
| C01 | Sanitised parameter sets are complete, numeric and contain nothing unexpected | `_utils.py` on ordered dictionaries | induction over the dictionary | proved: `C01_value`, `C01_wf`, `C01_complete`, `C01_nothing_else`, `C01_idempotent` |
| C02 | Updating parameters between runs only touches parameters that may change | `update_pam_if_numeric` | induction over the list of updatable keys | proved: `C02_value`, `C02_keys`, `C02_none` |
| C03 | A re-run does not depend on which parameter sets were run before | driver, handler, both carbon cycles, both thermal models as a state machine over a list of runs | simulation relation between two histories, induction over runs and years; negation by concrete pairs of runs | partial: `C03_forcing_run`, `C03_emiconc_in_force`, `C03_lifetime_mode`, `C03_box_partial`, `C03_default_carbon_partial`, `C03_conc_run_partial`, `C03_carbon_false`, `C03_default_carbon_false`, `C03_just_one_false`, `C03_carbon_value_false` |
| C04 | Start, end and emission-start years, sub-steps and run mode are fixed for the life of an instance | `check_pamset_consistency`, `_run` | invariant over lists of runs | proved: `C04_frozen`, `C04_emission_start`, `C04_carbon_clock` |
| C05 | Hemispheric weighting preserves the global mean of every forcing component | `calculate_hemispheric_forcing`; whole runs with the reported forcing table | algebra over ℝ, case analysis on the tracer; induction over the components and the perturbation rows of a year | proved: `C05_mean`, `C05_weights`, `C05_run` |
| C06 | Reported total forcing equals the sum of reported components, and the hemispheres average to total plus solar | `conc2forc` and the driver's reporting | fold invariant for one year; `C06_run` lifts it to every year of every history | proved: `C06_total`, `C06_total_components`, `C06_just_one`, `C06_keys`, `C06_run` |
| C07 | Forcing is measured from the start year | all forcing branches of `conc2forc` | case analysis per component, start-year values cancel | proved: `C07_components`, `C07_precomputed`, `C07_run` |
| C08 | The aerosol forcing fraction passed to the thermal model lies between 0 and 1 | the aerosol weight of `conc2forc` | sums of same-signed terms; negation by a perturbed run | partial: `C08_range_partial`, `C08_false`, `C08_run_partial`, `C08_fraction_partial` |
| C09 | Forcing perturbations shift the result by exactly the perturbation | `ForcingPerturbation.add_forcing_pert` | induction over perturbation rows | proved: `C09_total`, `C09_hemispheric_mean`, `C09_component`, `C09_frame`, `C09_order` |
| C10 | Forcing perturbations of pre-computed gases accumulate like those of other components | forcing perturbation of pre-computed gases | induction over rows (last one wins); negation with two rows | partial: `C10_last_row_wins`, `C10_accumulates_partial`, `C10_false` |
| C11 | Emission perturbations add up and touch nothing else | `perturb_emissions` | induction over rows, frame updates | proved: `C11_value`, `C11_ok_iff`, `C11_order`, `C11_repeated_construction` |
| C12 | Concentration-driven years reproduce the prescribed concentrations | `emi2conc` and `fill_one_row_conc` in a concentration run | fold over the gas table, lifted to every history | proved: `C12_conc_run`, `C12_before_emstart`, `C12_reported` |
| C13 | The one-year concentration update is the exact decay solution | the decay update of `emi2conc` | ODE solution over ℝ (derivative and initial value), convexity bounds | proved: `C13_step`, `C13_between`, `C13_closer`, `C13_nonneg`, `C13_mono_prior`, `C13_mono_source`, `C13_equilibrium`, `C13_converges`, `C13_run_bounds`, `C13_run` |
| C14 | Pre-computed gases follow the same yearly update as the others | `_precalculate_concentrations_vanilla_gases` against `emi2conc` | induction over years | partial: `C14_series_partial`, `C14_nonneg`, `C14_mono`, `C14_additive`, `C14_last_year_false`, `C14_run_partial` |
| C15 | Stratospheric ozone responds to chlorine and bromine with a three-year lag | `_add_precalculated_strat_o3`, `calculate_strat_quantities` | list indexing, algebra | proved: `C15_lag`, `C15_depends`, `C15_nonpos` |
| C16 | No look-ahead | the whole driver loop with arbitrary carbon cycle and thermal model | relational induction over years | proved: `C16_emission_run`, `C16_forcing_run` |
| C17 | Methane lifetime is positive and the documented modes are honoured | `methane_lifetime` | case analysis on the mode, positivity of exp | partial: `C17_rate`, `C17_positive`, `C17_tar_sign`, `C17_constant_partial`, `C17_constant_false`, `C17_constant_sinks_false`, `C17_unknown_false`, `C17_unknown_partial` |
| C18 | Without emissions the default carbon cycle stays exactly pre-industrial | default carbon cycle step | induction over sub-steps and years; `C18_run` for whole runs | proved: `C18_zero_emissions`, `C18_zero_emissions_fresh`, `C18_not_constant`, `C18_run` |
| C19 | The default carbon cycle closes its carbon budget | default carbon cycle step | telescoping sum over sub-steps | proved: `C19_budget_substep`, `C19_budget_reported`, `C19_run` |
| C20 | Back-calculated emissions reproduce the concentrations when run forward | `back_calculate_emissions` | induction over years, from the stopping rule of the search | proved: `C20_loop`, `C20_backcalculated_emissions` |
| C21 | The emission search terminates, stays in its bracket and converges for a monotone response | `_guess_emissions_iteration` | well-founded recursion, invariant of the bracket, geometric decrease | proved: `C21_search_trace`, `C21_converges`, `C21_initial_bracket` |
| C22 | The box carbon model conserves carbon | box carbon cycle step | sum over boxes, induction over sub-steps; `C22_run` for whole runs | proved: `C22_one_year`, `C22_conservation`, `C22_run` |
| C23 | The box carbon model is at rest in its pre-industrial state | box carbon cycle step | algebra at the fixed point | proved: `C23_rest_general`, `C23_rest`, `C23_npp_nonneg`, `C23_npp_value`, `C23_mixed_depth_unused` |
| C24 | Carbon temperature feedbacks are normalised, bounded and well-signed | the temperature feedback functions | real analysis of the sigmoid | proved: `C24_sigmoid_range`, `C24_threshold_range`, `C24_sigmoid_strictMono`, `C24_threshold_strictAnti`, `C24_npp_at_zero`, `C24_npp_pos`, `C24_solubility_eq`, `C24_solubility_at_zero`, `C24_solubility_range`, `C24_solubility_antitone`, `C24_mixed_eq`, `C24_mixed_at_zero`, `C24_mixed_min`, `C24_mixed_antitone` |
| C25 | Mixed-layer pCO2 is a strictly increasing, C1 function of dissolved carbon | `_get_ocean_pco2` polynomial branches | derivatives at the joints, positivity by polynomial bounds | proved: `C25_zero`, `C25_slope_pos`, `C25_hasDerivAt`, `C25_slope_continuous`, `C25_strictMono` |
| C26 | Impulse response functions are properly normalised | `rfuns.py` | sums of coefficients, exponentials; both branches of the default functions | proved: `C26_good_accepted`, `C26_rs_start`, `C26_rs_substep_zero`, `C26_rs_antitone`, `C26_rs_bounds`, `C26_rs_limit`, `C26_rb_start`, `C26_rb_nonneg`, `C26_rb_integral`, `C26_builtin_rs_start`, `C26_builtin_rs_strictAnti`, `C26_builtin_rs_bounds`, `C26_builtin_rb_start`, `C26_builtin_rb_pos` |
| C27 | Flat and structured impulse-response parameters mean the same | `_process_flat_carbon_parameters` | induction over keys, injectivity of the key index | proved: `C27_flat_to_structured`, `C27_structured_unchanged`, `C27_mismatch_rejected`, `C27_mismatch_rejected_rs` |
| C28 | Airborne fraction is the ratio of the accumulated excess to accumulated emissions | `get_airborne_fraction` | list induction | proved: `C28_airborne_fraction` |
| C29 | The two-layer model closes its heat budget | two-layer model | algebra per sub-step, telescoping over the year | proved: `C29_reported_heat`, `C29_one_year`, `C29_accumulated`, `C29_reported_imbalance` |
| C30 | The two-layer model is stable and reaches the textbook equilibrium | two-layer model | spectral bound of the 2×2 step, convergence of geometric series | proved: `C30_default_stable`, `C30_constRun_is_run`, `C30_monotone_bounded`, `C30_equilibrium`, `C30_reported`, `C30_rest`, `C30_linear` |
| C31 | Volcanic forcing acts like any other forcing of the same size | both thermal models' use of volcanic forcing | algebra; negation with concrete years | partial: `C31_twolayer_doubles_volcanic_partial`, `C31_twolayer_false`, `C31_diffusion_monthly`, `C31_diffusion_false` |
| C32 | Upper-700m heat content is consistent with total heat content (two-layer) | two-layer heat content | algebra | proved: `C32_ohc700`, `C32_shallow`, `C32_bounds` |
| C33 | The diffusion model conserves heat in its interior | upwelling diffusion ocean | sum over layers of the solved tridiagonal system | partial: `C33_heat_budget_partial`, `C33_heat_budget`, `C33_exchange_false` |
| C34 | Air temperatures satisfy the surface energy balance | surface air balance of the diffusion model | linear algebra | proved: `C34_surface_balance`, `C34_global_balance`, `C34_mean_forcing`, `C34_equilibrium` |
| C35 | The implicit ocean solve always has exactly one solution and respects the maximum principle | the tridiagonal system of the diffusion model | diagonal dominance, maximum principle by induction over layers | proved: `C35_dominant`, `C35_unique_solution`, `C35_maximum_principle`, `C35_run_succeeds`, `C35_warming` |
| C36 | The diffusion model is at rest without forcing and linear without upwelling feedback | one year of the diffusion model | linearity by induction over sub-steps, uniqueness of the solve | proved: `C36_rest`, `C36_linear` |
| C37 | Upper-700m heat content integrates exactly 700 m (diffusion model) | `OHC` calculation of the diffusion model | sums over layers | partial: `C37_upper700_partial`, `C37_upper700_false`, `C37_ocean_too_shallow` |
| C38 | Aerosol-dependent feedback never accumulates | `set_feedback` of both models | state invariant | proved: `C38_diffusion_last_update`, `C38_diffusion_history`, `C38_twolayer_history` |
| C39 | Sub-yearly forcing ramps linearly from last year's to this year's forcing | sub-yearly forcing of the diffusion model | algebra | proved: `C39_ramp`, `C39_substep` |
| C40 | Every year of a run is computed once, in order, and lands in its own output slot | driver loop and output arrays | induction over years | proved: `C40_run`, `C40_feedback` |
| C41 | Forcing-driven runs use the prescribed forcing plus solar | `forc_set` | case analysis on the input's columns | partial: `C41_array`, `C41_frame`, `C41_succeeds` |
| C42 | Parallel batching runs every scenario/configuration pair exactly once, in order | `cscmparwrapper`, `run_parallel` | list induction | proved: `C42_pairs`, `C42_no_empty_batch`, `C42_result`, `C42_worker_independent`, `C42_needs_history_free` |
| C43 | Parallel results do not depend on the completion schedule | executor with arbitrary completion order | permutation arguments; timeout as an arbitrary subset | partial: `C43_parallel_phase`, `C43_failure_surfaces`, `C43_timeout_raises`, `C43_schedule_independent`, `C43_any_failure_raises`, `C43_serial_result`, `C43_serial_partial`, `C43_serial_false` |
| C44 | Chunked configuration lists are a partition of the samples with unique indices | chunking of configuration lists | list induction | proved: `C44_partition`, `C44_chunk_size`, `C44_unsplit`, `C44_unique_index` |
| C45 | Each sampled or fixed parameter reaches exactly one component, the one that uses it | `make_config_lists` routing of names | case analysis over the name tables; negation by `foan`, fixed rb/rs | partial: `C45_sampled_names`, `C45_sampled`, `C45_fixed_partial`, `C45_nothing_else`, `C45_fixed_false`, `C45_foan_false`, `C45_npp0_unused`, `C45_unread_box`, `C45_unread_default`, `C45_unread_all`, `C45_unread_history`, `C45_unread`, `C45_unread_diffusion`, `C45_unread_two_layer`, `C45_npp0_false`, `C45_fixed_response_false` |
| C46 | Configuration files round-trip | configuration files as name → JSON maps | round trip by induction over configurations | partial: `C46_round_trip`, `C46_generated_round_trip`, `C46_legacy`, `C46_rejects`, `C46_other_files`, `C46_rewrite_partial`, `C46_rewrite_false` |
| C47 | Input source precedence | `InputHandler` precedence | case analysis over supplied sources | proved: `C47_file_wins`, `C47_missing_file`, `C47_data_used`, `C47_mandatory`, `C47_luc_default`, `C47_sun_default`, `C47_volc_default`, `C47_volc_one_hemisphere`, `C47_natural_default` |
| C48 | Solar and volcanic forcing are off unless sunvolc is 1 | `set_sun_volc_luc_defaults` | case analysis | partial: `C48_partial`, `C48_false` |
| C49 | Input tables are cut to exactly the run years | `read_inputfile`, in-memory tables | filters on the year index | proved: `C49_cut`, `C49_beyond`, `C49_emissions`, `C49_run` |
| C50 | Row-per-year forcing files are aligned to the run years | `read_data_on_year_row` | list indexing | proved: `C50_aligned`, `C50_short`, `C50_early`, `C50_run`, `C50_early_run`, `C50_run_volc` |
| C51 | Aggregated output variables are the sums of their parts | `reformat_cscm_results` sums | list induction over the species tables | partial: `C51_fgas_partial`, `C51_ghg_partial`, `C51_once`, `C51_total`, `C51_aerosol_false` |
| C52 | Carbon pool outputs are the running sums of the reported fluxes | carbon pool outputs | list induction (cumulative sums) | proved: `C52_pool`, `C52_net` |
| C53 | Halogen atom counts follow the chemical naming rules | `pub_utils` name parser on strings | parser invariants on code lists; negation with concrete names | partial: `C53_hcfc`, `C53_halon`, `C53_formula_chlorine_partial`, `C53_formula_bromine_partial`, `C53_no_halogen`, `C53_mixed_false`, `C53_two_letter_suffix_false`, `C53_dictionaries` |
| C54 | Impulse-response input validation accepts exactly well-formed input | `_check_array_consistency` | case analysis | proved: `C54_accepts_iff`, `C54_zero_timescale_accepted` |
| C55 | Regional aerosol tables extend the gas table without changing it | `make_regional_aerosol_gaspamdata`; its effect in a run | induction over rows; run theorems over every history | partial: `C55_run_regional`, `C55_run_no_double`, `C55_efficiency_counted`, `C55_efficiency_false`, `C55_keeps_rows`, `C55_adds_rows`, `C55_succeeds` |
| C56 | Component selection is total and exact | `component_factory_functions`, driver options | case analysis over arbitrary strings | proved: `C56_carbon_exact`, `C56_carbon_rejects`, `C56_thermal_exact`, `C56_thermal_rejects`, `C56_user_choice` |
| C57 | Standard output files can be written for every thermal model | `write_data_to_file` with each model's output dictionary | lookup in the result dictionary; negation for the two-layer model | partial: `C57_udm_partial`, `C57_two_layer_false` |
| C58 | Chunked configuration files do not overwrite each other | chunked file names | injectivity of the file name; negation without `.json` | partial: `C58_chunk_files_distinct_partial`, `C58_chunk_files_false`, `C58_file_contents` |
| C59 | Reported forcing is the documented function of reported concentrations, emissions and parameters | `conc2forc` branch by branch against `Spec/Forcing` | case analysis; `C59_run` for every year of every history | proved: `C59_year`, `C59_run`, `C59_run_ahead`, `C59_run_ozone` |
| C60 | Main gases warm when they rise and cool when they fall | three main gas forcing | derivatives and explicit bounds over ℝ | partial: `C60_zero`, `C60_co2_sign_partial`, `C60_co2_increasing_partial`, `C60_n2o_increasing`, `C60_n2o_sign`, `C60_ch4_increasing`, `C60_ch4_sign`, `C60_co2_sign_false`, `C60_co2_increasing_false` |
| C61 | The carbon cycle gets all CO2 emissions, once a year and in order, and its answer is what is reported | `emi2conc` with arbitrary carbon cycle | trace of calls by induction over years | proved: `C61_run`, `C61_conc_run` |
| C62 | Reported emissions are the emissions used | `add_results_to_dict` | frame lookups, every history | proved: `C62_columns`, `C62_early_table_fails` |
| C63 | Complete inputs never make a run fail | constructor and every run step | progress lemma per function, invariant over runs | proved: `C63_completes`, `C63_box`, `C63_default`, `C63_diffusion` |
| C64 | Every configuration option that is accepted is read | which configuration keys each read path looks at | equality of construction for configurations that agree on the read keys | partial: `C64_unread_false`, `C64_only_these_partial`, `C64_each_matters` |
| C65 | Input files in the wrong unit are rejected | `_check_gaspam_compatibility` | induction over the gas table | partial: `C65_partial`, `C65_rows_needed`, `C65_false` |
| C66 | Prescribed forcing files mean what their columns say | `read_forc`, `forc_set` | column sums | partial: `C66_components_partial`, `C66_hemispheres_false`, `C66_weight`, `C66_solar_false` |
| C67 | Every documented result variable can be requested after a run | `get_variable_from_results` and both models' outputs | lookup per documented variable | partial: `C67_partial`, `C67_anomalous_false`, `C67_two_layer_false`, `C67_two_layer_partial`, `C67_unknown` |
| C68 | Units do not depend on how the gas table was supplied | file and in-memory unit routes | case analysis over unit strings | partial: `C68_partial`, `C68_units_false`, `C68_x_rows_false`, `C68_file_units` |
| C69 | Dissolved carbon is the integral of past air-sea fluxes weighted by the ocean response | default carbon cycle, mixed-layer sum | induction over sub-steps; `C69_partial` is the exact convolution computed | partial: `C69_partial`, `C69_previous_flux_false`, `C69_pulse` |
| C70 | Net land uptake is production minus the decay of earlier production | default carbon cycle, land sum | induction over sub-steps | proved: `C70_production`, `C70_uptake`, `C70_reported` |
| C71 | CO2 in a coupled run is the carbon cycle alone, driven by that run's emissions and last year's temperature | driver loop with both carbon cycles | trace of calls (C61) composed with the stand-alone carbon cycle; induction over years | proved: `C71_run`, `C71_run_box`, `C71_preindustrial`, `C71_parameters` |
| C72 | The carbon cycle table describes the run that was made | `get_carbon_cycle_output` after an emission run | the state after a run (C71) put through the table functions | partial: `C72_run`, `C72_airborne`, `C72_diagnostics_partial`, `C72_diagnostics_false` |
| C73 | The carbon cycle table of a concentration-driven run | `back_calculate_emissions` after a concentration run, interleaved with runs | C20 at the state after a run; simulation relation that ignores the working variables | partial: `C73_run`, `C73_observation`, `C73_observation_box`, `C73_completes`, `C73_land_false` |
| C74 | Every input is used for what it is named after | `CICEROSCM.__init__` with the input handler, runs | the built state put through every run (C03), one field at a time | proved: `C74_gas_run`, `C74_every_run`, `C74_forcing`, `C74_no_forcing`, `C74_kind` |
| C75 | A parameter that is left out has its documented default | `cut_and_check_pamset`, the models' `required_pamset`s, `reset_with_new_pams`; README tables in Spec/Defaults | runs on parameter sets that look the same to the code agree (run_agree) | proved: `C75_udm`, `C75_udm_run`, `C75_no_set`, `C75_emiconc_run`, `C75_no_emiconc_set`, `C75_default_carbon`, `C75_box_carbon`, `C75_twolayer`, `C75_twolayer_run`, `C75_qindso2` |
| C76 | Reported imbalance and heat content of the diffusion model fit together | `energy_budget` of the diffusion model, the reader's unit conversion | invariant over sub-steps for the weighted means; C33 and C34 combined; negation for a first year of forcing | partial: `C76_temperatures`, `C76_imbalance`, `C76_relation`, `C76_heat_uptake_partial`, `C76_heat_uptake_false` |
| C77 | Requested emissions, concentrations and forcings are those of the run | the tables added to the results after a run and the reader of results in memory | every cell of the tables exists (invariants over the year loop), then the reader's dictionaries are looked up; the list of variables is a separate literal specification | partial: `C77_tables`, `C77_concentrations`, `C77_forcings`, `C77_emissions`, `C77_emissions_box`, `C77_emissions_from_concentrations`, `C77_emissions_unasked_false`, `C77_ozone_false` |
| C78 | Bounded forcing gives bounded temperatures in the upwelling-diffusion model | The yearly step of the diffusion model with its 12 sub-steps, the banded matrices and right-hand sides, refreshed coefficients for temperature-dependent upwelling (Model/UDM). | Comparison with the constant temperature M: M plus or minus the solution satisfies a system with the same strictly dominant matrix and a non-negative right-hand side, so the maximum principle bounds it; then induction over sub-steps and years. | proved: `C78_bounded` |
| C79 | Emissions that produced a concentration path are found again | Same models as C20/C21 (`Model/Carbon`, `Model/BackCalc`). | One sub-step per year: the year's concentration is an affine flux plus a strictly increasing pressure, hence strictly increasing and continuous in the emission; the intermediate value theorem gives the solution inside the interval and C21 the convergence. A witness shows that the interval can miss the emission. Any number of sub-steps: continuity in the emission is kept by every sub-step while the concentration is positive; the bisection keeps an interval with a solution. | partial: `C79_more_emission`, `C79_recovered_partial`, `C79_recovered_false`, `C79_continuous`, `C79_recovered_steps_partial`, `C79_more_emission_false` |
| C80 | A run restricted to one component is driven by that component | the parameter checks, the reset, the yearly forcing and the run loop | induction over the history for the value in force, then the forcing of each year of the run | partial: `C80_run`, `C80_others`, `C80_ahead_refused`, `C80_every_row_false` |
| C81 | The reported temperatures, imbalance and heat contents of a run are those of the chosen thermal model and close its energy budget | The driver loop (Model/Driver), both thermal models as it uses them (Model/ThermalInst), the forcing sources | C81_two_layer, C81_diffusion: from the trace of the loop, by induction over the years, each series is the list of outputs of the model's own run; any number type. C81_emission_budget, C81_array_budget: with C06 and C29 the budget in the reported columns. C81_array_bounded: with C78, completion and bound for runs driven by an array. C81_diffusion_emission_budget, C81_diffusion_array_budget: with C33, C34, C76 and C91's chain of years the budget of the diffusion model in the reported columns (Spec/DiffusionReport) | proved: `C81_two_layer`, `C81_diffusion`, `C81_array_bounded`, `C81_diffusion_emission_budget`, `C81_diffusion_array_budget`, `C81_emission_budget`, `C81_array_budget` |
| C82 | Carbon table of runs with the box carbon cycle | `boxOutput`, `carbonCycleData`, `carbonTable` (Model/CarbonOut) on top of the whole driver run | From C71_run_box (reported CO2 is the stand-alone box model) and an invariant of the box parameters over all runs; budget by induction over years at the reals | proved: `C82_run`, `C82_next_year`, `C82_conc_run`, `C82_no_temperature`, `C82_budget` |
| C83 | The output files hold the results of the run | `write_output_to_files`, `write_data_to_file` and the end of `_run` as a list of writes and an outcome; files as grids of fields | file names are injective in kind and prefix; columns of a written grid read back; the tables are those of `runResults`; negation for the two-layer model | partial: `C83_kinds`, `C83_prefixes`, `C83_tables`, `C83_forcing_run`, `C83_only`, `C83_separate`, `C83_two_layer_false` |
| C84 | Rows of a batch are those of single runs | Model/Batch.lean: the worker with the real driver, results dictionary and reader (Model/Driver, Model/Results, Model/Reader) inside the scheduling of Model/Parallel.lean | C84_forcing: a run does not depend on the series the instance held before (lockstep); C84_default_partial, C84_box_partial: relation between the carbon cycles of a new and of a used instance kept by every year and by asking for the table, completeness of every further run, then C42_result; C84_workers_false: kernel-executed run with one and two workers | partial: `C84_forcing`, `C84_default_partial`, `C84_box_partial`, `C84_workers_false`, `C84_rows`, `C84_one_scenario` |
| C85 | Natural emission files: one number per year from 1750, for their own gas | `read_natural_emissions`, `check_inputfiles`, `InputHandler` and the constructor of `CICEROSCM` (Model/InputHandler); files are a table from names to contents | the built object is taken apart (`built`, `gas_run_inputs`), the file route of the input handler gives the table, and the table is indexed by year | proved: `C85_file`, `C85_other_length` |
| C86 | A carbon cycle model uses the response functions it was given latest | `CarbonCycleModel.__init__`, `reset_co2_hold`, `precalc_r_functions`, `co2em2conc` as operations on an object (Model/CarbonInst), flat keys (Model/FlatParams) | induction over the life of the object: what it holds under the two names is what was given latest, and its response arrays belong to what it holds | proved: `C86_ocean`, `C86_land`, `C86_accepted_iff` |
| C87 | Sampled configurations have every parameter in its own interval | `Model/Sampling.lean` (construction with prior, both samplers, the default tables; the unit sample and the normal draws are inputs; `qmc.scale` and `np.random.normal(loc, scale)` by their documented formulas and refusals) | the column of a parameter is the same in prior and configuration; order arithmetic; table check for the default prior | partial: `C87_latin`, `C87_one_in_each`, `C87_accepted_iff`, `C87_gaussian`, `C87_gaussian_accepted_iff`, `C87_fallback_false`, `C87_default`, `C87_gaussian_default`, `C87_usable`, `C87_gaussian_usable_false` |
| C88 | Under unchanging inputs the upwelling-diffusion model settles at the configured climate sensitivity | The upwelling-diffusion model as for C33-C36: object, sub-steps, tridiagonal systems, yearly outputs, with an exact solver. | A quiet year at the start leaves the object as constructed, so the response to one more year minus the response so far is, by linearity (C36), the response to a single pulse and by the maximum principle (C35) not negative: temperatures rise. Bounded by C78, hence convergent; the sign restriction is removed by splitting the forcing into parts. The heat content's increments then vanish and the heat budget (C33) and surface balance (C34) determine the limits. | proved: `C88_rises`, `C88_bounded`, `C88_settles`, `C88_equilibrium`, `C88_run` |
| C89 | After any sequence of runs, everything in an instance's results describes its last run | The driver with the tables of its results dictionary, over a list of calls (`Model/Session.lean`); results as dictionary or as files. | Invariants by induction on the history; a run does not read the series held before; the witnesses for stale tables are executed by the kernel. | partial: `C89_last_partial`, `C89_series`, `C89_kept`, `C89_carbon_false`, `C89_files_false` |
| C90 | The deep ocean of the upwelling diffusion model follows its heat equation, with upwelling set by the surface temperature | `Model/UDM.lean`: `wcfac`, `setupEbud2`, `refresh`, `subStep`, `energyBudget`, `run`; the equation is `DeepStep` with `down` and `upwelling` in `Spec/Diffusion.lean` | `C90_layers_partial` by induction over the sub-steps of a year after any history, from the rows of the tridiagonal systems. The claim is false of the code in the first sub-step of each year, where upwelling is that of an unwarmed ocean. `C90_annual_false`: with one sub-step per year the threshold has no effect on any output of any history | partial: `C90_layers_partial`, `C90_annual_false` |
| C91 | A run driven by the forcing another run reported reproduces its temperatures | `Model/Driver.lean`: `run` for both kinds of source; `Spec/Replay.lean` says what a replay is (`Replays`) and which series must agree (`SameSeries`) | `C91_table`: for every thermal model, by following both runs year by year from the chain of handler states of the first (`RunChain`). `C91_two_layer`: the array of totals suffices when the feedback does not depend on aerosols. For the diffusion model the claim with the array is false (`C91_diffusion_false`: black carbon alone); `C91_diffusion_partial` says exactly when it holds: if and only if the hemispheres were forced alike in every year | partial: `C91_table`, `C91_two_layer`, `C91_diffusion_partial`, `C91_diffusion_false` |
| C92 | A configuration can be used again | `Model/Shared.lean`: `leftBehind`, the caller's dictionary with the tables the model shares with it; `Spec/Reuse.lean`: which configurations keep their tables | `C92_dictionary`: entry by entry. `C92_build_again`: the sanitised settings of the updated dictionary are the sanitised settings of the original, so the constructor's update changes nothing the second time. `C92_reuse_partial`: the gas table does not change in a run (`run_gas`) when the natural emissions are those of the table. False with perturbed emissions given as data (`C92_perturbed_false`), and of a gas table shared by two configurations (`C92_shared_table_false`) | partial: `C92_dictionary`, `C92_build_again`, `C92_reuse_partial`, `C92_perturbed_false`, `C92_shared_table_false` |
| C93 | Prescribed forcings add up, and more forcing never gives less warming | run with prescribed forcing through both thermal models (Model/Driver, TwoLayer, UDM, ThermalInst); Spec/Superpose states the inputs of a year, superposition, order and the parameter range | the years of the thermal model are the inputs of the run (C81); two-layer: induction over the years on three (two) states; diffusion: C36 linearity, C35 positivity of the difference history, C76 and C37 for surface means and upper ocean heat content | proved: `C93_sum_two_layer`, `C93_order_two_layer`, `C93_sum_diffusion`, `C93_order_diffusion` |
| C94 | Changing one gas moves its own forcing and the total, and nothing else | construction and yearly forcing of two handlers side by side (Model/Handler, Driver); Spec/OneGas states what differs, the kind of gas and its documented effect | relational invariant between the two handlers (Lemmas/OneGas, OneGasRun), kept by reset, every year and every run; the temperatures by the order theorems of C93 applied to the forcings of the years | proved: `C94_forcing`, `C94_warms_two_layer`, `C94_warms_diffusion` |
| C95 | The length of a run does not change its years | construction, reset and runs of two drivers side by side (Model/Handler, Driver, CarbonInst); Spec/Length and Spec/LookAhead state what is equal | relational invariant between the two runs up to the last common year (Lemmas/Agree, AgreeConstruct, AgreeRun), the same that gives C16; carbon cycle models by relating the two model objects; the exception by kernel-executed runs | partial: `C95_impulse`, `C95_box`, `C95_forcing_run`, `C95_emission_run_partial`, `C95_last_year_false`, `C95_model_forcing`, `C95_model_partial` |
| C96 | More CO2 in concentration-driven runs | construction, reset, emi2conc, conc2forc and runs of two drivers side by side (Model/Handler, Driver); both thermal models (Model/ThermalInst) | simulation relation between the two handlers that lets CO2, and the forcings of CO2, N2O and the total, differ (Lemmas/Co2), the two forcings by the formulas of Spec/MoreCo2; real analysis for the sign of the sum; the order theorems of C93 for the temperatures | proved: `C96_forcing`, `C96_warms_two_layer`, `C96_warms_diffusion` |
| C97 | In emission-driven runs the emissions of a species reach only what they should, and more of a gas emitted never gives less of it | whole runs (Model/Handler, Model/Driver) with any carbon cycle and thermal model, the recorded concentrations and forcings | the run-level theorems C12, C13, C14, C59 give each series as a function of the emissions it depends on; induction over the years; for methane the year's update grows with the emissions and falls with the loss rate (convexity of exp), which falls with the concentration | proved: `C97_more`, `C97_methane_more`, `C97_conc`, `C97_forcing`, `C97_forcing_ahead` |
| C98 | Of two runs, the one with no smaller reported forcings reports no lower temperatures | The run with its reported forcing table; the hemispheric sums as weighted sums of the reported columns (`C05_run`) | Weights are not negative, so the hemispheric forcings are ordered; then the order theorems of both thermal models (C93) by induction over the years | proved: `C98_two_layer`, `C98_diffusion` |
| C99 | More CO2 emitted | Emission-driven runs (`Ran`), their reported concentrations and forcings, the box carbon cycle inside them | Other components by C97 and the table computed ahead; CO2 and N2O by the documented formulas; the sum of both effects is not negative (C96) and the order of the thermal models (C93); for the box model the order of its pools is an invariant of the yearly step | proved: `C99_forcing`, `C99_warms_two_layer`, `C99_warms_diffusion`, `C99_box_more`, `C99_emitted_two_layer`, `C99_emitted_diffusion` |
| C100 | More methane | Concentration-driven runs, their reported concentrations and forcings, the formulas of CH4, N2O, ozone and water vapour | The reported forcings as functions of the reported data (C59) for both runs, which differ in methane and ozone only; a lower bound on the slope of the CH4 formula against the overlap term of N2O; the order of the thermal models (C93) | proved: `C100_forcing`, `C100_two_layer`, `C100_diffusion` |
| C101 | More methane emitted | Emission-driven runs, their reported concentrations and forcings, the formulas of CH4, N2O, ozone and water vapour, the box carbon cycle | The components methane does not reach from C97; the four it reaches from the reported forcings as functions of the reported data (C59) of both runs; the box carbon cycle by induction over the years; more methane from C97_methane_more; the order of the thermal models (C93) | proved: `C101_forcing`, `C101_warms_two_layer`, `C101_warms_diffusion`, `C101_box_co2`, `C101_emitted_two_layer`, `C101_emitted_diffusion` |

Notes on single properties (what is missing where the status is partial):

* **C03** False as stated. Carbon-cycle parameters and just_one stick from earlier runs: C03_carbon_false, C03_default_carbon_false, C03_just_one_false (concrete pairs of runs) and C03_carbon_value_false (every number type). What holds for every history: forcing runs (C03_forcing_run), the other emission/concentration parameters (C03_emiconc_in_force, C03_lifetime_mode), and whole runs that themselves give every sticky parameter some earlier run gave (C03_box_partial, C03_default_carbon_partial, C03_conc_run_partial). Histories consist of successful runs; a run that raises is not part of a history.
* **C06** C06_run is the statement for every year of every run of an instance with any history; the others are for one year.
* **C08** False as stated when a forcing perturbation names an aerosol computed in the run (C08_false). Proved for all other years, for one year and for whole runs (C08_range_partial, C08_fraction_partial, C08_run_partial).
* **C09** Stated for the perturbation routine with any accumulated forcing. In a run the component part is C59_run (reported = documented forcing + rows naming it) and the total is C06_run.
* **C10** As stated false of the code: repeated rows for one gas and year overwrite each other (C10_false). Proved: last row wins for all tables (C10_last_row_wins); the full statement when each (gas, year) occurs at most once (C10_accumulates_partial).
* **C100** The methane of the reference year has to be the same: ozone is computed relative to it, so more methane there lowers the ozone of the start year and so changes the scale of the ozone forcing in every year. Range of the formulas: at most 5000 ppb CH4 and 1000 ppb N2O; the factor of N2O is at most 1.5 times that of CH4; at most 30 DU of ozone in the first year.
* **C101** That the second run reports no less methane is a hypothesis of the warming theorems; C97_methane_more derives it from the emissions. That the reported CO2 is the same is a hypothesis too; C101_box_co2 derives it for the box carbon cycle without temperature effects. With temperature effects methane also changes CO2 and the claim that CO2 does not move is false. Range of the formulas as in C100. C101_emitted_two_layer and C101_emitted_diffusion ask for more emissions only, with that carbon cycle.
* **C14** Fails for emstart equal to the last run year: the prescribed value of that year is kept (C14_last_year_false). Proved for all other emstart.
* **C16** Stated for the whole driver loop with any carbon cycle and thermal model.
* **C17** Positivity is proved in full (C17_positive, with the OH condition shown to be sharp in C17_tar_sign). The documented mode string CONSTANT does not select the 12-year lifetime (C17_constant_false; the code tests for CONSTANT_12, C17_constant_partial), even then the two other sinks are added (C17_constant_sinks_false), and unknown modes do not behave like WIGLEY (C17_unknown_false, C17_unknown_partial).
* **C31** False for both thermal models: the two-layer model doubles volcanic forcing (C31_twolayer_false; exactly by 2, C31_twolayer_doubles_volcanic_partial); the diffusion model ramps ordinary forcing over the year but not volcanic forcing (C31_diffusion_false). Proved: month by month the two are equivalent in the diffusion model (C31_diffusion_monthly).
* **C33** False with exchange between the hemispheres' air switched on (C33_exchange_false); then the exact budget with the lag term is C33_heat_budget_partial. With ebbeta = 0, the default, C33_heat_budget is the full statement. Assumes the linear solver returns a solution whenever there is exactly one (Spec.Exact).
* **C34** Assumes the linear solver is exact (Spec.Exact).
* **C35** Assumes the linear solver is exact (Spec.Exact).
* **C36** Assumes the linear solver is exact (Spec.Exact).
* **C37** False for mixed layers deeper than 700 m (C37_upper700_false). Proved for all others; oceans shallower than 700 m are refused (C37_ocean_too_shallow).
* **C41** Proved for inputs with a total column and for arrays. That the total of a hemispheric file without a total column is not the mean but a missing value is C66_hemispheres_false.
* **C42** C42_result and C42_worker_independent ask that a run does not depend on the runs before it in the same batch (HistoryFree), which is needed (C42_needs_history_free).
* **C43** False for the pool-less mode, where the front-serial results come last (C43_serial_false, exact result C43_serial_result). Proved for every schedule and split with a pool. Real scheduling is abstracted to the completion order and which futures finish before the timeout.
* **C45** False for fixed impulse-response parameters (C45_fixed_false), for thermal parameters the router does not know (C45_foan_false) and for npp0 of the default distribution, which nothing reads (C45_npp0_false). C45_unread and its companions say that such a parameter has no effect on any run. Everything else is proved. C45_unread_box and C45_unread_default: the same for the carbon cycle set. C45_unread_all: any number of such names in all three sets of a run of the default model. C45_unread_history: the same for every sequence of runs, in both directions.
* **C46** False for re-writing without passing the meta information (C46_rewrite_false). Files are a map from names to JSON values; JSON text itself is not modelled.
* **C47** As coded the default file for the southern volcanic forcing is the northern one (C47_volc_default), and a missing natural emission file does not fail the construction.
* **C48** False: a configured file wins over sunvolc (C48_false). Proved when no solar or volcanic file is configured.
* **C51** False for the aerosol aggregates (C51_aerosol_false). Proved for fluorinated gases, greenhouse gases and the total.
* **C53** False for formulae with both bromine and chlorine (the bromine is not counted) or two chlorine groups (C53_mixed_false) and for HCFC names with a two-letter suffix, which raise ValueError (C53_two_letter_suffix_false). Proved for all other names covered by the naming rules.
* **C55** The table part is proved in full (C55_keeps_rows, C55_adds_rows, C55_succeeds) and in a run regional rows get their own forcing (C55_run_regional) and switch off the global coefficient (C55_run_no_double). 'Nothing is counted twice' is false if the gas table gives the global row a non-zero efficiency (C55_efficiency_counted, C55_efficiency_false).
* **C57** False for the two-layer model (C57_two_layer_false). Proved for the diffusion model.
* **C58** False for file names without .json (C58_chunk_files_false). Proved for all others.
* **C60** CO2 sign and growth fail far from the start-year concentration (C60_co2_sign_false, C60_co2_increasing_false). Proved within explicit ranges.
* **C62** For an emission table that begins with the start year; an earlier start makes collecting the results fail (C62_early_table_fails).
* **C63** Numbers are not interpreted: whatever value an operation returns, no step raises. Python's float ZeroDivisionError for scalar division is not part of the model, see DESIGN.md.
* **C64** False: five documented options are never read (C64_unread_false). Options outside the list in C64_only_these_partial have no effect, and each option in the list has one (C64_each_matters; witnesses executed over rational numbers with stand-ins for the transcendental functions).
* **C65** False: one gas missing from the emission file switches the comparison off (C65_false). Proved when all gases are present.
* **C66** False for hemispheric columns without a total (C66_hemispheres_false) and for a column SOLAR, which counts as aerosol (C66_solar_false). Proved: components without total (C66_components_partial), weight (C66_weight).
* **C67** False for Anomalous Radiation with either model and for two temperatures with the two-layer model (C67_anomalous_false, C67_two_layer_false). All other requests are proved.
* **C68** False for most emission units (C68_units_false). Proved for concentration units and the emission units that agree.
* **C69** False: the flux of the previous sub-step is left out and older ones count one sub-step too young (C69_previous_flux_false, C69_pulse). C69_partial gives the integral the code does compute, for every history.
* **C70** The decay rate of an earlier production is taken at the number of sub-steps in between (zero for the production just before).
* **C71** C71_run (default), C71_run_box; C71_parameters and C71_preindustrial say which parameters are in force.
* **C72** C72_run, C72_airborne and C19_run (budget in reported numbers) hold for every run. The diagnostics claim is false for every run whose first year is warm (C72_diagnostics_false): the three columns are evaluated at the temperature of the same year, the run used the year before; C72_diagnostics_partial gives what they are.
* **C73** C73_run: the table always exists, its emissions reproduce the concentrations, its ocean flux and diagnostics are those of the forward run. C73_observation and C73_observation_box: asking changes no later run; C73_completes: it prevents none. The land flux is not that of the forward run (C73_land_false): it is computed from the concentrations of the same year.
* **C76** Temperatures, the imbalance of a hemisphere and the relation of imbalance and heat flux are proved for every history. That the reported heat uptake is the increase of the reported heat content is false as stated (C76_heat_uptake_false, a first year of forcing); C76_heat_uptake_partial gives what holds when the forcing is that of the year before, where the two are proportional but not equal.
* **C77** Proved for all concentrations and forcings, and for emissions when the carbon cycle outputs were asked for. False as stated otherwise: without those outputs every request for emissions raises KeyError (C77_emissions_unasked_false), and the name for the concentration of tropospheric ozone is never answered (C77_ozone_false).
* **C79** False in general (C79_recovered_false: the search interval misses the emission). C79_recovered_steps_partial: for every number of sub-steps a year, if the interval reaches from too little to too much, the search returns an emission that gives the target or is next to one that does. With one sub-step a year a higher emission gives a higher concentration, so it is the only such emission (C79_recovered_partial, C79_more_emission); with more sub-steps a higher emission can give a lower concentration (C79_more_emission_false).
* **C80** The part about which components can be asked for is false for every row of the gas table: a gas computed ahead is refused (C80_ahead_refused, C80_every_row_false). What holds for every history and year: C80_run (the last just_one given is in force; total and thermal forcing are those of the component), C80_others (components, concentrations and aerosol fraction of a year do not change).
* **C83** False for the two-layer model (C83_two_layer_false). Proved for the outputs of the diffusion model. The text format of a line and plots are not modelled.
* **C84** Proved without restriction for prescribed forcing. False as stated for the other runs (C84_workers_false: a parameter one configuration leaves out keeps the value of the configuration before, so the number of workers matters). C84_default_partial and C84_box_partial prove it for configurations that give values for the same carbon parameters.
* **C87** Proved for the Latin method, including the default distribution, and which distributions are accepted. False as stated for the documented fallback to the default distribution (C87_fallback_false) and for the usability of Gaussian draws (C87_gaussian_usable_false). The sample of the unit cube and the normal draws are inputs of the model.
* **C89** False: tables of earlier runs stay in the results (C89_carbon_false, C89_files_false; C89_kept says which). Series are always those of the last run (C89_series); all entries are, for runs asked for as a dictionary, if the carbon cycle table is asked for now or never was (C89_last_partial).
* **C90** False in the first sub-step of each year: upwelling is then that of an unwarmed ocean, so with one sub-step per year the threshold has no effect (C90_annual_false). Proved for every other sub-step, and the heat equation itself for all (C90_layers_partial). The tridiagonal solver is assumed exact.
* **C91** False of the diffusion model with the array of totals, which loses the difference between the hemispheres (C91_diffusion_false); proved that the replay agrees exactly when the hemispheres were forced alike (C91_diffusion_partial), and in general for a table with hemispheric columns and aerosol weights (C91_table) and for the two-layer model (C91_two_layer).
* **C92** False when emissions and a perturbation of them are given as data: the second model perturbs them again (C92_perturbed_false). False of a gas table shared by two configurations, which keeps the natural emissions of the last run (C92_shared_table_false). Proved otherwise (C92_build_again, C92_reuse_partial); the second model is not literally the same object when natural emissions and the gas table are both given as data.
* **C95** Fails if the emission period begins in the last year of the shorter run: that year then keeps the prescribed concentrations of the gases computed ahead (C95_last_year_false). Proved otherwise, for instances whose tables agree up to the last common year and cover the run years consecutively (C95_forcing_run, C95_emission_run_partial). Also proved for whole configurations: two models built from the same files whose configurations differ only in nyend (C95_model_forcing, C95_model_partial).
* **C99** That the second run reports no less CO2 is a hypothesis of the warming theorems, which hold for every carbon cycle; C99_emitted_two_layer and C99_emitted_diffusion derive it from the emissions for the box carbon cycle without temperature effects. The range of the formulas (Co2Range) is asked of the reported concentrations.

<!-- end properties -->

## 3. Trusted base

* **Lean 4.33.0's kernel.** No `sorry`, no `native_decide`, no `bv_decide`, no axioms of our own. Closed computations use
  `decide` or `decide +kernel`, both checked by the kernel.
* **Mathlib**, for ℝ, ℚ, lists, finite sums and tactics; everything used is replayed by the kernel.
* **Axioms.** `propext`, `Classical.choice` and `Quot.sound` only; section 7 lists them for each property theorem.
* **The correspondence between Python and Lean.** By reading, function by function. The comments make it checkable; the
  table in section 6 shows what is covered. Nothing in the proofs can detect a misreading of the Python source, so the
  transcription was tested separately: `Verif/Exec/FloatRun.lean` runs the model at `F := Float` on the input files of the
  repository's integration tests (`tools/floatrun.sh`, needs the repository's test data) and compares the results with the
  expected files stored there, which have six digits. The tests of the repository allow a relative difference of 1e-2.
  The model's largest relative differences are:

  | Run of the repository's tests | Files compared | Numbers | Largest relative difference |
  | --- | --- | --- | --- |
  | one year of forcing (test_scm_forc.py) | temp, ohc, sunvolc | 4914 | 3e-5 |
  | the same forcing by hemisphere, threstemp 0 | temp, ohc, sunvolc | 4914 | 8e-4 (the expected file is that of the previous run) |
  | 1 % CO2, no sun or volcanoes | temp, ohc, sunvolc | 4914 | 3e-5 |
  | 1 % CO2 with sun and volcanoes | temp, ohc, sunvolc | 4914 | 4e-5 |
  | the same, threstemp 0 | temp, ohc | 1755 | 3e-5 |
  | SSP2-4.5 emissions (test_scm_conc.py) | conc, em | 24570 | 5e-6 |
  | the same | forc (13 years), temp (15 years) | 746 | 3e-3 (these expected files are older) |
  | SSP2-4.5 concentrations | conc, em, forc, ohc | 41769 | 5e-6 |
  | forcing perturbations, emission run (test_scm_pertrun.py) | forc | 16497 | 5e-6 |
  | emission perturbations | em | 13689 | 5e-6 |

  This covers the input handler, the concentrations/emissions handler, perturbations, the default carbon cycle and the
  upwelling-diffusion model. The two-layer model, the box carbon cycle, back-calculated emissions and the tools around the
  model have no stored results to compare with.

## 4. Assumptions about libraries

These are built into the definitions of the model.

| library behaviour | modelled as |
|---|---|
| pandas frame with a year index; `df[c][y]`, `df.loc[y, c]` | `Frame`: column list, index list, cell function; a missing column or year is a KeyError |
| assignment to a missing cell of a frame | enlarges the frame, as pandas does |
| `np.exp`, `np.log`, `np.sqrt`, `**` | total functions `MathFn`; over ℝ the Mathlib ones. NaN and infinity do not exist over ℝ |
| division by zero | the number type's own division. **Python's `ZeroDivisionError` for division of two Python floats is not modelled**: C63 ("no run fails") is about exceptions from lookups, conversions and indexing. numpy scalars, which most of these values are, do not raise |
| `np.dot`, `np.sum`, `cumsum`, slices | list folds and list slices; negative indices where the code uses them |
| `scipy.linalg.solve_banded` / the tridiagonal solver | an arbitrary function assumed only to satisfy `Spec.Exact`: if the system has exactly one solution, it returns it. C35 proves that the systems of the model have exactly one |
| `concurrent.futures` | an arbitrary completion order, and an arbitrary set of futures finished at the timeout |
| `json.dump` / `json.load` | identity on JSON values; floats are written so that they read back equal |
| random sampling (`scipy.stats`, latin hypercube) | an arbitrary sample matrix; the code that maps samples to parameters is modelled |
| reading text files (`pd.read_csv`) | the parsed table. Which file is read, how it is cut to the run years, renamed, scaled and checked is modelled |
| logging and warnings | nothing |

## 5. What is not modelled

* Floating-point rounding, NaN propagation and overflow (except that data-flow theorems hold for every `F`).
* Text parsing and formatting of numbers; file encodings; `make_plots.py`; `_version.py`.
* Runs that raise in the middle and are followed by further runs on the same instance: histories consist of successful runs.
* The random numbers themselves.
* Aliasing between objects the user shares between several instances (for example one gas table for two instances), beyond
  the writes to the caller's objects named in the comments.

## 6. Coverage

One row per Python function; a dash means that no definition of the model cites it.

<!-- begin coverage -->

| Python function | lines | Lean definitions citing it |
|---|---|---|
| _utils.py `check_numeric_pamset` | 10-43 | InputHandler.checkNumericCfg, Utils.checkNumericStep, Utils.checkNumericPamset |
| _utils.py `cut_non_required` | 46-75 | InputHandler.cutAndCheckCfg, Utils.cutNonRequired |
| _utils.py `cut_and_check_pamset` | 78-112 | InputHandler.cutAndCheckCfg, Utils.usedKeys, Utils.cutAndCheckPamset |
| _utils.py `update_pam_if_numeric` | 115-151 | Utils.updatePamStep, Utils.updatePamIfNumeric |
| ciceroscm.py `CICEROSCM.__init__` | 73-141 | Factory.driverRequired, Factory.driverUsed, Factory.driverCfg, Factory.thermalName, Factory.carbonName, Factory.driverEmiconc, Factory.chooseComponents, InputHandler.asRows, InputHandler.asForcing, InputHandler.copyFunctions, InputHandler.buildSource, InputHandler.build, Shared.updatedCfg |
| ciceroscm.py `CICEROSCM.initialise_output_arrays` | 143-155 | Driver.initialiseOutputArrays |
| ciceroscm.py `CICEROSCM.forc_set` | 157-202 | Driver.frameWeight, Driver.prescribed, Driver.forcSet |
| ciceroscm.py `CICEROSCM.add_year_data_to_output` | 204-229 | Driver.addThermal, Driver.addYearData |
| ciceroscm.py `CICEROSCM._run` | 231-332 | CarbonOut.feedbackSeries, CarbonOut.carbonTable, Driver.feedbackDict, Driver.yearForcing, Driver.yearStep, Driver.resetSource, Driver.startRun, Driver.run, Files.runFiles, Perturb.addForcingPert, Results.runResults, Session.Ask, Session.Call, Session.callRun, TwoLayer.Year, TwoLayer.startYear, UDM.Year |
| ciceroscm.py `CICEROSCM.write_data_to_file` | 334-430 | Driver.writerSeries, Driver.writeData, Files.joinPath, Files.OutCfg, Files.OutCfg.path, Files.yearCol, Files.numCol, Files.dataColumns, Files.dataGrid, Files.dataFiles, Files.onDisk |
| component_factory_functions.py `create_carbon_cycle_model` | 9-37 | Factory.createCarbonCycleModel |
| component_factory_functions.py `create_thermal_model` | 40-63 | Factory.createThermalModel |
| concentrations_emissions_handler.py `check_pamset` | 26-81 | Factory.handlerRequired, Factory.handlerUsed, Factory.checkPamset |
| concentrations_emissions_handler.py `check_pamset_consistency` | 84-114 | Handler.pamsCantChange, Handler.keepOldStep, Handler.addMissing, Handler.checkPamsetConsistency |
| concentrations_emissions_handler.py `ConcentrationsEmissionsHandler.__init__` | 162-217 | Factory.chooseComponents, Handler.perturbedEmis, Handler.construct, InputHandler.asGases, InputHandler.asFrame, InputHandler.asPert, InputHandler.getPert, InputHandler.getInputs |
| concentrations_emissions_handler.py `ConcentrationsEmissionsHandler._precalculate_vanilla_gases` | 219-246 | Handler.vanillaGases, Handler.precalculate, Handler.totVanilla |
| concentrations_emissions_handler.py `ConcentrationsEmissionsHandler.avoid_regional_double_counting` | 248-259 | Handler.globalAerosols, Handler.avoidRegionalDoubleCounting |
| concentrations_emissions_handler.py `ConcentrationsEmissionsHandler._precalculate_erf_vanilla_gases` | 261-278 | Handler.precalcErf |
| concentrations_emissions_handler.py `ConcentrationsEmissionsHandler._precalculate_concentrations_vanilla_gases` | 280-321 | Handler.vanillaUpdate, Handler.vanillaLoop, Handler.vanillaAppend, Handler.precalcConc |
| concentrations_emissions_handler.py `ConcentrationsEmissionsHandler._add_precalculated_strat_o3` | 323-338 | Handler.stratQuantities, Handler.stratO3Forcing, Handler.stratO3Series, Handler.addColumn |
| concentrations_emissions_handler.py `ConcentrationsEmissionsHandler.reset_with_new_pams` | 340-374 | Handler.forcKeysOf, Handler.concKeysOf, Handler.resetArrays, Handler.resetWithNewPams |
| concentrations_emissions_handler.py `ConcentrationsEmissionsHandler.calculate_strat_quantities` | 376-411 | Handler.clTerm, Handler.brTerm, Handler.stratQuantities |
| concentrations_emissions_handler.py `ConcentrationsEmissionsHandler.calculate_forc_three_main` | 413-492 | Handler.qCo2, Handler.qN2o, Handler.qCh4, Handler.threeMain |
| concentrations_emissions_handler.py `ConcentrationsEmissionsHandler.tropospheric_ozone_forcing` | 494-538 | Handler.tropO3Conc, Handler.tropO3Forcing |
| concentrations_emissions_handler.py `ConcentrationsEmissionsHandler.calc_aerosol_forcing` | 540-593 | Handler.refEmissionSpecies, Handler.aerosolForcing |
| concentrations_emissions_handler.py `ConcentrationsEmissionsHandler.conc2forc` | 595-726 | Handler.totVanilla, Handler.isAerosol, Handler.hasAlpha, Handler.tracerForcing, Handler.forcStep, Handler.addVanilla, Handler.addPert, Handler.applyJustOne, Handler.finishForc, Handler.conc2forc |
| concentrations_emissions_handler.py `ConcentrationsEmissionsHandler.emi2conc` | 728-806 | BoxCarbon.run, Handler.concUpdate, Handler.co2Emissions, Handler.co2Step, Handler.concLocal, Handler.setNatEm, Handler.decayRate, Handler.otherStep, Handler.tracerStep, Handler.beforeEmstart, Handler.beforeStart, Handler.emi2conc |
| concentrations_emissions_handler.py `ConcentrationsEmissionsHandler.methane_lifetime` | 808-846 | Handler.dlnOh, Handler.lifetimeMode, Handler.methaneLifetime |
| concentrations_emissions_handler.py `ConcentrationsEmissionsHandler.fill_one_row_conc` | 848-873 | Handler.fillStep, Handler.fillOneRow |
| concentrations_emissions_handler.py `ConcentrationsEmissionsHandler.add_row_of_zeros_conc` | 875-888 | Handler.addRowOfZeros |
| concentrations_emissions_handler.py `ConcentrationsEmissionsHandler.write_output_to_files` | 890-964 | Files.joinPath, Files.OutCfg, Files.OutCfg.path, Files.toCsv, Files.numCol, Files.nanCol, Files.handlerFiles, Session.Ask |
| concentrations_emissions_handler.py `ConcentrationsEmissionsHandler.add_results_to_dict` | 966-1028 | CarbonOut.carbonTable, Files.yearCol, Files.rotate, Files.forcingCols, Files.yearFirst, Handler.reportName, Handler.reportForcing, Handler.reportConc, Handler.reportEmisRows, Handler.reportEmis, Results.cellOver, Results.columnOver, Results.frameOver, Results.carbonFrame, Results.runResults, Session.Ask |
| concentrations_emissions_handler.py `ConcentrationsEmissionsHandler.get_carbon_cycle_data` | 1030-1083 | CarbonOut.concSeries, CarbonOut.emSeries, CarbonOut.carbonCycleData |
| concentrations_emissions_handler.py `ConcentrationsEmissionsHandler.get_feedback_list` | 1085-1094 | - |
| input_handler.py `read_components` | 23-44 | - |
| input_handler.py `read_natural_emissions` | 47-74 | InputHandler.readNatural |
| input_handler.py `read_inputfile` | 77-105 | InputHandler.cutYears |
| input_handler.py `check_inputfiles` | 108-143 | InputHandler.naturalPath, InputHandler.checkFile |
| input_handler.py `read_forc` | 146-206 | InputHandler.Files, InputHandler.aeroCols, InputHandler.forcTotals, InputHandler.forcWeights, InputHandler.readForc |
| input_handler.py `read_csv_no_index_col` | 209-228 | - |
| input_handler.py `InputHandler.__init__` | 238-308 | InputHandler.readMethods, InputHandler.readFile, InputHandler.usedCfg, InputHandler.requiredCfg, InputHandler.naturalDefault, InputHandler.create |
| input_handler.py `InputHandler._check_gaspam_compatibility` | 310-368 | InputHandler.uncheckedRows, InputHandler.checkEmissionUnits, InputHandler.checkConcUnits, InputHandler.checkGaspam |
| input_handler.py `InputHandler.get_flat_natural_emissions` | 370-389 | InputHandler.flatNatural, InputHandler.checkConcUnits, InputHandler.checkGaspam |
| input_handler.py `InputHandler.set_sun_volc_luc_defaults` | 391-441 | InputHandler.sunvolcOn, InputHandler.lucDefault, InputHandler.sunDefault, InputHandler.volcDefault, InputHandler.sunVolcZero, InputHandler.setDefaults |
| input_handler.py `InputHandler.get_rf_type` | 443-459 | - |
| input_handler.py `InputHandler.get_data` | 461-504 | InputHandler.getData, Shared.sharedEmis |
| input_handler.py `InputHandler.read_emissions` | 506-530 | InputHandler.renameEmission, InputHandler.readEmissions |
| input_handler.py `InputHandler.conc_run` | 532-547 | InputHandler.concRun |
| input_handler.py `InputHandler.thermal_model` | 549-564 | Factory.thermalName |
| input_handler.py `InputHandler.carbon_model` | 566-581 | Factory.carbonName |
| input_handler.py `InputHandler.optional_pam` | 583-602 | InputHandler.optionalPam |
| input_handler.py `InputHandler.read_data_on_year_row` | 604-640 | InputHandler.readYearRows |
| make_plots.py `fix_plot` | 11-39 | - |
| make_plots.py `plot_output1` | 42-132 | - |
| make_plots.py `plot_output2` | 135-233 | - |
| perturbations.py `calculate_hemispheric_forcing` | 9-57 | Perturb.aerosolHemTracers, Perturb.hemisphericForcing |
| perturbations.py `perturb_emissions` | 60-90 | Perturb.pertTarget, Perturb.perturbEmissionsStep, Perturb.perturbEmissions |
| perturbations.py `ForcingPerturbation.__init__` | 110-128 | - |
| perturbations.py `ForcingPerturbation.check_if_year_in_pert` | 130-148 | - |
| perturbations.py `ForcingPerturbation.check_if_compound_in_pert` | 150-166 | - |
| perturbations.py `ForcingPerturbation.add_forcing_pert` | 168-207 | Perturb.addForcingPertStep, Perturb.addForcingPert |
| perturbations.py `ForcingPerturbation.add_forcing_pert_for_vanilla` | 209-228 | Perturb.addForcingPertVanillaGas, Perturb.addForcingPertVanilla |
| pub_utils.py `get_first_key` | 22-43 | PubUtils.getFirstKey |
| pub_utils.py `_check_array_consistency` | 46-101 | RFuns.checkArrayConsistency |
| pub_utils.py `find_num_cl_in_hcfc` | 104-130 | PubUtils.compoundNumber, PubUtils.chlorineOfNumber, PubUtils.findNumClInHcfc |
| pub_utils.py `make_cl_and_br_dictionaries` | 133-172 | PubUtils.digitAt, PubUtils.writtenCount, PubUtils.halogens, PubUtils.clBrLoop, PubUtils.makeClAndBr |
| pub_utils.py `make_regional_aerosol_gaspamdata` | 175-214 | PubUtils.regionLoop, PubUtils.columnLoop, PubUtils.makeRegional |
| carbon_cycle/carbon_cycle_abstract.py `AbstractCarbonCycleModel.carbon_cycle_model_required_pamset` | 24-29 | - |
| carbon_cycle/carbon_cycle_abstract.py `AbstractCarbonCycleModel.get_carbon_cycle_required_pamset` | 32-38 | CarbonInst.boxCreate |
| carbon_cycle/carbon_cycle_abstract.py `AbstractCarbonCycleModel.__init__` | 40-60 | CarbonInst.boxReset, CarbonInst.boxCreate |
| carbon_cycle/carbon_cycle_abstract.py `AbstractCarbonCycleModel.reset_co2_hold` | 62-82 | CarbonInst.boxReset |
| carbon_cycle/carbon_cycle_abstract.py `AbstractCarbonCycleModel.co2em2conc` | 85-106 | BackCalc.CCModel |
| carbon_cycle/carbon_cycle_abstract.py `AbstractCarbonCycleModel._get_co2_hold_values` | 108-116 | BackCalc.CCModel |
| carbon_cycle/carbon_cycle_abstract.py `AbstractCarbonCycleModel.get_preindustrial_co2_conc` | 118-132 | BackCalc.CCModel, CarbonOut.preindustrialOf |
| carbon_cycle/carbon_cycle_abstract.py `AbstractCarbonCycleModel._set_co2_hold` | 134-141 | BackCalc.CCModel |
| carbon_cycle/carbon_cycle_abstract.py `AbstractCarbonCycleModel.get_feedback_list` | 143-155 | InputHandler.build |
| carbon_cycle/carbon_cycle_abstract.py `AbstractCarbonCycleModel._guess_emissions_iteration` | 157-225 | BackCalc.notConverged, BackCalc.bisectLoop, BackCalc.guessEmissions, BackCalc.backLoop |
| carbon_cycle/carbon_cycle_abstract.py `AbstractCarbonCycleModel.get_initial_max_min_guess` | 227-267 | BackCalc.initialMaxMin |
| carbon_cycle/carbon_cycle_abstract.py `AbstractCarbonCycleModel.make_guess_emsize_estimates` | 269-302 | - |
| carbon_cycle/carbon_cycle_abstract.py `AbstractCarbonCycleModel.back_calculate_emissions` | 304-355 | BackCalc.backLoop, BackCalc.backCalculate |
| carbon_cycle/carbon_cycle_abstract.py `AbstractCarbonCycleModel.get_carbon_cycle_output` | 358-383 | - |
| carbon_cycle/carbon_cycle_mod.py `sigmoid_gen` | 34-53 | Carbon.sigmoidGen |
| carbon_cycle/carbon_cycle_mod.py `threshold_gen` | 56-77 | Carbon.thresholdGen |
| carbon_cycle/carbon_cycle_mod.py `CarbonCycleModel.__init__` | 129-174 | Carbon.initState, CarbonInst.irUsed, CarbonInst.irCreate |
| carbon_cycle/carbon_cycle_mod.py `CarbonCycleModel.reset_co2_hold` | 176-220 | Carbon.resetHold, CarbonInst.resetHold, CarbonInst.takeFunction, CarbonInst.irNewPam, CarbonInst.irUpdate, CarbonInst.irReset |
| carbon_cycle/carbon_cycle_mod.py `CarbonCycleModel._set_co2_hold` | 222-257 | Carbon.setHold |
| carbon_cycle/carbon_cycle_mod.py `CarbonCycleModel._get_co2_hold_values` | 259-276 | Carbon.Hold, Carbon.getHold |
| carbon_cycle/carbon_cycle_mod.py `CarbonCycleModel.precalc_r_functions` | 278-324 | Carbon.Pams.default, CarbonInst.rsOf, CarbonInst.rbOf, CarbonInst.precalcR |
| carbon_cycle/carbon_cycle_mod.py `CarbonCycleModel._update_temp_feedbacks` | 326-347 | - |
| carbon_cycle/carbon_cycle_mod.py `CarbonCycleModel.fnpp_from_temp` | 349-377 | Carbon.fnppFromTemp |
| carbon_cycle/carbon_cycle_mod.py `CarbonCycleModel.solubility_temp_feedback` | 379-401 | Carbon.solubilityTempFeedback |
| carbon_cycle/carbon_cycle_mod.py `CarbonCycleModel.mixed_layer_temp_feedback` | 403-425 | Carbon.mixedLayerTempFeedback |
| carbon_cycle/carbon_cycle_mod.py `CarbonCycleModel._calculate_partial_pressure_mixed_layer` | 427-486 | Carbon.pco2Poly, Carbon.pco2Of, Carbon.zCo2, Carbon.partialPressure |
| carbon_cycle/carbon_cycle_mod.py `CarbonCycleModel.co2em2conc` | 488-599 | Carbon.sumf, Carbon.subStep, Carbon.co2em2conc, CarbonInst.irStep |
| carbon_cycle/carbon_cycle_mod.py `CarbonCycleModel._get_ffer_timeseries` | 601-659 | Carbon.fferSeries, Carbon.dfnppOfConc |
| carbon_cycle/carbon_cycle_mod.py `CarbonCycleModel.get_biosphere_carbon_flux` | 661-706 | Carbon.biosphereFlux |
| carbon_cycle/carbon_cycle_mod.py `CarbonCycleModel.get_ocean_carbon_flux` | 708-753 | Carbon.oceanFlux |
| carbon_cycle/carbon_cycle_mod.py `CarbonCycleModel.make_guess_emsize_estimates` | 755-793 | BackCalc.backCalculate |
| carbon_cycle/carbon_cycle_mod.py `CarbonCycleModel.get_carbon_cycle_output` | 795-865 | CarbonOut.irDtemp, CarbonOut.irOutput |
| carbon_cycle/carbon_cycle_mod_box.py `CarbonCycleModel.__init__` | 30-52 | CarbonInst.boxStep |
| carbon_cycle/carbon_cycle_mod_box.py `CarbonCycleModel.co2em2conc` | 54-118 | BoxCarbon.dtempOf, BoxCarbon.co2em2conc, CarbonInst.boxStep |
| carbon_cycle/carbon_cycle_mod_box.py `CarbonCycleModel.calculate_npp` | 120-149 | BoxCarbon.calculateNpp |
| carbon_cycle/carbon_cycle_mod_box.py `CarbonCycleModel.calculate_ocean_uptake` | 151-177 | BoxCarbon.calculateOceanUptake |
| carbon_cycle/carbon_cycle_mod_box.py `CarbonCycleModel.reset_co2_hold` | 179-198 | BoxCarbon.State, BoxCarbon.reset, CarbonInst.boxReset |
| carbon_cycle/carbon_cycle_mod_box.py `CarbonCycleModel.get_carbon_cycle_output` | 201-225 | BoxCarbon.outputNpp, BoxCarbon.outputOceanFlux, CarbonOut.boxOutput |
| carbon_cycle/carbon_cycle_mod_box.py `CarbonCycleModel.back_calculate_emissions` | 227-234 | - |
| carbon_cycle/common_carbon_cycle_functions.py `calculate_airborne_fraction` | 25-57 | Carbon.airborneFraction |
| carbon_cycle/common_carbon_cycle_functions.py `take_out_missing` | 60-83 | CarbonInst.takeOutMissing |
| carbon_cycle/common_carbon_cycle_functions.py `carbon_cycle_init_pamsets` | 86-127 | CarbonInst.timeRequired, CarbonInst.irCreate |
| carbon_cycle/rfuns.py `_extract_indexed_parameters` | 8-38 | FlatParams.idxOf, FlatParams.place, FlatParams.extractStep, FlatParams.extract |
| carbon_cycle/rfuns.py `_process_rb_parameters` | 41-58 | FlatParams.processRb |
| carbon_cycle/rfuns.py `_process_rs_parameters` | 61-79 | FlatParams.processRs |
| carbon_cycle/rfuns.py `_process_flat_carbon_parameters` | 82-125 | CarbonInst.processFlat, FlatParams.popAll, FlatParams.hasFlat, FlatParams.processFlat |
| carbon_cycle/rfuns.py `rb_function` | 128-154 | RFuns.rbAt, RFuns.rbFunction |
| carbon_cycle/rfuns.py `rb_function2` | 157-198 | RFuns.rb2At, RFuns.rbFunction2 |
| carbon_cycle/rfuns.py `rs_function` | 201-238 | RFuns.rsShort, RFuns.rsLong, RFuns.rsAt, RFuns.rsFunction |
| carbon_cycle/rfuns.py `rs_function2` | 244-291 | RFuns.rs2At, RFuns.rsFunction2 |
| formattingtools/reformat_cscm_results.py `fgas_transform` | 96-114 | Reader.fgasTransform |
| formattingtools/reformat_cscm_results.py `montreal_transform` | 117-137 | Reader.montrealTransform, Reader.frameConcUnit |
| formattingtools/reformat_cscm_results.py `get_data_from_forc_common` | 168-201 | Reader.addPresent, Reader.addSummand, Reader.forcCommon |
| formattingtools/reformat_cscm_results.py `get_data_from_conc` | 204-211 | Reader.fromConc |
| formattingtools/reformat_cscm_results.py `get_data_from_em` | 214-229 | Reader.fromEm |
| formattingtools/reformat_cscm_results.py `get_data_from_temp_or_rib` | 232-236 | - |
| formattingtools/reformat_cscm_results.py `get_data_from_ohc` | 239-247 | - |
| formattingtools/reformat_cscm_results.py `get_carbon_cycle_outputs` | 250-266 | Reader.carbonOutput |
| formattingtools/reformat_cscm_results.py `CSCMREADER.__init__` | 274-287 | Reader.variableDict, Reader.tempList, Reader.ohcList |
| formattingtools/reformat_cscm_results.py `CSCMREADER.get_variable_timeseries` | 289-355 | Reader.heatUptake, Reader.noAnswer, Reader.getVariable |
| formattingtools/reformat_cscm_results.py `CSCMREADER.get_volc_forcing` | 357-365 | Reader.volcForcing |
| formattingtools/reformat_cscm_results.py `CSCMREADER.get_sun_forcing` | 367-373 | Reader.sunForcing |
| formattingtools/reformat_cscm_results.py `CSCMREADER.get_data_from_forc` | 375-389 | Reader.fromForc |
| formattingtools/reformat_inputdata_to_cscm_format.py `COMMONSFILEWRITER.__init__` | 62-70 | - |
| formattingtools/reformat_inputdata_to_cscm_format.py `COMMONSFILEWRITER.initialize_units_comps` | 72-111 | Reader.fileUnit, Reader.unitsFromFile |
| formattingtools/reformat_inputdata_to_cscm_format.py `COMMONSFILEWRITER.initialize_units_comps_from_pd` | 113-135 | Reader.frameUnit, Reader.unitsFromFrame |
| parallel/_configdistro.py `_ConfigDistro.__init__` | 108-163 | ConfigDistro.ordering, ConfigDistro.Distro, ConfigDistro.init, Sampling.construct |
| parallel/_configdistro.py `_ConfigDistro._set_prior` | 165-191 | Sampling.bounds, Sampling.setPrior |
| parallel/_configdistro.py `_ConfigDistro._set_pamsets_start` | 193-206 | ConfigDistro.startStep, ConfigDistro.pamsetsStart |
| parallel/_configdistro.py `_ConfigDistro.get_samples_from_distro_latin` | 208-230 | Sampling.scaleLatin |
| parallel/_configdistro.py `_ConfigDistro.get_samples_from_distro_gaussian` | 232-255 | Sampling.gaussianValue, Sampling.gaussian |
| parallel/_configdistro.py `_ConfigDistro.make_config_lists` | 257-320 | ConfigDistro.chunkFname, ConfigDistro.makeChunk, ConfigDistro.makeConfigLists, Sampling.make |
| parallel/_configdistro.py `_ConfigDistro.make_single_config_list` | 322-382 | ConfigDistro.startsRbRs, ConfigDistro.sampleStep, ConfigDistro.Config, ConfigDistro.sampleSets, ConfigDistro.sampleConfig, ConfigDistro.makeSingle, Distribution.writeSingle |
| parallel/_parallel_process.py `progress` | 21-42 | - |
| parallel/_parallel_process.py `_run_serial` | 45-56 | Parallel.runSerial |
| parallel/_parallel_process.py `_run_parallel` | 59-97 | Parallel.outcome, Parallel.waitAll, Parallel.runParallel |
| parallel/_parallel_process.py `_parallel_process` | 100-194 | Parallel.frontSerial, Parallel.frontParallel, Parallel.parallelProcess, Parallel.serialProcess |
| parallel/cscmparwrapper.py `_execute_run` | 27-56 | Batch.yearDefaults, Batch.wrapperInit, Parallel.executeRun |
| parallel/cscmparwrapper.py `run_ciceroscm_parallel` | 59-125 | Batch.runModelParallel, Parallel.Run, Parallel.batches, Parallel.makeRuns, Parallel.runCiceroscmParallel |
| parallel/cscmparwrapper.py `CSCMParWrapper.__init__` | 133-159 | Batch.Wrapper, Batch.wrapperInit |
| parallel/cscmparwrapper.py `CSCMParWrapper.run_over_cfgs` | 161-232 | Batch.Cfg, Batch.Row, Batch.rowOf, Batch.stepCfg, Parallel.runOverCfgs |
| parallel/distributionrun.py `DistributionRun.__init__` | 19-62 | Distribution.load, Distribution.construct |
| parallel/distributionrun.py `DistributionRun.run_over_distribution` | 64-79 | Batch.scenarioList, Batch.runOverDistribution |
| parallel/distributionrun.py `DistributionRun.write_configs_to_json` | 81-97 | Distribution.writeConfigs |
| thermal_model/abstract_thermal_model.py `AbstractThermalModel.thermal_model_required_pamset` | 17-22 | - |
| thermal_model/abstract_thermal_model.py `AbstractThermalModel.get_thermal_model_required_pamset` | 25-31 | - |
| thermal_model/abstract_thermal_model.py `AbstractThermalModel.output_dict_default` | 35-39 | - |
| thermal_model/abstract_thermal_model.py `AbstractThermalModel.get_output_dict_thermal` | 42-48 | - |
| thermal_model/abstract_thermal_model.py `AbstractThermalModel.__init__` | 50-67 | ThermalInst.twoLayerCreate, ThermalInst.udmCreate |
| thermal_model/abstract_thermal_model.py `AbstractThermalModel.energy_budget` | 74-93 | - |
| thermal_model/abstract_thermal_model.py `AbstractThermalModel.get_feedback_gregory` | 105-114 | - |
| thermal_model/abstract_thermal_model.py `AbstractThermalModel.set_feedback_gregory` | 116-132 | - |
| thermal_model/two_layer_ocean.py `TwoLayerOceanModel.__init__` | 51-90 | ThermalInst.twoLayerPams, ThermalInst.twoLayerCreate, TwoLayer.State, TwoLayer.cFast, TwoLayer.cSlow, TwoLayer.init |
| thermal_model/two_layer_ocean.py `TwoLayerOceanModel.get_feedback_gregory` | 98-100 | - |
| thermal_model/two_layer_ocean.py `TwoLayerOceanModel.set_feedback_gregory` | 102-114 | TwoLayer.setFeedback |
| thermal_model/two_layer_ocean.py `TwoLayerOceanModel.energy_budget` | 116-232 | ThermalInst.outDict, TwoLayer.Out, TwoLayer.forcing, TwoLayer.step, TwoLayer.output, TwoLayer.energyBudget |
| thermal_model/upwelling_diffusion_model.py `_band` | 17-37 | UDM.Solver |
| thermal_model/upwelling_diffusion_model.py `check_pamset` | 40-72 | ThermalInst.udmPams, UDM.rakapa, UDM.dt, UDM.c1, UDM.fnso, UDM.fnxOf, UDM.fsxOf, UDM.create |
| thermal_model/upwelling_diffusion_model.py `UpwellingDiffusionModel.__init__` | 151-182 | ThermalInst.udmPams, ThermalInst.udmCreate, UDM.dz, UDM.init, UDM.create |
| thermal_model/upwelling_diffusion_model.py `UpwellingDiffusionModel.get_feedback_gregory` | 191-193 | - |
| thermal_model/upwelling_diffusion_model.py `UpwellingDiffusionModel.set_feedback_gregory` | 195-220 | UDM.fnxOf, UDM.fsxOf, UDM.setFeedback |
| thermal_model/upwelling_diffusion_model.py `UpwellingDiffusionModel.get_gam_and_fro_factor_ns` | 222-256 | UDM.blm, UDM.gamFroFactor |
| thermal_model/upwelling_diffusion_model.py `UpwellingDiffusionModel.coeff` | 258-300 | UDM.rakapafac, UDM.coeffC, UDM.coeffA, UDM.coeffB, UDM.coeff |
| thermal_model/upwelling_diffusion_model.py `UpwellingDiffusionModel.setup_ebud2` | 302-398 | UDM.withEfficacy, UDM.wcfac, UDM.setupEbud2 |
| thermal_model/upwelling_diffusion_model.py `UpwellingDiffusionModel.setup_ebud` | 400-455 | UDM.blm, UDM.denom, UDM.setupEbud |
| thermal_model/upwelling_diffusion_model.py `UpwellingDiffusionModel.energy_budget` | 457-662 | ThermalInst.udmOutDict, UDM.rampForcing, UDM.rhsNorth, UDM.airNorth, UDM.airSouth, UDM.Acc, UDM.Acc.zero, UDM.refresh, UDM.accumulate, UDM.subStep, UDM.Out, UDM.subSteps, UDM.energyBudget |
| thermal_model/upwelling_diffusion_model.py `UpwellingDiffusionModel._calculate_anomalous_radiation` | 664-713 | UDM.anomalousRadiation |
| thermal_model/upwelling_diffusion_model.py `UpwellingDiffusionModel.ocean_temperature` | 715-747 | UDM.havtemp, UDM.maxLayer, UDM.fracLayer, UDM.oceanTemperature |

<!-- end coverage -->

## 7. Axioms of each property theorem

<!-- begin axioms -->

Axioms Classical.choice, Quot.sound, propext (438 theorems):

`C03_box_partial`, `C03_carbon_false`, `C03_carbon_value_false`, `C03_conc_run_partial`, `C03_default_carbon_false`, `C03_default_carbon_partial`, `C03_emiconc_in_force`, `C03_forcing_run`, `C03_just_one_false`, `C03_lifetime_mode`, `C04_carbon_clock`, `C04_emission_start`, `C04_frozen`, `C05_mean`, `C05_run`, `C05_weights`, `C06_just_one`, `C06_keys`, `C06_run`, `C06_total`, `C06_total_components`, `C07_components`, `C07_precomputed`, `C07_run`, `C08_false`, `C08_fraction_partial`, `C08_range_partial`, `C08_run_partial`, `C09_component`, `C09_frame`, `C09_hemispheric_mean`, `C09_order`, `C09_total`, `C10_accumulates_partial`, `C10_false`, `C10_last_row_wins`, `C11_order`, `C11_repeated_construction`, `C11_value`, `C12_before_emstart`, `C12_conc_run`, `C12_reported`, `C13_between`, `C13_closer`, `C13_converges`, `C13_equilibrium`, `C13_mono_prior`, `C13_mono_source`, `C13_nonneg`, `C13_run`, `C13_run_bounds`, `C13_step`, `C14_additive`, `C14_last_year_false`, `C14_mono`, `C14_nonneg`, `C14_run_partial`, `C14_series_partial`, `C15_depends`, `C15_lag`, `C15_nonpos`, `C16_emission_run`, `C16_forcing_run`, `C17_constant_false`, `C17_constant_partial`, `C17_constant_sinks_false`, `C17_positive`, `C17_rate`, `C17_tar_sign`, `C17_unknown_false`, `C17_unknown_partial`, `C18_not_constant`, `C18_run`, `C18_zero_emissions`, `C18_zero_emissions_fresh`, `C19_budget_reported`, `C19_budget_substep`, `C19_run`, `C20_backcalculated_emissions`, `C20_loop`, `C21_converges`, `C21_initial_bracket`, `C21_search_trace`, `C22_conservation`, `C22_one_year`, `C22_run`, `C23_mixed_depth_unused`, `C23_npp_nonneg`, `C23_npp_value`, `C23_rest`, `C23_rest_general`, `C24_mixed_antitone`, `C24_mixed_at_zero`, `C24_mixed_eq`, `C24_mixed_min`, `C24_npp_at_zero`, `C24_npp_pos`, `C24_sigmoid_range`, `C24_sigmoid_strictMono`, `C24_solubility_antitone`, `C24_solubility_at_zero`, `C24_solubility_eq`, `C24_solubility_range`, `C24_threshold_range`, `C24_threshold_strictAnti`, `C25_hasDerivAt`, `C25_slope_continuous`, `C25_slope_pos`, `C25_strictMono`, `C25_zero`, `C26_builtin_rb_pos`, `C26_builtin_rb_start`, `C26_builtin_rs_bounds`, `C26_builtin_rs_start`, `C26_builtin_rs_strictAnti`, `C26_good_accepted`, `C26_rb_integral`, `C26_rb_nonneg`, `C26_rb_start`, `C26_rs_antitone`, `C26_rs_bounds`, `C26_rs_limit`, `C26_rs_start`, `C26_rs_substep_zero`, `C27_flat_to_structured`, `C27_mismatch_rejected`, `C27_mismatch_rejected_rs`, `C27_structured_unchanged`, `C28_airborne_fraction`, `C29_accumulated`, `C29_one_year`, `C29_reported_heat`, `C29_reported_imbalance`, `C30_constRun_is_run`, `C30_default_stable`, `C30_equilibrium`, `C30_linear`, `C30_monotone_bounded`, `C30_reported`, `C30_rest`, `C31_diffusion_false`, `C31_diffusion_monthly`, `C31_twolayer_doubles_volcanic_partial`, `C31_twolayer_false`, `C32_bounds`, `C32_ohc700`, `C32_shallow`, `C33_exchange_false`, `C33_heat_budget`, `C33_heat_budget_partial`, `C34_equilibrium`, `C34_global_balance`, `C34_mean_forcing`, `C34_surface_balance`, `C35_dominant`, `C35_maximum_principle`, `C35_run_succeeds`, `C35_unique_solution`, `C35_warming`, `C36_linear`, `C36_rest`, `C37_ocean_too_shallow`, `C37_upper700_false`, `C37_upper700_partial`, `C38_diffusion_history`, `C38_twolayer_history`, `C39_ramp`, `C39_substep`, `C40_feedback`, `C40_run`, `C41_array`, `C41_frame`, `C41_succeeds`, `C42_no_empty_batch`, `C42_pairs`, `C42_result`, `C42_worker_independent`, `C44_chunk_size`, `C44_partition`, `C44_unique_index`, `C44_unsplit`, `C45_fixed_false`, `C45_fixed_partial`, `C45_fixed_response_false`, `C45_foan_false`, `C45_nothing_else`, `C45_npp0_false`, `C45_npp0_unused`, `C45_sampled`, `C45_sampled_names`, `C45_unread`, `C45_unread_all`, `C45_unread_box`, `C45_unread_default`, `C45_unread_diffusion`, `C45_unread_history`, `C45_unread_two_layer`, `C46_generated_round_trip`, `C46_rewrite_false`, `C46_rewrite_partial`, `C46_round_trip`, `C47_data_used`, `C47_file_wins`, `C47_luc_default`, `C47_mandatory`, `C47_missing_file`, `C47_natural_default`, `C47_sun_default`, `C47_volc_default`, `C47_volc_one_hemisphere`, `C48_false`, `C48_partial`, `C49_beyond`, `C49_cut`, `C49_emissions`, `C49_run`, `C50_aligned`, `C50_early_run`, `C50_run`, `C50_run_volc`, `C50_short`, `C51_aerosol_false`, `C51_fgas_partial`, `C51_ghg_partial`, `C51_once`, `C51_total`, `C52_net`, `C52_pool`, `C53_dictionaries`, `C53_formula_bromine_partial`, `C53_formula_chlorine_partial`, `C53_halon`, `C53_hcfc`, `C53_mixed_false`, `C53_no_halogen`, `C53_two_letter_suffix_false`, `C54_accepts_iff`, `C54_zero_timescale_accepted`, `C55_adds_rows`, `C55_efficiency_counted`, `C55_efficiency_false`, `C55_keeps_rows`, `C55_run_no_double`, `C55_run_regional`, `C56_carbon_exact`, `C56_thermal_exact`, `C56_user_choice`, `C57_two_layer_false`, `C57_udm_partial`, `C58_chunk_files_distinct_partial`, `C58_chunk_files_false`, `C58_file_contents`, `C59_run`, `C59_run_ahead`, `C59_run_ozone`, `C59_year`, `C60_ch4_increasing`, `C60_ch4_sign`, `C60_co2_increasing_false`, `C60_co2_increasing_partial`, `C60_co2_sign_false`, `C60_co2_sign_partial`, `C60_n2o_increasing`, `C60_n2o_sign`, `C60_zero`, `C61_conc_run`, `C61_run`, `C62_columns`, `C62_early_table_fails`, `C63_box`, `C63_completes`, `C63_default`, `C63_diffusion`, `C64_each_matters`, `C64_only_these_partial`, `C64_unread_false`, `C65_false`, `C65_partial`, `C65_rows_needed`, `C66_components_partial`, `C66_hemispheres_false`, `C66_solar_false`, `C66_weight`, `C67_anomalous_false`, `C67_partial`, `C67_two_layer_false`, `C67_two_layer_partial`, `C67_unknown`, `C68_file_units`, `C68_partial`, `C68_units_false`, `C68_x_rows_false`, `C69_partial`, `C69_previous_flux_false`, `C69_pulse`, `C70_production`, `C70_reported`, `C70_uptake`, `C71_parameters`, `C71_preindustrial`, `C71_run`, `C71_run_box`, `C72_airborne`, `C72_diagnostics_false`, `C72_diagnostics_partial`, `C72_run`, `C73_completes`, `C73_land_false`, `C73_observation`, `C73_observation_box`, `C73_run`, `C74_every_run`, `C74_forcing`, `C74_gas_run`, `C74_kind`, `C74_no_forcing`, `C75_box_carbon`, `C75_default_carbon`, `C75_emiconc_run`, `C75_no_emiconc_set`, `C75_no_set`, `C75_qindso2`, `C75_twolayer`, `C75_twolayer_run`, `C75_udm_run`, `C76_heat_uptake_false`, `C76_heat_uptake_partial`, `C76_imbalance`, `C76_relation`, `C76_temperatures`, `C77_concentrations`, `C77_emissions`, `C77_emissions_box`, `C77_emissions_from_concentrations`, `C77_emissions_unasked_false`, `C77_forcings`, `C77_ozone_false`, `C77_tables`, `C78_bounded`, `C79_continuous`, `C79_more_emission`, `C79_more_emission_false`, `C79_recovered_false`, `C79_recovered_partial`, `C79_recovered_steps_partial`, `C80_ahead_refused`, `C80_every_row_false`, `C80_others`, `C80_run`, `C81_array_bounded`, `C81_array_budget`, `C81_diffusion`, `C81_diffusion_array_budget`, `C81_diffusion_emission_budget`, `C81_emission_budget`, `C81_two_layer`, `C82_budget`, `C82_conc_run`, `C82_next_year`, `C82_run`, `C83_forcing_run`, `C83_kinds`, `C83_only`, `C83_prefixes`, `C83_separate`, `C83_tables`, `C83_two_layer_false`, `C84_box_partial`, `C84_default_partial`, `C84_forcing`, `C84_one_scenario`, `C84_rows`, `C84_workers_false`, `C85_file`, `C85_other_length`, `C86_accepted_iff`, `C86_land`, `C86_ocean`, `C87_accepted_iff`, `C87_default`, `C87_fallback_false`, `C87_gaussian`, `C87_gaussian_accepted_iff`, `C87_gaussian_default`, `C87_gaussian_usable_false`, `C87_latin`, `C87_one_in_each`, `C87_usable`, `C88_bounded`, `C88_equilibrium`, `C88_rises`, `C88_run`, `C88_settles`, `C89_carbon_false`, `C89_files_false`, `C89_kept`, `C89_last_partial`, `C89_series`, `C90_annual_false`, `C90_layers_partial`, `C91_diffusion_false`, `C91_diffusion_partial`, `C91_table`, `C91_two_layer`, `C92_build_again`, `C92_dictionary`, `C92_perturbed_false`, `C92_reuse_partial`, `C92_shared_table_false`, `C93_order_diffusion`, `C93_order_two_layer`, `C93_sum_diffusion`, `C93_sum_two_layer`, `C94_forcing`, `C94_warms_diffusion`, `C94_warms_two_layer`, `C95_emission_run_partial`, `C95_forcing_run`, `C95_impulse`, `C95_last_year_false`, `C95_model_forcing`, `C95_model_partial`, `C96_forcing`, `C96_warms_diffusion`, `C96_warms_two_layer`, `C97_conc`, `C97_forcing`, `C97_forcing_ahead`, `C97_methane_more`, `C97_more`, `C98_diffusion`, `C98_two_layer`, `C99_box_more`, `C99_emitted_diffusion`, `C99_emitted_two_layer`, `C99_forcing`, `C99_warms_diffusion`, `C99_warms_two_layer`

Axioms Quot.sound, propext (19 theorems):

`C01_complete`, `C01_idempotent`, `C01_nothing_else`, `C01_value`, `C01_wf`, `C02_keys`, `C02_value`, `C11_ok_iff`, `C43_any_failure_raises`, `C43_failure_surfaces`, `C43_parallel_phase`, `C43_schedule_independent`, `C43_serial_partial`, `C43_serial_result`, `C46_rejects`, `C50_early`, `C55_succeeds`, `C75_udm`, `C82_no_temperature`

Axioms propext (8 theorems):

`C02_none`, `C42_needs_history_free`, `C43_timeout_raises`, `C46_legacy`, `C46_other_files`, `C56_carbon_rejects`, `C56_thermal_rejects`, `C95_box`

Axioms none (2 theorems):

`C38_diffusion_last_update`, `C43_serial_false`

<!-- end axioms -->

## 8. Tests of the theorems against wrong programs

`seeded/LOG.jsonl` has one line per attempt: the definition that was edited in a scratch copy, the edit, the claim it breaks,
the theorems that failed to build, and the theorems that were added or tightened because the edit went unnoticed. Where an edit is
equivalent to the original program the line says so.

## 9. Behaviour of the code found while proving

Each is a theorem (named in brackets) or follows from one.

Parameters and runs
* Carbon cycle parameters and `just_one` of one run stay in force in later runs that do not give them. [C03]
* Hence the result of a batch of configurations can depend on the number of workers. [C84]
* The constructor writes `preindustrial_co2_conc` into the caller's carbon parameter dictionary; emission perturbations change the
  caller's emission frame; natural emissions of CH4 and N2O are written into the caller's gas table. A second model built from the
  same configuration then perturbs the emissions again, and a gas table used for two configurations carries the natural emissions of
  the last run over. [model of `__init__`, C11, C92]
* `just_one` naming a gas computed ahead makes every run fail, and `just_one` naming the total leaves only the perturbations of the total. [C80]
* `emstart` equal to the last year keeps that year's prescribed value for pre-computed gases. [C14] So a run that ends in
  `emstart` and a longer one differ in that year. [C95]
* The options `rf_volc_file`, `rf_volc_data`, `carbon_cycle`, `rs_function`, `rb_function` are accepted and never read. [C64]
* The mode "CONSTANT" of the methane lifetime is not recognised; unknown modes do not behave as documented. [C17]

Forcing
* The aerosol weight can exceed 1 with a forcing perturbation of an aerosol. [C08]
* Repeated perturbation rows of a pre-computed gas overwrite each other. [C10]
* The CO2 forcing formula changes sign far from the start-year concentration. [C60]
* A global aerosol row with a non-zero efficiency is counted although regional rows exist. [C55]
* Prescribed TROP_O3 concentrations are ignored, also in concentration runs. [C59]

Carbon cycle
* The mixed-layer sum leaves out the previous sub-step's flux and takes older ones one sub-step too young. [C69]
* Diagnostics in the carbon table of an emission run are shifted by one year. [C72]
* With the box carbon cycle, production and ocean uptake in the row of a year are those applied in the next year. Its airborne
  fraction counts from 278 ppm, not from the first year of the concentration table as the default carbon cycle does. [C82]
* The land flux in the table of a concentration run is not that of the reported emissions. [C73]
* The emission search can miss the emission it looks for: its interval is built from an estimate. With more than one sub-step
  a year and a strong fertilisation a higher emission can give a lower concentration at the end of the year. [C79]

Thermal models
* The two-layer model counts volcanic forcing twice. The diffusion model ramps ordinary forcing over a year but not
  volcanic forcing. [C31]
* Air exchange between the hemispheres breaks heat conservation. [C33]
* Upper-700 m heat content is wrong for mixed layers deeper than 700 m. [C37]
* The reported heat uptake of the diffusion model is not the increase of its reported heat content. [C76]
* In the first sub-step of every year upwelling is that of an unwarmed ocean, so with one sub-step per year its threshold
  temperature has no effect. [C90]
* `Total_forcing` means different things in the two kinds of run: a forcing-driven run adds the solar forcing to it, an
  emission- or concentration-driven one does not. Feeding the reported total back as an array also loses the difference
  between the hemispheres, so the diffusion model gives other temperatures. [C91]
* The standard output writer fails for the two-layer model, after the handler's files have been written. [C57, C83]

Input and output
* The carbon cycle file has no year column and is written twice; in the forcing file the years are not the first column
  when components are computed ahead. [C83]
* The results dictionary of an instance is never emptied: the carbon cycle table of an earlier run stays when a later run does
  not ask for it, and all tables stay when a later run writes files. [C89]
* A configured natural emission file that does not exist is silently replaced by one below the current directory; a natural
  emission file must have exactly 751 rows. [C85]
* A malformed parameter distribution is not replaced by the default one, as documented, but raises `ValueError`; with the
  Gaussian method the default distribution draws configurations the carbon cycle model refuses. [C87]
* Runs that start before 1750 read row-per-year files from the first row, so every year is given the value of a later year. [C50]
* The default file for southern volcanic forcing is the northern one; a one-hemisphere volcano raises KeyError. [C47]
* A configured solar or volcanic file wins over `sunvolc`, while in-memory data do not. [C48]
* One gas missing from the emission file switches the unit comparison off; in-memory data are never checked. [C65]
* Hemispheric forcing columns without a total give missing values; a column SOLAR counts as aerosol. [C66]
* "Anomalous Radiation" cannot be requested; two temperatures cannot be requested with the two-layer model. [C67]
* Emissions cannot be requested unless the carbon cycle outputs were asked for; the name for the concentration of tropospheric
  ozone has a stray apostrophe. [C77]
* Units of emissions differ between a gas table from a file and one in memory; components without emissions have no unit at all
  in the first and the unit `X / yr` in the second. [C68]
* Aerosol aggregates equal one of their members. [C51]
* Bromine is not counted in mixed Br/Cl formulae; two-letter HCFC suffixes raise ValueError. [C53]

Parallel package
* Pool-less mode returns results in another order. [C43]
* Fixed impulse-response parameters and sampled `foan` do not reach the component that uses them; `npp0` of the default distribution
  is sampled and read by nothing. [C45]
* Meta information is lost when a configuration file is re-written; chunk files without `.json` overwrite each other. [C46, C58]
