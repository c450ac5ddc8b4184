{
 "C03": {
  "note": "False as stated. Carbon-cycle parameters and just_one stick from earlier runs: C03_carbon_false, C03_default_carbon_false, C03_just_one_false (concrete pairs of runs) and C03_carbon_value_false (every number type). What holds for every history: forcing runs (C03_forcing_run), the other emission/concentration parameters (C03_emiconc_in_force, C03_lifetime_mode), and whole runs that themselves give every sticky parameter some earlier run gave (C03_box_partial, C03_default_carbon_partial, C03_conc_run_partial). Histories consist of successful runs; a run that raises is not part of a history.",
  "status": "partial"
 },
 "C06": {
  "note": "C06_run is the statement for every year of every run of an instance with any history; the others are for one year."
 },
 "C08": {
  "note": "False as stated when a forcing perturbation names an aerosol computed in the run (C08_false). Proved for all other years, for one year and for whole runs (C08_range_partial, C08_fraction_partial, C08_run_partial).",
  "status": "partial"
 },
 "C09": {
  "note": "Stated for the perturbation routine with any accumulated forcing. In a run the component part is C59_run (reported = documented forcing + rows naming it) and the total is C06_run."
 },
 "C10": {
  "note": "As stated false of the code: repeated rows for one gas and year overwrite each other (C10_false). Proved: last row wins for all tables (C10_last_row_wins); the full statement when each (gas, year) occurs at most once (C10_accumulates_partial).",
  "status": "partial"
 },
 "C14": {
  "note": "Fails for emstart equal to the last run year: the prescribed value of that year is kept (C14_last_year_false). Proved for all other emstart.",
  "status": "partial"
 },
 "C16": {
  "note": "Stated for the whole driver loop with any carbon cycle and thermal model."
 },
 "C17": {
  "note": "Positivity is proved in full (C17_positive, with the OH condition shown to be sharp in C17_tar_sign). The documented mode string CONSTANT does not select the 12-year lifetime (C17_constant_false; the code tests for CONSTANT_12, C17_constant_partial), even then the two other sinks are added (C17_constant_sinks_false), and unknown modes do not behave like WIGLEY (C17_unknown_false, C17_unknown_partial).",
  "status": "partial"
 },
 "C31": {
  "note": "False for both thermal models: the two-layer model doubles volcanic forcing (C31_twolayer_false; exactly by 2, C31_twolayer_doubles_volcanic_partial); the diffusion model ramps ordinary forcing over the year but not volcanic forcing (C31_diffusion_false). Proved: month by month the two are equivalent in the diffusion model (C31_diffusion_monthly).",
  "status": "partial"
 },
 "C33": {
  "note": "False with exchange between the hemispheres' air switched on (C33_exchange_false); then the exact budget with the lag term is C33_heat_budget_partial. With ebbeta = 0, the default, C33_heat_budget is the full statement. Assumes the linear solver returns a solution whenever there is exactly one (Spec.Exact).",
  "status": "partial"
 },
 "C34": {
  "note": "Assumes the linear solver is exact (Spec.Exact)."
 },
 "C35": {
  "note": "Assumes the linear solver is exact (Spec.Exact)."
 },
 "C36": {
  "note": "Assumes the linear solver is exact (Spec.Exact)."
 },
 "C37": {
  "note": "False for mixed layers deeper than 700 m (C37_upper700_false). Proved for all others; oceans shallower than 700 m are refused (C37_ocean_too_shallow).",
  "status": "partial"
 },
 "C41": {
  "note": "Proved for inputs with a total column and for arrays. That the total of a hemispheric file without a total column is not the mean but a missing value is C66_hemispheres_false.",
  "status": "partial"
 },
 "C42": {
  "note": "C42_result and C42_worker_independent ask that a run does not depend on the runs before it in the same batch (HistoryFree), which is needed (C42_needs_history_free)."
 },
 "C43": {
  "note": "False for the pool-less mode, where the front-serial results come last (C43_serial_false, exact result C43_serial_result). Proved for every schedule and split with a pool. Real scheduling is abstracted to the completion order and which futures finish before the timeout.",
  "status": "partial"
 },
 "C45": {
  "note": "False for fixed impulse-response parameters (C45_fixed_false), for thermal parameters the router does not know (C45_foan_false) and for npp0 of the default distribution, which nothing reads (C45_npp0_false). C45_unread and its companions say that such a parameter has no effect on any run. Everything else is proved. C45_unread_box and C45_unread_default: the same for the carbon cycle set. C45_unread_all: any number of such names in all three sets of a run of the default model. C45_unread_history: the same for every sequence of runs, in both directions.",
  "status": "partial"
 },
 "C46": {
  "note": "False for re-writing without passing the meta information (C46_rewrite_false). Files are a map from names to JSON values; JSON text itself is not modelled.",
  "status": "partial"
 },
 "C47": {
  "note": "As coded the default file for the southern volcanic forcing is the northern one (C47_volc_default), and a missing natural emission file does not fail the construction."
 },
 "C48": {
  "note": "False: a configured file wins over sunvolc (C48_false). Proved when no solar or volcanic file is configured.",
  "status": "partial"
 },
 "C51": {
  "note": "False for the aerosol aggregates (C51_aerosol_false). Proved for fluorinated gases, greenhouse gases and the total.",
  "status": "partial"
 },
 "C53": {
  "note": "False for formulae with both bromine and chlorine (the bromine is not counted) or two chlorine groups (C53_mixed_false) and for HCFC names with a two-letter suffix, which raise ValueError (C53_two_letter_suffix_false). Proved for all other names covered by the naming rules.",
  "status": "partial"
 },
 "C55": {
  "note": "The table part is proved in full (C55_keeps_rows, C55_adds_rows, C55_succeeds) and in a run regional rows get their own forcing (C55_run_regional) and switch off the global coefficient (C55_run_no_double). 'Nothing is counted twice' is false if the gas table gives the global row a non-zero efficiency (C55_efficiency_counted, C55_efficiency_false).",
  "status": "partial"
 },
 "C57": {
  "note": "False for the two-layer model (C57_two_layer_false). Proved for the diffusion model.",
  "status": "partial"
 },
 "C58": {
  "note": "False for file names without .json (C58_chunk_files_false). Proved for all others.",
  "status": "partial"
 },
 "C60": {
  "note": "CO2 sign and growth fail far from the start-year concentration (C60_co2_sign_false, C60_co2_increasing_false). Proved within explicit ranges.",
  "status": "partial"
 },
 "C62": {
  "note": "For an emission table that begins with the start year; an earlier start makes collecting the results fail (C62_early_table_fails)."
 },
 "C63": {
  "note": "Numbers are not interpreted: whatever value an operation returns, no step raises. Python's float ZeroDivisionError for scalar division is not part of the model, see DESIGN.md."
 },
 "C64": {
  "note": "False: five documented options are never read (C64_unread_false). Options outside the list in C64_only_these_partial have no effect, and each option in the list has one (C64_each_matters; witnesses executed over rational numbers with stand-ins for the transcendental functions).",
  "status": "partial"
 },
 "C65": {
  "note": "False: one gas missing from the emission file switches the comparison off (C65_false). Proved when all gases are present.",
  "status": "partial"
 },
 "C66": {
  "note": "False for hemispheric columns without a total (C66_hemispheres_false) and for a column SOLAR, which counts as aerosol (C66_solar_false). Proved: components without total (C66_components_partial), weight (C66_weight).",
  "status": "partial"
 },
 "C67": {
  "note": "False for Anomalous Radiation with either model and for two temperatures with the two-layer model (C67_anomalous_false, C67_two_layer_false). All other requests are proved.",
  "status": "partial"
 },
 "C68": {
  "note": "False for most emission units (C68_units_false). Proved for concentration units and the emission units that agree.",
  "status": "partial"
 },
 "C69": {
  "note": "False: the flux of the previous sub-step is left out and older ones count one sub-step too young (C69_previous_flux_false, C69_pulse). C69_partial gives the integral the code does compute, for every history.",
  "status": "partial"
 },
 "C70": {
  "note": "The decay rate of an earlier production is taken at the number of sub-steps in between (zero for the production just before)."
 },
 "C72": {
  "note": "C72_run, C72_airborne and C19_run (budget in reported numbers) hold for every run. The diagnostics claim is false for every run whose first year is warm (C72_diagnostics_false): the three columns are evaluated at the temperature of the same year, the run used the year before; C72_diagnostics_partial gives what they are."
 },
 "C71": {
  "note": "C71_run (default), C71_run_box; C71_parameters and C71_preindustrial say which parameters are in force."
 },
 "C73": {
  "note": "C73_run: the table always exists, its emissions reproduce the concentrations, its ocean flux and diagnostics are those of the forward run. C73_observation and C73_observation_box: asking changes no later run; C73_completes: it prevents none. The land flux is not that of the forward run (C73_land_false): it is computed from the concentrations of the same year."
 },
 "C79": {
  "note": "False in general (C79_recovered_false: the search interval misses the emission). C79_recovered_steps_partial: for every number of sub-steps a year, if the interval reaches from too little to too much, the search returns an emission that gives the target or is next to one that does. With one sub-step a year a higher emission gives a higher concentration, so it is the only such emission (C79_recovered_partial, C79_more_emission); with more sub-steps a higher emission can give a lower concentration (C79_more_emission_false).",
  "status": "partial"
 },
 "C80": {
  "note": "The part about which components can be asked for is false for every row of the gas table: a gas computed ahead is refused (C80_ahead_refused, C80_every_row_false). What holds for every history and year: C80_run (the last just_one given is in force; total and thermal forcing are those of the component), C80_others (components, concentrations and aerosol fraction of a year do not change)."
 },
 "C83": {
  "note": "False for the two-layer model (C83_two_layer_false). Proved for the outputs of the diffusion model. The text format of a line and plots are not modelled."
 },
 "C89": {
  "note": "False: tables of earlier runs stay in the results (C89_carbon_false, C89_files_false; C89_kept says which). Series are always those of the last run (C89_series); all entries are, for runs asked for as a dictionary, if the carbon cycle table is asked for now or never was (C89_last_partial)."
 },
 "C90": {
  "note": "False in the first sub-step of each year: upwelling is then that of an unwarmed ocean, so with one sub-step per year the threshold has no effect (C90_annual_false). Proved for every other sub-step, and the heat equation itself for all (C90_layers_partial). The tridiagonal solver is assumed exact."
 },
 "C91": {
  "note": "False of the diffusion model with the array of totals, which loses the difference between the hemispheres (C91_diffusion_false); proved that the replay agrees exactly when the hemispheres were forced alike (C91_diffusion_partial), and in general for a table with hemispheric columns and aerosol weights (C91_table) and for the two-layer model (C91_two_layer)."
 },
 "C92": {
  "note": "False when emissions and a perturbation of them are given as data: the second model perturbs them again (C92_perturbed_false). False of a gas table shared by two configurations, which keeps the natural emissions of the last run (C92_shared_table_false). Proved otherwise (C92_build_again, C92_reuse_partial); the second model is not literally the same object when natural emissions and the gas table are both given as data."
 },
 "C95": {
  "note": "Fails if the emission period begins in the last year of the shorter run: that year then keeps the prescribed concentrations of the gases computed ahead (C95_last_year_false). Proved otherwise, for instances whose tables agree up to the last common year and cover the run years consecutively (C95_forcing_run, C95_emission_run_partial). Also proved for whole configurations: two models built from the same files whose configurations differ only in nyend (C95_model_forcing, C95_model_partial)."
 },
 "C100": {
  "note": "The methane of the reference year has to be the same: ozone is computed relative to it, so more methane there lowers the ozone of the start year and so changes the scale of the ozone forcing in every year. Range of the formulas: at most 5000 ppb CH4 and 1000 ppb N2O; the factor of N2O is at most 1.5 times that of CH4; at most 30 DU of ozone in the first year."
 },
 "C101": {
  "note": "That the second run reports no less methane is a hypothesis of the warming theorems; C97_methane_more derives it from the emissions. That the reported CO2 is the same is a hypothesis too; C101_box_co2 derives it for the box carbon cycle without temperature effects. With temperature effects methane also changes CO2 and the claim that CO2 does not move is false. Range of the formulas as in C100. C101_emitted_two_layer and C101_emitted_diffusion ask for more emissions only, with that carbon cycle."
 },
 "C76": {
  "note": "Temperatures, the imbalance of a hemisphere and the relation of imbalance and heat flux are proved for every history. That the reported heat uptake is the increase of the reported heat content is false as stated (C76_heat_uptake_false, a first year of forcing); C76_heat_uptake_partial gives what holds when the forcing is that of the year before, where the two are proportional but not equal."
 },
 "C77": {
  "note": "Proved for all concentrations and forcings, and for emissions when the carbon cycle outputs were asked for. False as stated otherwise: without those outputs every request for emissions raises KeyError (C77_emissions_unasked_false), and the name for the concentration of tropospheric ozone is never answered (C77_ozone_false)."
 },
 "C84": {
  "note": "Proved without restriction for prescribed forcing. False as stated for the other runs (C84_workers_false: a parameter one configuration leaves out keeps the value of the configuration before, so the number of workers matters). C84_default_partial and C84_box_partial prove it for configurations that give values for the same carbon parameters."
 },
 "C87": {
  "note": "Proved for the Latin method, including the default distribution, and which distributions are accepted. False as stated for the documented fallback to the default distribution (C87_fallback_false) and for the usability of Gaussian draws (C87_gaussian_usable_false). The sample of the unit cube and the normal draws are inputs of the model."
 },
 "C99": {
  "note": "That the second run reports no less CO2 is a hypothesis of the warming theorems, which hold for every carbon cycle; C99_emitted_two_layer and C99_emitted_diffusion derive it from the emissions for the box carbon cycle without temperature effects. The range of the formulas (Co2Range) is asked of the reported concentrations."
 }
}