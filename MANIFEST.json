{
 "claims": [
  {
   "property": "C01",
   "status": "proved",
   "theorems": [
    "Verif.Props.C01_value",
    "Verif.Props.C01_wf",
    "Verif.Props.C01_complete",
    "Verif.Props.C01_nothing_else",
    "Verif.Props.C01_idempotent"
   ],
   "note": ""
  },
  {
   "property": "C02",
   "status": "proved",
   "theorems": [
    "Verif.Props.C02_value",
    "Verif.Props.C02_keys",
    "Verif.Props.C02_none"
   ],
   "note": ""
  },
  {
   "property": "C03",
   "status": "partial",
   "theorems": [
    "Verif.Props.C03_forcing_run",
    "Verif.Props.C03_emiconc_in_force",
    "Verif.Props.C03_lifetime_mode",
    "Verif.Props.C03_box_partial",
    "Verif.Props.C03_default_carbon_partial",
    "Verif.Props.C03_conc_run_partial",
    "Verif.Props.C03_carbon_false",
    "Verif.Props.C03_default_carbon_false",
    "Verif.Props.C03_just_one_false",
    "Verif.Props.C03_carbon_value_false"
   ],
   "note": "False as stated. Carbon-cycle parameters and just_one stick from earlier runs: C03_carbon_false, C03_default_carbon_false, C03_just_one_false (concrete pairs of runs) and C03_carbon_value_false (every number type). What holds for every history: forcing runs (C03_forcing_run), the other emission/concentration parameters (C03_emiconc_in_force, C03_lifetime_mode), and whole runs that themselves give every sticky parameter some earlier run gave (C03_box_partial, C03_default_carbon_partial, C03_conc_run_partial). Histories consist of successful runs; a run that raises is not part of a history."
  },
  {
   "property": "C04",
   "status": "proved",
   "theorems": [
    "Verif.Props.C04_frozen",
    "Verif.Props.C04_emission_start",
    "Verif.Props.C04_carbon_clock"
   ],
   "note": ""
  },
  {
   "property": "C05",
   "status": "proved",
   "theorems": [
    "Verif.Props.C05_mean",
    "Verif.Props.C05_weights",
    "Verif.Props.C05_run"
   ],
   "note": ""
  },
  {
   "property": "C06",
   "status": "proved",
   "theorems": [
    "Verif.Props.C06_total",
    "Verif.Props.C06_total_components",
    "Verif.Props.C06_just_one",
    "Verif.Props.C06_keys",
    "Verif.Props.C06_run"
   ],
   "note": "C06_run is the statement for every year of every run of an instance with any history; the others are for one year."
  },
  {
   "property": "C07",
   "status": "proved",
   "theorems": [
    "Verif.Props.C07_components",
    "Verif.Props.C07_precomputed",
    "Verif.Props.C07_run"
   ],
   "note": ""
  },
  {
   "property": "C08",
   "status": "partial",
   "theorems": [
    "Verif.Props.C08_range_partial",
    "Verif.Props.C08_false",
    "Verif.Props.C08_run_partial",
    "Verif.Props.C08_fraction_partial"
   ],
   "note": "False as stated when a forcing perturbation names an aerosol computed in the run (C08_false). Proved for all other years, for one year and for whole runs (C08_range_partial, C08_fraction_partial, C08_run_partial)."
  },
  {
   "property": "C09",
   "status": "proved",
   "theorems": [
    "Verif.Props.C09_total",
    "Verif.Props.C09_hemispheric_mean",
    "Verif.Props.C09_component",
    "Verif.Props.C09_frame",
    "Verif.Props.C09_order"
   ],
   "note": "Stated for the perturbation routine with any accumulated forcing. In a run the component part is C59_run (reported = documented forcing + rows naming it) and the total is C06_run."
  },
  {
   "property": "C10",
   "status": "partial",
   "theorems": [
    "Verif.Props.C10_last_row_wins",
    "Verif.Props.C10_accumulates_partial",
    "Verif.Props.C10_false"
   ],
   "note": "As stated false of the code: repeated rows for one gas and year overwrite each other (C10_false). Proved: last row wins for all tables (C10_last_row_wins); the full statement when each (gas, year) occurs at most once (C10_accumulates_partial)."
  },
  {
   "property": "C11",
   "status": "proved",
   "theorems": [
    "Verif.Props.C11_value",
    "Verif.Props.C11_ok_iff",
    "Verif.Props.C11_order",
    "Verif.Props.C11_repeated_construction"
   ],
   "note": ""
  },
  {
   "property": "C12",
   "status": "proved",
   "theorems": [
    "Verif.Props.C12_conc_run",
    "Verif.Props.C12_before_emstart",
    "Verif.Props.C12_reported"
   ],
   "note": ""
  },
  {
   "property": "C13",
   "status": "proved",
   "theorems": [
    "Verif.Props.C13_step",
    "Verif.Props.C13_between",
    "Verif.Props.C13_closer",
    "Verif.Props.C13_nonneg",
    "Verif.Props.C13_mono_prior",
    "Verif.Props.C13_mono_source",
    "Verif.Props.C13_equilibrium",
    "Verif.Props.C13_converges",
    "Verif.Props.C13_run_bounds",
    "Verif.Props.C13_run"
   ],
   "note": ""
  },
  {
   "property": "C14",
   "status": "partial",
   "theorems": [
    "Verif.Props.C14_series_partial",
    "Verif.Props.C14_nonneg",
    "Verif.Props.C14_mono",
    "Verif.Props.C14_additive",
    "Verif.Props.C14_last_year_false",
    "Verif.Props.C14_run_partial"
   ],
   "note": "Fails for emstart equal to the last run year: the prescribed value of that year is kept (C14_last_year_false). Proved for all other emstart."
  },
  {
   "property": "C15",
   "status": "proved",
   "theorems": [
    "Verif.Props.C15_lag",
    "Verif.Props.C15_depends",
    "Verif.Props.C15_nonpos"
   ],
   "note": ""
  },
  {
   "property": "C16",
   "status": "proved",
   "theorems": [
    "Verif.Props.C16_emission_run",
    "Verif.Props.C16_forcing_run"
   ],
   "note": "Stated for the whole driver loop with any carbon cycle and thermal model."
  },
  {
   "property": "C17",
   "status": "partial",
   "theorems": [
    "Verif.Props.C17_rate",
    "Verif.Props.C17_positive",
    "Verif.Props.C17_tar_sign",
    "Verif.Props.C17_constant_partial",
    "Verif.Props.C17_constant_false",
    "Verif.Props.C17_constant_sinks_false",
    "Verif.Props.C17_unknown_false",
    "Verif.Props.C17_unknown_partial"
   ],
   "note": "Positivity is proved in full (C17_positive, with the OH condition shown to be sharp in C17_tar_sign). The documented mode string CONSTANT does not select the 12-year lifetime (C17_constant_false; the code tests for CONSTANT_12, C17_constant_partial), even then the two other sinks are added (C17_constant_sinks_false), and unknown modes do not behave like WIGLEY (C17_unknown_false, C17_unknown_partial)."
  },
  {
   "property": "C18",
   "status": "proved",
   "theorems": [
    "Verif.Props.C18_zero_emissions",
    "Verif.Props.C18_zero_emissions_fresh",
    "Verif.Props.C18_not_constant",
    "Verif.Props.C18_run"
   ],
   "note": ""
  },
  {
   "property": "C19",
   "status": "proved",
   "theorems": [
    "Verif.Props.C19_budget_substep",
    "Verif.Props.C19_budget_reported",
    "Verif.Props.C19_run"
   ],
   "note": ""
  },
  {
   "property": "C20",
   "status": "proved",
   "theorems": [
    "Verif.Props.C20_loop",
    "Verif.Props.C20_backcalculated_emissions"
   ],
   "note": ""
  },
  {
   "property": "C21",
   "status": "proved",
   "theorems": [
    "Verif.Props.C21_search_trace",
    "Verif.Props.C21_converges",
    "Verif.Props.C21_initial_bracket"
   ],
   "note": ""
  },
  {
   "property": "C22",
   "status": "proved",
   "theorems": [
    "Verif.Props.C22_one_year",
    "Verif.Props.C22_conservation",
    "Verif.Props.C22_run"
   ],
   "note": ""
  },
  {
   "property": "C23",
   "status": "proved",
   "theorems": [
    "Verif.Props.C23_rest_general",
    "Verif.Props.C23_rest",
    "Verif.Props.C23_npp_nonneg",
    "Verif.Props.C23_npp_value",
    "Verif.Props.C23_mixed_depth_unused"
   ],
   "note": ""
  },
  {
   "property": "C24",
   "status": "proved",
   "theorems": [
    "Verif.Props.C24_sigmoid_range",
    "Verif.Props.C24_threshold_range",
    "Verif.Props.C24_sigmoid_strictMono",
    "Verif.Props.C24_threshold_strictAnti",
    "Verif.Props.C24_npp_at_zero",
    "Verif.Props.C24_npp_pos",
    "Verif.Props.C24_solubility_eq",
    "Verif.Props.C24_solubility_at_zero",
    "Verif.Props.C24_solubility_range",
    "Verif.Props.C24_solubility_antitone",
    "Verif.Props.C24_mixed_eq",
    "Verif.Props.C24_mixed_at_zero",
    "Verif.Props.C24_mixed_min",
    "Verif.Props.C24_mixed_antitone"
   ],
   "note": ""
  },
  {
   "property": "C25",
   "status": "proved",
   "theorems": [
    "Verif.Props.C25_zero",
    "Verif.Props.C25_slope_pos",
    "Verif.Props.C25_hasDerivAt",
    "Verif.Props.C25_slope_continuous",
    "Verif.Props.C25_strictMono"
   ],
   "note": ""
  },
  {
   "property": "C26",
   "status": "proved",
   "theorems": [
    "Verif.Props.C26_good_accepted",
    "Verif.Props.C26_rs_start",
    "Verif.Props.C26_rs_substep_zero",
    "Verif.Props.C26_rs_antitone",
    "Verif.Props.C26_rs_bounds",
    "Verif.Props.C26_rs_limit",
    "Verif.Props.C26_rb_start",
    "Verif.Props.C26_rb_nonneg",
    "Verif.Props.C26_rb_integral",
    "Verif.Props.C26_builtin_rs_start",
    "Verif.Props.C26_builtin_rs_strictAnti",
    "Verif.Props.C26_builtin_rs_bounds",
    "Verif.Props.C26_builtin_rb_start",
    "Verif.Props.C26_builtin_rb_pos"
   ],
   "note": ""
  },
  {
   "property": "C27",
   "status": "proved",
   "theorems": [
    "Verif.Props.FlatPams.C27_flat_to_structured",
    "Verif.Props.FlatPams.C27_structured_unchanged",
    "Verif.Props.FlatPams.C27_mismatch_rejected",
    "Verif.Props.FlatPams.C27_mismatch_rejected_rs"
   ],
   "note": ""
  },
  {
   "property": "C28",
   "status": "proved",
   "theorems": [
    "Verif.Props.C28_airborne_fraction"
   ],
   "note": ""
  },
  {
   "property": "C29",
   "status": "proved",
   "theorems": [
    "Verif.Props.C29_reported_heat",
    "Verif.Props.C29_one_year",
    "Verif.Props.C29_accumulated",
    "Verif.Props.C29_reported_imbalance"
   ],
   "note": ""
  },
  {
   "property": "C30",
   "status": "proved",
   "theorems": [
    "Verif.Props.C30_default_stable",
    "Verif.Props.C30_constRun_is_run",
    "Verif.Props.C30_monotone_bounded",
    "Verif.Props.C30_equilibrium",
    "Verif.Props.C30_reported",
    "Verif.Props.C30_rest",
    "Verif.Props.C30_linear"
   ],
   "note": ""
  },
  {
   "property": "C31",
   "status": "partial",
   "theorems": [
    "Verif.Props.C31_twolayer_doubles_volcanic_partial",
    "Verif.Props.C31_twolayer_false",
    "Verif.Props.C31.C31_diffusion_monthly",
    "Verif.Props.C31.C31_diffusion_false"
   ],
   "note": "False for both thermal models: the two-layer model doubles volcanic forcing (C31_twolayer_false; exactly by 2, C31_twolayer_doubles_volcanic_partial); the diffusion model ramps ordinary forcing over the year but not volcanic forcing (C31_diffusion_false). Proved: month by month the two are equivalent in the diffusion model (C31_diffusion_monthly)."
  },
  {
   "property": "C32",
   "status": "proved",
   "theorems": [
    "Verif.Props.C32_ohc700",
    "Verif.Props.C32_shallow",
    "Verif.Props.C32_bounds"
   ],
   "note": ""
  },
  {
   "property": "C33",
   "status": "partial",
   "theorems": [
    "Verif.Props.C33_C34.C33_heat_budget_partial",
    "Verif.Props.C33_C34.C33_heat_budget",
    "Verif.Props.C33_C34.C33_exchange_false"
   ],
   "note": "False with exchange between the hemispheres' air switched on (C33_exchange_false); then the exact budget with the lag term is C33_heat_budget_partial. With ebbeta = 0, the default, C33_heat_budget is the full statement. Assumes the linear solver returns a solution whenever there is exactly one (Spec.Exact)."
  },
  {
   "property": "C34",
   "status": "proved",
   "theorems": [
    "Verif.Props.C33_C34.C34_surface_balance",
    "Verif.Props.C33_C34.C34_global_balance",
    "Verif.Props.C33_C34.C34_mean_forcing",
    "Verif.Props.C33_C34.C34_equilibrium"
   ],
   "note": "Assumes the linear solver is exact (Spec.Exact)."
  },
  {
   "property": "C35",
   "status": "proved",
   "theorems": [
    "Verif.Props.C35.C35_dominant",
    "Verif.Props.C35.C35_unique_solution",
    "Verif.Props.C35.C35_maximum_principle",
    "Verif.Props.C35.C35_run_succeeds",
    "Verif.Props.C35.C35_warming"
   ],
   "note": "Assumes the linear solver is exact (Spec.Exact)."
  },
  {
   "property": "C36",
   "status": "proved",
   "theorems": [
    "Verif.Props.C36.C36_rest",
    "Verif.Props.C36.C36_linear"
   ],
   "note": "Assumes the linear solver is exact (Spec.Exact)."
  },
  {
   "property": "C37",
   "status": "partial",
   "theorems": [
    "Verif.Props.C37_C38_C39.C37_upper700_partial",
    "Verif.Props.C37_C38_C39.C37_upper700_false",
    "Verif.Props.C37_C38_C39.C37_ocean_too_shallow"
   ],
   "note": "False for mixed layers deeper than 700 m (C37_upper700_false). Proved for all others; oceans shallower than 700 m are refused (C37_ocean_too_shallow)."
  },
  {
   "property": "C38",
   "status": "proved",
   "theorems": [
    "Verif.Props.C37_C38_C39.C38_diffusion_last_update",
    "Verif.Props.C37_C38_C39.C38_diffusion_history",
    "Verif.Props.C37_C38_C39.C38_twolayer_history"
   ],
   "note": ""
  },
  {
   "property": "C39",
   "status": "proved",
   "theorems": [
    "Verif.Props.C37_C38_C39.C39_ramp",
    "Verif.Props.C37_C38_C39.C39_substep"
   ],
   "note": ""
  },
  {
   "property": "C40",
   "status": "proved",
   "theorems": [
    "Verif.Props.C40_run",
    "Verif.Props.C40_feedback"
   ],
   "note": ""
  },
  {
   "property": "C41",
   "status": "partial",
   "theorems": [
    "Verif.Props.C41_array",
    "Verif.Props.C41_frame",
    "Verif.Props.C41_succeeds"
   ],
   "note": "Proved for inputs with a total column and for arrays. That the total of a hemispheric file without a total column is not the mean but a missing value is C66_hemispheres_false."
  },
  {
   "property": "C42",
   "status": "proved",
   "theorems": [
    "Verif.Props.C42_pairs",
    "Verif.Props.C42_no_empty_batch",
    "Verif.Props.C42_result",
    "Verif.Props.C42_worker_independent",
    "Verif.Props.C42_needs_history_free"
   ],
   "note": "C42_result and C42_worker_independent ask that a run does not depend on the runs before it in the same batch (HistoryFree), which is needed (C42_needs_history_free)."
  },
  {
   "property": "C43",
   "status": "partial",
   "theorems": [
    "Verif.Props.C43_parallel_phase",
    "Verif.Props.C43_failure_surfaces",
    "Verif.Props.C43_timeout_raises",
    "Verif.Props.C43_schedule_independent",
    "Verif.Props.C43_any_failure_raises",
    "Verif.Props.C43_serial_result",
    "Verif.Props.C43_serial_partial",
    "Verif.Props.C43_serial_false"
   ],
   "note": "False for the pool-less mode, where the front-serial results come last (C43_serial_false, exact result C43_serial_result). Proved for every schedule and split with a pool. Real scheduling is abstracted to the completion order and which futures finish before the timeout."
  },
  {
   "property": "C44",
   "status": "proved",
   "theorems": [
    "Verif.Props.C44_partition",
    "Verif.Props.C44_chunk_size",
    "Verif.Props.C44_unsplit",
    "Verif.Props.C44_unique_index"
   ],
   "note": ""
  },
  {
   "property": "C45",
   "status": "partial",
   "theorems": [
    "Verif.Props.C45_sampled_names",
    "Verif.Props.C45_sampled",
    "Verif.Props.C45_fixed_partial",
    "Verif.Props.C45_nothing_else",
    "Verif.Props.C45_fixed_false",
    "Verif.Props.C45_foan_false",
    "Verif.Props.C45_npp0_unused",
    "Verif.Props.C45_unread_box",
    "Verif.Props.C45_unread_default",
    "Verif.Props.C45_unread_all",
    "Verif.Props.C45_unread_history",
    "Verif.Props.C45_unread",
    "Verif.Props.C45_unread_diffusion",
    "Verif.Props.C45_unread_two_layer",
    "Verif.Props.C45_npp0_false",
    "Verif.Props.C45_fixed_response_false"
   ],
   "note": "False for fixed impulse-response parameters (C45_fixed_false), for thermal parameters the router does not know (C45_foan_false) and for npp0 of the default distribution, which nothing reads (C45_npp0_false). C45_unread and its companions say that such a parameter has no effect on any run. Everything else is proved. C45_unread_box and C45_unread_default: the same for the carbon cycle set. C45_unread_all: any number of such names in all three sets of a run of the default model. C45_unread_history: the same for every sequence of runs, in both directions."
  },
  {
   "property": "C46",
   "status": "partial",
   "theorems": [
    "Verif.Props.C46_round_trip",
    "Verif.Props.C46_generated_round_trip",
    "Verif.Props.C46_legacy",
    "Verif.Props.C46_rejects",
    "Verif.Props.C46_other_files",
    "Verif.Props.C46_rewrite_partial",
    "Verif.Props.C46_rewrite_false"
   ],
   "note": "False for re-writing without passing the meta information (C46_rewrite_false). Files are a map from names to JSON values; JSON text itself is not modelled."
  },
  {
   "property": "C47",
   "status": "proved",
   "theorems": [
    "Verif.Props.C47_file_wins",
    "Verif.Props.C47_missing_file",
    "Verif.Props.C47_data_used",
    "Verif.Props.C47_mandatory",
    "Verif.Props.C47_luc_default",
    "Verif.Props.C47_sun_default",
    "Verif.Props.C47_volc_default",
    "Verif.Props.C47_volc_one_hemisphere",
    "Verif.Props.C47_natural_default"
   ],
   "note": "As coded the default file for the southern volcanic forcing is the northern one (C47_volc_default), and a missing natural emission file does not fail the construction."
  },
  {
   "property": "C48",
   "status": "partial",
   "theorems": [
    "Verif.Props.C48_partial",
    "Verif.Props.C48_false"
   ],
   "note": "False: a configured file wins over sunvolc (C48_false). Proved when no solar or volcanic file is configured."
  },
  {
   "property": "C49",
   "status": "proved",
   "theorems": [
    "Verif.Props.C49_cut",
    "Verif.Props.C49_beyond",
    "Verif.Props.C49_emissions",
    "Verif.Props.C49_run"
   ],
   "note": ""
  },
  {
   "property": "C50",
   "status": "proved",
   "theorems": [
    "Verif.Props.C50_aligned",
    "Verif.Props.C50_short",
    "Verif.Props.C50_early",
    "Verif.Props.C50_run",
    "Verif.Props.C50_early_run",
    "Verif.Props.C50_run_volc"
   ],
   "note": ""
  },
  {
   "property": "C51",
   "status": "partial",
   "theorems": [
    "Verif.Props.C51_fgas_partial",
    "Verif.Props.C51_ghg_partial",
    "Verif.Props.C51_once",
    "Verif.Props.C51_total",
    "Verif.Props.C51_aerosol_false"
   ],
   "note": "False for the aerosol aggregates (C51_aerosol_false). Proved for fluorinated gases, greenhouse gases and the total."
  },
  {
   "property": "C52",
   "status": "proved",
   "theorems": [
    "Verif.Props.C52_pool",
    "Verif.Props.C52_net"
   ],
   "note": ""
  },
  {
   "property": "C53",
   "status": "partial",
   "theorems": [
    "Verif.Props.C53_hcfc",
    "Verif.Props.C53_halon",
    "Verif.Props.C53_formula_chlorine_partial",
    "Verif.Props.C53_formula_bromine_partial",
    "Verif.Props.C53_no_halogen",
    "Verif.Props.C53_mixed_false",
    "Verif.Props.C53_two_letter_suffix_false",
    "Verif.Props.C53_dictionaries"
   ],
   "note": "False for formulae with both bromine and chlorine (the bromine is not counted) or two chlorine groups (C53_mixed_false) and for HCFC names with a two-letter suffix, which raise ValueError (C53_two_letter_suffix_false). Proved for all other names covered by the naming rules."
  },
  {
   "property": "C54",
   "status": "proved",
   "theorems": [
    "Verif.Props.C54_accepts_iff",
    "Verif.Props.C54_zero_timescale_accepted"
   ],
   "note": ""
  },
  {
   "property": "C55",
   "status": "partial",
   "theorems": [
    "Verif.Props.C55_run_regional",
    "Verif.Props.C55_run_no_double",
    "Verif.Props.C55_efficiency_counted",
    "Verif.Props.C55_efficiency_false",
    "Verif.Props.C55_keeps_rows",
    "Verif.Props.C55_adds_rows",
    "Verif.Props.C55_succeeds"
   ],
   "note": "The table part is proved in full (C55_keeps_rows, C55_adds_rows, C55_succeeds) and in a run regional rows get their own forcing (C55_run_regional) and switch off the global coefficient (C55_run_no_double). 'Nothing is counted twice' is false if the gas table gives the global row a non-zero efficiency (C55_efficiency_counted, C55_efficiency_false)."
  },
  {
   "property": "C56",
   "status": "proved",
   "theorems": [
    "Verif.Props.C56_carbon_exact",
    "Verif.Props.C56_carbon_rejects",
    "Verif.Props.C56_thermal_exact",
    "Verif.Props.C56_thermal_rejects",
    "Verif.Props.C56_user_choice"
   ],
   "note": ""
  },
  {
   "property": "C57",
   "status": "partial",
   "theorems": [
    "Verif.Props.C57_udm_partial",
    "Verif.Props.C57_two_layer_false"
   ],
   "note": "False for the two-layer model (C57_two_layer_false). Proved for the diffusion model."
  },
  {
   "property": "C58",
   "status": "partial",
   "theorems": [
    "Verif.Props.C58_chunk_files_distinct_partial",
    "Verif.Props.C58_chunk_files_false",
    "Verif.Props.C58_file_contents"
   ],
   "note": "False for file names without .json (C58_chunk_files_false). Proved for all others."
  },
  {
   "property": "C59",
   "status": "proved",
   "theorems": [
    "Verif.Props.C59_year",
    "Verif.Props.C59_run",
    "Verif.Props.C59_run_ahead",
    "Verif.Props.C59_run_ozone"
   ],
   "note": ""
  },
  {
   "property": "C60",
   "status": "partial",
   "theorems": [
    "Verif.Props.C60_zero",
    "Verif.Props.C60_co2_sign_partial",
    "Verif.Props.C60_co2_increasing_partial",
    "Verif.Props.C60_n2o_increasing",
    "Verif.Props.C60_n2o_sign",
    "Verif.Props.C60_ch4_increasing",
    "Verif.Props.C60_ch4_sign",
    "Verif.Props.C60_co2_sign_false",
    "Verif.Props.C60_co2_increasing_false"
   ],
   "note": "CO2 sign and growth fail far from the start-year concentration (C60_co2_sign_false, C60_co2_increasing_false). Proved within explicit ranges."
  },
  {
   "property": "C61",
   "status": "proved",
   "theorems": [
    "Verif.Props.C61_run",
    "Verif.Props.C61_conc_run"
   ],
   "note": ""
  },
  {
   "property": "C62",
   "status": "proved",
   "theorems": [
    "Verif.Props.C62_columns",
    "Verif.Props.C62_early_table_fails"
   ],
   "note": "For an emission table that begins with the start year; an earlier start makes collecting the results fail (C62_early_table_fails)."
  },
  {
   "property": "C63",
   "status": "proved",
   "theorems": [
    "Verif.Props.C63_completes",
    "Verif.Props.C63_box",
    "Verif.Props.C63_default",
    "Verif.Props.C63_diffusion"
   ],
   "note": "Numbers are not interpreted: whatever value an operation returns, no step raises. Python's float ZeroDivisionError for scalar division is not part of the model, see DESIGN.md."
  },
  {
   "property": "C64",
   "status": "partial",
   "theorems": [
    "Verif.Props.C64_unread_false",
    "Verif.Props.C64_only_these_partial",
    "Verif.Props.C64_each_matters"
   ],
   "note": "False: five documented options are never read (C64_unread_false). Options outside the list in C64_only_these_partial have no effect, and each option in the list has one (C64_each_matters; witnesses executed over rational numbers with stand-ins for the transcendental functions)."
  },
  {
   "property": "C65",
   "status": "partial",
   "theorems": [
    "Verif.Props.C65_partial",
    "Verif.Props.C65_rows_needed",
    "Verif.Props.C65_false"
   ],
   "note": "False: one gas missing from the emission file switches the comparison off (C65_false). Proved when all gases are present."
  },
  {
   "property": "C66",
   "status": "partial",
   "theorems": [
    "Verif.Props.C66_components_partial",
    "Verif.Props.C66_hemispheres_false",
    "Verif.Props.C66_weight",
    "Verif.Props.C66_solar_false"
   ],
   "note": "False for hemispheric columns without a total (C66_hemispheres_false) and for a column SOLAR, which counts as aerosol (C66_solar_false). Proved: components without total (C66_components_partial), weight (C66_weight)."
  },
  {
   "property": "C67",
   "status": "partial",
   "theorems": [
    "Verif.Props.C67_partial",
    "Verif.Props.C67_anomalous_false",
    "Verif.Props.C67_two_layer_false",
    "Verif.Props.C67_two_layer_partial",
    "Verif.Props.C67_unknown"
   ],
   "note": "False for Anomalous Radiation with either model and for two temperatures with the two-layer model (C67_anomalous_false, C67_two_layer_false). All other requests are proved."
  },
  {
   "property": "C68",
   "status": "partial",
   "theorems": [
    "Verif.Props.C68_partial",
    "Verif.Props.C68_units_false",
    "Verif.Props.C68_x_rows_false",
    "Verif.Props.C68_file_units"
   ],
   "note": "False for most emission units (C68_units_false). Proved for concentration units and the emission units that agree."
  },
  {
   "property": "C69",
   "status": "partial",
   "theorems": [
    "Verif.Props.C69_partial",
    "Verif.Props.C69_previous_flux_false",
    "Verif.Props.C69_pulse"
   ],
   "note": "False: the flux of the previous sub-step is left out and older ones count one sub-step too young (C69_previous_flux_false, C69_pulse). C69_partial gives the integral the code does compute, for every history."
  },
  {
   "property": "C70",
   "status": "proved",
   "theorems": [
    "Verif.Props.C70_production",
    "Verif.Props.C70_uptake",
    "Verif.Props.C70_reported"
   ],
   "note": "The decay rate of an earlier production is taken at the number of sub-steps in between (zero for the production just before)."
  },
  {
   "property": "C71",
   "status": "proved",
   "theorems": [
    "Verif.Props.C71_run",
    "Verif.Props.C71_run_box",
    "Verif.Props.C71_preindustrial",
    "Verif.Props.C71_parameters"
   ],
   "note": "C71_run (default), C71_run_box; C71_parameters and C71_preindustrial say which parameters are in force."
  },
  {
   "property": "C72",
   "status": "partial",
   "theorems": [
    "Verif.Props.C72_run",
    "Verif.Props.C72_airborne",
    "Verif.Props.C72_diagnostics_partial",
    "Verif.Props.C72_diagnostics_false"
   ],
   "note": "C72_run, C72_airborne and C19_run (budget in reported numbers) hold for every run. The diagnostics claim is false for every run whose first year is warm (C72_diagnostics_false): the three columns are evaluated at the temperature of the same year, the run used the year before; C72_diagnostics_partial gives what they are."
  },
  {
   "property": "C73",
   "status": "partial",
   "theorems": [
    "Verif.Props.C73_run",
    "Verif.Props.C73_observation",
    "Verif.Props.C73_observation_box",
    "Verif.Props.C73_completes",
    "Verif.Props.C73_land_false"
   ],
   "note": "C73_run: the table always exists, its emissions reproduce the concentrations, its ocean flux and diagnostics are those of the forward run. C73_observation and C73_observation_box: asking changes no later run; C73_completes: it prevents none. The land flux is not that of the forward run (C73_land_false): it is computed from the concentrations of the same year."
  },
  {
   "property": "C74",
   "status": "proved",
   "theorems": [
    "Verif.Props.C74_gas_run",
    "Verif.Props.C74_every_run",
    "Verif.Props.C74_forcing",
    "Verif.Props.C74_no_forcing",
    "Verif.Props.C74_kind"
   ],
   "note": ""
  },
  {
   "property": "C75",
   "status": "proved",
   "theorems": [
    "Verif.Props.C75_udm",
    "Verif.Props.C75_udm_run",
    "Verif.Props.C75_no_set",
    "Verif.Props.C75_emiconc_run",
    "Verif.Props.C75_no_emiconc_set",
    "Verif.Props.C75_default_carbon",
    "Verif.Props.C75_box_carbon",
    "Verif.Props.C75_twolayer",
    "Verif.Props.C75_twolayer_run",
    "Verif.Props.C75_qindso2"
   ],
   "note": ""
  },
  {
   "property": "C76",
   "status": "partial",
   "theorems": [
    "Verif.Props.C76.C76_temperatures",
    "Verif.Props.C76.C76_imbalance",
    "Verif.Props.C76.C76_relation",
    "Verif.Props.C76.C76_heat_uptake_partial",
    "Verif.Props.C76.C76_heat_uptake_false"
   ],
   "note": "Temperatures, the imbalance of a hemisphere and the relation of imbalance and heat flux are proved for every history. That the reported heat uptake is the increase of the reported heat content is false as stated (C76_heat_uptake_false, a first year of forcing); C76_heat_uptake_partial gives what holds when the forcing is that of the year before, where the two are proportional but not equal."
  },
  {
   "property": "C77",
   "status": "partial",
   "theorems": [
    "Verif.Props.C77_tables",
    "Verif.Props.C77_concentrations",
    "Verif.Props.C77_forcings",
    "Verif.Props.C77_emissions",
    "Verif.Props.C77_emissions_box",
    "Verif.Props.C77_emissions_from_concentrations",
    "Verif.Props.C77_emissions_unasked_false",
    "Verif.Props.C77_ozone_false"
   ],
   "note": "Proved for all concentrations and forcings, and for emissions when the carbon cycle outputs were asked for. False as stated otherwise: without those outputs every request for emissions raises KeyError (C77_emissions_unasked_false), and the name for the concentration of tropospheric ozone is never answered (C77_ozone_false)."
  },
  {
   "property": "C78",
   "status": "proved",
   "theorems": [
    "Verif.Props.C78.C78_bounded"
   ],
   "note": ""
  },
  {
   "property": "C79",
   "status": "partial",
   "theorems": [
    "Verif.Props.C79_more_emission",
    "Verif.Props.C79_recovered_partial",
    "Verif.Props.C79_recovered_false",
    "Verif.Props.C79_continuous",
    "Verif.Props.C79_recovered_steps_partial",
    "Verif.Props.C79_more_emission_false"
   ],
   "note": "False in general (C79_recovered_false: the search interval misses the emission). C79_recovered_steps_partial: for every number of sub-steps a year, if the interval reaches from too little to too much, the search returns an emission that gives the target or is next to one that does. With one sub-step a year a higher emission gives a higher concentration, so it is the only such emission (C79_recovered_partial, C79_more_emission); with more sub-steps a higher emission can give a lower concentration (C79_more_emission_false)."
  },
  {
   "property": "C80",
   "status": "partial",
   "theorems": [
    "Verif.Props.C80_run",
    "Verif.Props.C80_others",
    "Verif.Props.C80_ahead_refused",
    "Verif.Props.C80_every_row_false"
   ],
   "note": "The part about which components can be asked for is false for every row of the gas table: a gas computed ahead is refused (C80_ahead_refused, C80_every_row_false). What holds for every history and year: C80_run (the last just_one given is in force; total and thermal forcing are those of the component), C80_others (components, concentrations and aerosol fraction of a year do not change)."
  },
  {
   "property": "C81",
   "status": "proved",
   "theorems": [
    "Verif.Props.C81_two_layer",
    "Verif.Props.C81_diffusion",
    "Verif.Props.C81_array_bounded",
    "Verif.Props.C81_diffusion_emission_budget",
    "Verif.Props.C81_diffusion_array_budget",
    "Verif.Props.C81_emission_budget",
    "Verif.Props.C81_array_budget"
   ],
   "note": ""
  },
  {
   "property": "C82",
   "status": "proved",
   "theorems": [
    "Verif.Props.C82_run",
    "Verif.Props.C82_next_year",
    "Verif.Props.C82_conc_run",
    "Verif.Props.C82_no_temperature",
    "Verif.Props.C82_budget"
   ],
   "note": ""
  },
  {
   "property": "C83",
   "status": "partial",
   "theorems": [
    "Verif.Props.C83_kinds",
    "Verif.Props.C83_prefixes",
    "Verif.Props.C83_tables",
    "Verif.Props.C83_forcing_run",
    "Verif.Props.C83_only",
    "Verif.Props.C83_separate",
    "Verif.Props.C83_two_layer_false"
   ],
   "note": "False for the two-layer model (C83_two_layer_false). Proved for the outputs of the diffusion model. The text format of a line and plots are not modelled."
  },
  {
   "property": "C84",
   "status": "partial",
   "theorems": [
    "Verif.Props.C84_forcing",
    "Verif.Props.C84_default_partial",
    "Verif.Props.C84_box_partial",
    "Verif.Props.C84_workers_false",
    "Verif.Props.C84_rows",
    "Verif.Props.C84_one_scenario"
   ],
   "note": "Proved without restriction for prescribed forcing. False as stated for the other runs (C84_workers_false: a parameter one configuration leaves out keeps the value of the configuration before, so the number of workers matters). C84_default_partial and C84_box_partial prove it for configurations that give values for the same carbon parameters."
  },
  {
   "property": "C85",
   "status": "proved",
   "theorems": [
    "Verif.Props.C85_file",
    "Verif.Props.C85_other_length"
   ],
   "note": ""
  },
  {
   "property": "C86",
   "status": "proved",
   "theorems": [
    "Verif.Props.C86_ocean",
    "Verif.Props.C86_land",
    "Verif.Props.C86_accepted_iff"
   ],
   "note": ""
  },
  {
   "property": "C87",
   "status": "partial",
   "theorems": [
    "Verif.Props.C87_latin",
    "Verif.Props.C87_one_in_each",
    "Verif.Props.C87_accepted_iff",
    "Verif.Props.C87_gaussian",
    "Verif.Props.C87_gaussian_accepted_iff",
    "Verif.Props.C87_fallback_false",
    "Verif.Props.C87_default",
    "Verif.Props.C87_gaussian_default",
    "Verif.Props.C87_usable",
    "Verif.Props.C87_gaussian_usable_false"
   ],
   "note": "Proved for the Latin method, including the default distribution, and which distributions are accepted. False as stated for the documented fallback to the default distribution (C87_fallback_false) and for the usability of Gaussian draws (C87_gaussian_usable_false). The sample of the unit cube and the normal draws are inputs of the model."
  },
  {
   "property": "C88",
   "status": "proved",
   "theorems": [
    "Verif.Props.C88.C88_rises",
    "Verif.Props.C88.C88_bounded",
    "Verif.Props.C88.C88_settles",
    "Verif.Props.C88.C88_equilibrium",
    "Verif.Props.C88_run"
   ],
   "note": ""
  },
  {
   "property": "C89",
   "status": "partial",
   "theorems": [
    "Verif.Props.C89_last_partial",
    "Verif.Props.C89_series",
    "Verif.Props.C89_kept",
    "Verif.Props.C89_carbon_false",
    "Verif.Props.C89_files_false"
   ],
   "note": "False: tables of earlier runs stay in the results (C89_carbon_false, C89_files_false; C89_kept says which). Series are always those of the last run (C89_series); all entries are, for runs asked for as a dictionary, if the carbon cycle table is asked for now or never was (C89_last_partial)."
  },
  {
   "property": "C90",
   "status": "partial",
   "theorems": [
    "Verif.Props.C90.C90_layers_partial",
    "Verif.Props.C90.C90_annual_false"
   ],
   "note": "False in the first sub-step of each year: upwelling is then that of an unwarmed ocean, so with one sub-step per year the threshold has no effect (C90_annual_false). Proved for every other sub-step, and the heat equation itself for all (C90_layers_partial). The tridiagonal solver is assumed exact."
  },
  {
   "property": "C91",
   "status": "partial",
   "theorems": [
    "Verif.Props.C91_table",
    "Verif.Props.C91_two_layer",
    "Verif.Props.C91_diffusion_partial",
    "Verif.Props.C91_diffusion_false"
   ],
   "note": "False of the diffusion model with the array of totals, which loses the difference between the hemispheres (C91_diffusion_false); proved that the replay agrees exactly when the hemispheres were forced alike (C91_diffusion_partial), and in general for a table with hemispheric columns and aerosol weights (C91_table) and for the two-layer model (C91_two_layer)."
  },
  {
   "property": "C92",
   "status": "partial",
   "theorems": [
    "Verif.Props.C92_dictionary",
    "Verif.Props.C92_build_again",
    "Verif.Props.C92_reuse_partial",
    "Verif.Props.C92_perturbed_false",
    "Verif.Props.C92_shared_table_false"
   ],
   "note": "False when emissions and a perturbation of them are given as data: the second model perturbs them again (C92_perturbed_false). False of a gas table shared by two configurations, which keeps the natural emissions of the last run (C92_shared_table_false). Proved otherwise (C92_build_again, C92_reuse_partial); the second model is not literally the same object when natural emissions and the gas table are both given as data."
  },
  {
   "property": "C93",
   "status": "proved",
   "theorems": [
    "Verif.Props.C93_sum_two_layer",
    "Verif.Props.C93_order_two_layer",
    "Verif.Props.C93_sum_diffusion",
    "Verif.Props.C93_order_diffusion"
   ],
   "note": ""
  },
  {
   "property": "C94",
   "status": "proved",
   "theorems": [
    "Verif.Props.C94_forcing",
    "Verif.Props.C94_warms_two_layer",
    "Verif.Props.C94_warms_diffusion"
   ],
   "note": ""
  },
  {
   "property": "C95",
   "status": "partial",
   "theorems": [
    "Verif.Props.C95_impulse",
    "Verif.Props.C95_box",
    "Verif.Props.C95_forcing_run",
    "Verif.Props.C95_emission_run_partial",
    "Verif.Props.C95_last_year_false",
    "Verif.Props.C95_model_forcing",
    "Verif.Props.C95_model_partial"
   ],
   "note": "Fails if the emission period begins in the last year of the shorter run: that year then keeps the prescribed concentrations of the gases computed ahead (C95_last_year_false). Proved otherwise, for instances whose tables agree up to the last common year and cover the run years consecutively (C95_forcing_run, C95_emission_run_partial). Also proved for whole configurations: two models built from the same files whose configurations differ only in nyend (C95_model_forcing, C95_model_partial)."
  },
  {
   "property": "C96",
   "status": "proved",
   "theorems": [
    "Verif.Props.C96_forcing",
    "Verif.Props.C96_warms_two_layer",
    "Verif.Props.C96_warms_diffusion"
   ],
   "note": ""
  },
  {
   "property": "C97",
   "status": "proved",
   "theorems": [
    "Verif.Props.C97_more",
    "Verif.Props.C97_methane_more",
    "Verif.Props.C97_conc",
    "Verif.Props.C97_forcing",
    "Verif.Props.C97_forcing_ahead"
   ],
   "note": ""
  },
  {
   "property": "C98",
   "status": "proved",
   "theorems": [
    "Verif.Props.C98_two_layer",
    "Verif.Props.C98_diffusion"
   ],
   "note": ""
  },
  {
   "property": "C99",
   "status": "proved",
   "theorems": [
    "Verif.Props.C99_forcing",
    "Verif.Props.C99_warms_two_layer",
    "Verif.Props.C99_warms_diffusion",
    "Verif.Props.C99_box_more",
    "Verif.Props.C99_emitted_two_layer",
    "Verif.Props.C99_emitted_diffusion"
   ],
   "note": "That the second run reports no less CO2 is a hypothesis of the warming theorems, which hold for every carbon cycle; C99_emitted_two_layer and C99_emitted_diffusion derive it from the emissions for the box carbon cycle without temperature effects. The range of the formulas (Co2Range) is asked of the reported concentrations."
  },
  {
   "property": "C100",
   "status": "proved",
   "theorems": [
    "Verif.Props.C100_forcing",
    "Verif.Props.C100_two_layer",
    "Verif.Props.C100_diffusion"
   ],
   "note": "The methane of the reference year has to be the same: ozone is computed relative to it, so more methane there lowers the ozone of the start year and so changes the scale of the ozone forcing in every year. Range of the formulas: at most 5000 ppb CH4 and 1000 ppb N2O; the factor of N2O is at most 1.5 times that of CH4; at most 30 DU of ozone in the first year."
  },
  {
   "property": "C101",
   "status": "proved",
   "theorems": [
    "Verif.Props.C101_forcing",
    "Verif.Props.C101_warms_two_layer",
    "Verif.Props.C101_warms_diffusion",
    "Verif.Props.C101_box_co2",
    "Verif.Props.C101_emitted_two_layer",
    "Verif.Props.C101_emitted_diffusion"
   ],
   "note": "That the second run reports no less methane is a hypothesis of the warming theorems; C97_methane_more derives it from the emissions. That the reported CO2 is the same is a hypothesis too; C101_box_co2 derives it for the box carbon cycle without temperature effects. With temperature effects methane also changes CO2 and the claim that CO2 does not move is false. Range of the formulas as in C100. C101_emitted_two_layer and C101_emitted_diffusion ask for more emissions only, with that carbon cycle."
  }
 ]
}