{
 "claims": [
  {
   "property": "C01",
   "status": "proved",
   "theorems": [
    "Demod.C01_log_is_history",
    "Demod.C01_refuses"
   ],
   "note": "for simulators that update their variables before super().step(); the late-updating ones are refuted under C05"
  },
  {
   "property": "C02",
   "status": "proved",
   "theorems": [
    "Demod.C02_get",
    "Demod.C02_clear",
    "Demod.C02_clearList",
    "Demod.C02_clearList_unknown",
    "Demod.C02_add",
    "Demod.C02_copy_create",
    "Demod.C02_length_after_partial_clear_counterexample"
   ],
   "note": ""
  },
  {
   "property": "C03",
   "status": "proved",
   "theorems": [
    "Demod.C03_initialization_time",
    "Demod.C03_clock",
    "Demod.C03_no_failure"
   ],
   "note": ""
  },
  {
   "property": "C04",
   "status": "proved",
   "theorems": [
    "Demod.C04_step",
    "Demod.C04_run",
    "Demod.C04_step_converse",
    "Demod.C04_create",
    "Demod.C04_getters"
   ],
   "note": ""
  },
  {
   "property": "C05",
   "status": "partial",
   "theorems": [
    "Demod.C05_cache_never_stale",
    "Demod.C05_late_update_counterexample",
    "Demod.C05_reinitialise_keeps_cache"
   ],
   "note": "proved for simulators that update before the base step; false for those that update after it (semi-Markov, sparse, CREST lighting, cars) and after a second initialisation, which does not clear the cache"
  },
  {
   "property": "C06",
   "status": "partial",
   "theorems": [
    "Demod.C06_calendar",
    "Demod.C06_after_next_day",
    "Demod.C06_after_next_day_count",
    "Demod.C06_before_next_day_partial",
    "Demod.C06_before_next_day_misses_month_end",
    "Demod.C06_before_next_day_counterexample"
   ],
   "note": "before_next_day misses month ends"
  },
  {
   "property": "C07",
   "status": "proved",
   "theorems": [
    "Demod.C07_4am",
    "Demod.C07_4am_count",
    "Demod.C07_4am_large_steps",
    "Demod.C07_refresh",
    "Demod.C07_refresh_count",
    "Demod.C07_refresh_misaligned"
   ],
   "note": ""
  },
  {
   "property": "C08",
   "status": "proved",
   "theorems": [
    "Demod.C08_mask"
   ],
   "note": ""
  },
  {
   "property": "C09",
   "status": "proved",
   "theorems": [
    "Demod.C09_cdf",
    "Demod.C09_pdf",
    "Demod.C09_zero_probability_never_drawn",
    "Demod.C09_missing_mass_goes_to_first"
   ],
   "note": "rational arithmetic; draws are explicit"
  },
  {
   "property": "C10",
   "status": "proved",
   "theorems": [
    "Demod.C10_samples",
    "Demod.C10_rows",
    "Demod.C10_no_outcome"
   ],
   "note": ""
  },
  {
   "property": "C11",
   "status": "proved",
   "theorems": [
    "Demod.C11_rescale_pdf",
    "Demod.C11_rescale_cdf",
    "Demod.C11_check_valid_cdf"
   ],
   "note": ""
  },
  {
   "property": "C12",
   "status": "partial",
   "theorems": [
    "Demod.C12_counts_sum",
    "Demod.C12_rejects",
    "Demod.C12_real_population",
    "Demod.C12_zero_probability_partial",
    "Demod.C12_monte_carlo",
    "Demod.C12_first_entry_counterexample",
    "Demod.C12_extra_entry_counterexample"
   ],
   "note": "false of the default algorithm for a first entry of probability 0 and for pdfs summing to slightly less than 1; everything else proved"
  },
  {
   "property": "C13",
   "status": "proved",
   "theorems": [
    "Demod.C13_behaves_like_dense_array",
    "Demod.C13_construction",
    "Demod.C13_iteration",
    "Demod.C13_empty_counterexample"
   ],
   "note": "for non-empty TPMs; an empty TPM drops its sizes"
  },
  {
   "property": "C14",
   "status": "partial",
   "theorems": [
    "Demod.C14_agrees_with_dense_partial",
    "Demod.C14_dead_states",
    "Demod.C14_assignment_sorts",
    "Demod.C14_dead_value_dead_recursion",
    "Demod.C14_zero_draw_counterexample",
    "Demod.C14_dead_without_value_counterexample"
   ],
   "note": "false for a draw of exactly 0"
  },
  {
   "property": "C15",
   "status": "partial",
   "theorems": [
    "Demod.C15_rejects_partial",
    "Demod.C15_guard",
    "Demod.C15_counterexample",
    "Demod.C15_inconsistent_object_unreadable"
   ],
   "note": "false: the length guard is a bitwise and; exact condition proved"
  },
  {
   "property": "C16",
   "status": "partial",
   "theorems": [
    "Demod.C16_load_save_partial",
    "Demod.C16_round_trip_partial",
    "Demod.C16_counterexample"
   ],
   "note": "false in general: sizes and dead state value are not saved"
  },
  {
   "property": "C17",
   "status": "proved",
   "theorems": [
    "Demod.C17_lengths",
    "Demod.C17_records",
    "Demod.C17_ordered_once",
    "Demod.C17_rebuild"
   ],
   "note": ""
  },
  {
   "property": "C18",
   "status": "partial",
   "theorems": [
    "Demod.C18_durations",
    "Demod.C18_tile",
    "Demod.C18_ignore_counterexample"
   ],
   "note": "Proved for the circular day (the default of states_to_transitions). With ignore_end_start_transitions the claim is false for the last stretch of a diary that does not end in its first state (duration 0)."
  },
  {
   "property": "C19",
   "status": "partial",
   "theorems": [
    "Demod.C19_counterexample",
    "Demod.C19_states_partial",
    "Demod.C19_aligned_partial"
   ],
   "note": "False of the code: persons are appended secondary first, states primary first."
  },
  {
   "property": "C20",
   "status": "proved",
   "theorems": [
    "Demod.C20_raises",
    "Demod.C20_lossless"
   ],
   "note": ""
  },
  {
   "property": "C21",
   "status": "proved",
   "theorems": [
    "Demod.C21_tpm",
    "Demod.C21_total",
    "Demod.C21_first_matrix_counterexample"
   ],
   "note": "The 'last' option copies the last matrix; it is not the wrap-around one."
  },
  {
   "property": "C22",
   "status": "partial",
   "theorems": [
    "Demod.C22_durations",
    "Demod.C22_support_partial",
    "Demod.C22_initial",
    "Demod.C22_zero_duration_counterexample"
   ],
   "note": "Rows are probability distributions and empirical; the support claim fails for unobserved rows and with ignore_end_start_transitions."
  },
  {
   "property": "C23",
   "status": "proved",
   "theorems": [
    "Demod.C23_diversity",
    "Demod.C23_coincidence",
    "Demod.C23_time_coincident_demand"
   ],
   "note": ""
  },
  {
   "property": "C24",
   "status": "partial",
   "theorems": [
    "Demod.C24_given_loads",
    "Demod.C24_default_loads",
    "Demod.C24_one_dimensional_counterexample"
   ],
   "note": "Proved for two dimensional profiles; one dimensional input raises IndexError (the result of reshape is dropped)."
  },
  {
   "property": "C25",
   "status": "proved",
   "theorems": [
    "Demod.C25_energy",
    "Demod.C25_additive_time",
    "Demod.C25_additive_load",
    "Demod.C25_additive_households",
    "Demod.C25_scales",
    "Demod.C25_converters"
   ],
   "note": ""
  },
  {
   "property": "C26",
   "status": "partial",
   "theorems": [
    "Demod.C26_distribution_partial",
    "Demod.C26_edges_partial",
    "Demod.C26_normalize_drops_counterexample",
    "Demod.C26_normalize_bunches_counterexample",
    "Demod.C26_normalize_edges_counterexample",
    "Demod.C26_first_edge_counterexample"
   ],
   "note": "Proved without normalisation; false with the default normalize=True and for changes equal to the first edge."
  },
  {
   "property": "C27",
   "status": "partial",
   "theorems": [
    "Demod.C27_runs_partial",
    "Demod.C27_tile",
    "Demod.C27_all_constant_counterexample"
   ],
   "note": "Proved as soon as one pattern is not constant; when all are, the call raises IndexError."
  },
  {
   "property": "C28",
   "status": "proved",
   "theorems": [
    "Demod.C28_average_state",
    "Demod.C28_pseudo_distance",
    "Demod.C28_bounded",
    "Demod.C28_rmse",
    "Demod.C28_sparsity"
   ],
   "note": ""
  },
  {
   "property": "C29",
   "status": "proved",
   "theorems": [
    "Demod.C29_array",
    "Demod.C29_dict"
   ],
   "note": "one-dimensional arrays over the rationals, NaN as none"
  },
  {
   "property": "C30",
   "status": "proved",
   "theorems": [
    "Demod.C30_closest"
   ],
   "note": "the empty string, false in python, is never returned"
  },
  {
   "property": "C31",
   "status": "proved",
   "theorems": [
    "Demod.C31_ownership",
    "Demod.C31_missing_default"
   ],
   "note": "covers get_ownership_from_dict and get_target_from_dict, whose loops are the same"
  },
  {
   "property": "C32",
   "status": "proved",
   "theorems": [
    "Demod.C32_sum"
   ],
   "note": "rational arithmetic; termination is that of the model's loop with the proved bound"
  },
  {
   "property": "C33",
   "status": "proved",
   "theorems": [
    "Demod.C33_merge",
    "Demod.C33_consistent",
    "Demod.C33_associative"
   ],
   "note": ""
  },
  {
   "property": "C34",
   "status": "partial",
   "theorems": [
    "Demod.C34_strict_total_order",
    "Demod.C34_insertion_order",
    "Demod.C34_inverted_counterexample",
    "Demod.C34_mixed_counterexample"
   ],
   "note": "proved for subgroups whose values have the type of their key; false when a key has a list in one and an integer in the other (TypeError), which add_time produces"
  },
  {
   "property": "C35",
   "status": "proved",
   "theorems": [
    "Demod.C35_insertion_order",
    "Demod.C35_injective",
    "Demod.C35_counterexample"
   ],
   "note": "for usual keys and values; the restrictions are shown to be needed"
  },
  {
   "property": "C36",
   "status": "partial",
   "theorems": [
    "Demod.C36_members",
    "Demod.C36_single",
    "Demod.C36_other",
    "Demod.C36_counterexample"
   ],
   "note": "proved for consistent households of types 2, 3, 4; households of other types get no position"
  },
  {
   "property": "C37",
   "status": "proved",
   "theorems": [
    "Demod.C37_rejects",
    "Demod.C37_time",
    "Demod.C37_format",
    "Demod.C37_formats"
   ],
   "note": ""
  },
  {
   "property": "C38",
   "status": "proved",
   "theorems": [
    "Demod.C38_markov_chain",
    "Demod.C38_positive",
    "Demod.C38_rejected",
    "Demod.C38_tolerance_counterexample"
   ],
   "note": "Rows summing to one exactly. C38_tolerance_counterexample: a matrix whose rows sum to slightly less than one passes the check and lets a state of probability zero be reached."
  },
  {
   "property": "C39",
   "status": "proved",
   "theorems": [
    "Demod.C39_new_labels",
    "Demod.C39_set_tpm"
   ],
   "note": ""
  },
  {
   "property": "C40",
   "status": "proved",
   "theorems": [
    "Demod.C40_durations",
    "Demod.C40_rejected"
   ],
   "note": "Durations drawn as 0 behave as 1, as stated in the theorem. Bad arrays of durations are refused."
  },
  {
   "property": "C41",
   "status": "partial",
   "theorems": [
    "Demod.C41_individuals",
    "Demod.C41_counterexample",
    "Demod.C41_sparse",
    "Demod.C41_crest"
   ],
   "note": "Proved for households simulated with as many persons as residents (SubgroupsIndividuals), for packed labels with at most as many persons away as residents (Sparse) and for CREST labels. C41_counterexample: a couple of three residents is accepted and simulated with two persons."
  },
  {
   "property": "C42",
   "status": "proved",
   "theorems": [
    "Demod.C42_unpack",
    "Demod.C42_unknown",
    "Demod.unpack_pack"
   ],
   "note": "Numbers are unbounded; numpy labels overflow beyond 22 activities."
  },
  {
   "property": "C43",
   "status": "proved",
   "theorems": [
    "Demod.C43_new_day",
    "Demod.C43_lost_label_counterexample"
   ],
   "note": "For distinct new labels. Lost labels: the first label is used as a position (counterexample)."
  },
  {
   "property": "C44",
   "status": "proved",
   "theorems": [
    "Demod.C44_time_slot"
   ],
   "note": ""
  },
  {
   "property": "C45",
   "status": "partial",
   "theorems": [
    "Demod.C45_no_restart",
    "Demod.C45_cycle_partial",
    "Demod.C45_short_uses_counterexample"
   ],
   "note": "OccupancyApplianceSimulator: a use of duration d is shown in ceil(d)-1 steps only, since the step that switches on also decrements; uses of at most one step never show (counterexample). For ProbabiliticActivityAppliancesSimulator see C78."
  },
  {
   "property": "C46",
   "status": "proved",
   "theorems": [
    "Demod.C46_demand",
    "Demod.C46_not_owned",
    "Demod.C46_run",
    "Demod.C46_water_profile_counterexample"
   ],
   "note": "For profiles that are stored with their length. A water fixture with a load profile may raise IndexError (counterexample)."
  },
  {
   "property": "C47",
   "status": "proved",
   "theorems": [
    "Demod.C47_switched_off",
    "Demod.C47_others"
   ],
   "note": ""
  },
  {
   "property": "C48",
   "status": "proved",
   "theorems": [
    "Demod.C48_conversion",
    "Demod.C48_additive"
   ],
   "note": ""
  },
  {
   "property": "C49",
   "status": "partial",
   "theorems": [
    "Demod.C49_inactive",
    "Demod.C49_bounds",
    "Demod.C49_installed",
    "Demod.C49_duration",
    "Demod.C49_no_bulb",
    "Demod.C49_short_counterexample"
   ],
   "note": "Durations are cut to whole steps; a duration below one step is never shown (counterexample), everything else proved."
  },
  {
   "property": "C50",
   "status": "partial",
   "theorems": [
    "Demod.C50_usage",
    "Demod.C50_power",
    "Demod.C50_default_counterexample"
   ],
   "note": "Proved; only the default initial occupancy has the wrong number of households."
  },
  {
   "property": "C51",
   "status": "partial",
   "theorems": [
    "Demod.C51_cars_away",
    "Demod.C51_one_at_a_time",
    "Demod.C51_away_not_charging",
    "Demod.C51_consumption",
    "Demod.C51_trip_energy",
    "Demod.C51_accounting",
    "Demod.C51_charge_partial",
    "Demod.C51_timer",
    "Demod.C51_no_failure",
    "Demod.C51_charge_counterexample",
    "Demod.C51_short_trip_counterexample",
    "Demod.C51_long_charge_counterexample",
    "Demod.C51_timers_counterexample",
    "Demod.C51_six_people_counterexample",
    "Demod.C51_timer_arrival",
    "Demod.C51_driving",
    "Demod.C51_trip_length",
    "Demod.C51_probabilities"
   ],
   "note": "Everything but the energy delivered, which is one step short (counterexample, exact number proved), and the failures listed as counterexamples."
  },
  {
   "property": "C52",
   "status": "proved",
   "theorems": [
    "Demod.C52_energy_balance",
    "Demod.C52_run",
    "Demod.C52_equilibrium"
   ],
   "note": "For nonzero capacities."
  },
  {
   "property": "C53",
   "status": "proved",
   "theorems": [
    "Demod.C53_bounds",
    "Demod.C53_lower_bound"
   ],
   "note": "Also the lower bound with non-negative gains."
  },
  {
   "property": "C54",
   "status": "proved",
   "theorems": [
    "Demod.C54_hot_water",
    "Demod.C54_emitters",
    "Demod.C54_five_modules_partial",
    "Demod.C54_step_size_counterexample"
   ],
   "note": "Holds with the same step size; FiveModulesHeatingSimulator does not give its step size to HeatDemand, so with other step sizes than a minute the set point is missed (counterexample)."
  },
  {
   "property": "C55",
   "status": "proved",
   "theorems": [
    "Demod.C55_hysteresis",
    "Demod.C55_run",
    "Demod.C55_components"
   ],
   "note": ""
  },
  {
   "property": "C56",
   "status": "proved",
   "theorems": [
    "Demod.C56_controls"
   ],
   "note": ""
  },
  {
   "property": "C57",
   "status": "proved",
   "theorems": [
    "Demod.C57_capacity",
    "Demod.C57_external_total_counterexample"
   ],
   "note": "For HeatingSystem; the outputs shown by FiveModulesHeatingSimulator after an external output are inconsistent (counterexample)."
  },
  {
   "property": "C58",
   "status": "proved",
   "theorems": [
    "Demod.C58_split"
   ],
   "note": ""
  },
  {
   "property": "C59",
   "status": "partial",
   "theorems": [
    "Demod.C59_power_demand_partial",
    "Demod.C59_set_external_counterexample",
    "Demod.C59_nan_counterexample",
    "Demod.C59_nan_array_counterexample"
   ],
   "note": "False for households with NaN in an array of external outputs, after set_external_heating_system and undefined for a system without one of the capacities."
  },
  {
   "property": "C60",
   "status": "proved",
   "theorems": [
    "Demod.C60_switchers",
    "Demod.C60_band",
    "Demod.C60_away",
    "Demod.C60_arrival",
    "Demod.C60_schedule",
    "Demod.C60_fixed_times",
    "Demod.C60_daily",
    "Demod.C60_offset_counterexample",
    "Demod.C60_bed_before_return_counterexample"
   ],
   "note": "Also the schedule of the patterns with fixed times, which is missed when the step minutes are never equal to the drawn minute (counterexample)."
  },
  {
   "property": "C61",
   "status": "partial",
   "theorems": [
    "Demod.C61_power",
    "Demod.C61_cadence",
    "Demod.C61_step",
    "Demod.C61_missing_weather",
    "Demod.C61_activity_ahead_counterexample"
   ],
   "note": "Sum and cadence proved for arbitrary component simulators; the activity is up to nine minutes ahead of the clock."
  },
  {
   "property": "C62",
   "status": "partial",
   "theorems": [
    "Demod.C62_within_a_month_partial",
    "Demod.C62_month_end",
    "Demod.C62_month_end_counterexample"
   ],
   "note": "Proved for simulations within a month; every simulation over the end of a month raises StopIteration, which is proved too."
  },
  {
   "property": "C63",
   "status": "partial",
   "theorems": [
    "Demod.C63_load",
    "Demod.C63_load_end",
    "Demod.C63_real_partial",
    "Demod.C63_time_zone_east",
    "Demod.C63_time_zone_west",
    "Demod.C63_time_zone_counterexample",
    "Demod.C63_interpolation",
    "Demod.C63_interpolated_partial",
    "Demod.C63_interpolated_end",
    "Demod.C63_interpolated_west_counterexample"
   ],
   "note": "Proved for naive starts (UTC); with a time zone RealClimate shifts the data by the offset or raises ValueError, RealInterpolatedClimate raises ValueError west of Greenwich."
  },
  {
   "property": "C64",
   "status": "partial",
   "theorems": [
    "Demod.C64_value_partial",
    "Demod.C64_outcome_partial",
    "Demod.C64_once_partial",
    "Demod.C64_complete_partial",
    "Demod.C64_uninterrupted_partial",
    "Demod.C64_crash_before_writing",
    "Demod.C64_clear",
    "Demod.C64_crash_counterexample",
    "Demod.C64_unstorable_counterexample",
    "Demod.C64_mixed_counterexample",
    "Demod.C64_differs_counterexample",
    "Demod.C64_full_fails",
    "Demod.C64_objects_counterexample",
    "Demod.C64_dictionaries_only"
   ],
   "note": "The full statement C64_full is false of the code: an interruption between opening and completing a file breaks every later load until the data are cleared, unconvertible values poison the json file, dense and sparse matrices of one subgroup share a file, and integer keys/arrays come back changed. Proved: for storable values, usual subgroups, no dense/sparse clash and no half-written file, every load after any history gives the fresh value, and nothing is parsed or written twice."
  },
  {
   "property": "C65",
   "status": "partial",
   "theorems": [
    "Demod.C65_roundtrip_partial",
    "Demod.C65_unchanged_partial",
    "Demod.C65_counterexample",
    "Demod.C65_full_fails"
   ],
   "note": "Proved for names without '&' and types with at least one profile; a type without profiles vanishes and an '&' in a name makes the next load raise ValueError."
  },
  {
   "property": "C66",
   "status": "partial",
   "theorems": [
    "Demod.C66_seconds",
    "Demod.C66_energy",
    "Demod.C66_length",
    "Demod.C66_ceil_partial",
    "Demod.C66_aligned",
    "Demod.C66_counterexample",
    "Demod.C66_below_one_second"
   ],
   "note": "Energy conservation and the values proved for all profiles; the number of intervals is the ceiling only if the profile does not fill its last step, otherwise an interval of zeros is added."
  },
  {
   "property": "C67",
   "status": "partial",
   "theorems": [
    "Demod.C67_levels",
    "Demod.C67_cycle_partial",
    "Demod.C67_last_minute_counterexample"
   ],
   "note": "Levels proved for all remaining times; the last minute of the cycle is shown as standby."
  },
  {
   "property": "C68",
   "status": "partial",
   "theorems": [
    "Demod.C68_day_types_partial",
    "Demod.C68_right_type",
    "Demod.C68_midnight_counterexample"
   ],
   "note": "Labels are kept and all transitions use the right type of day, except the first after midnight (counterexample)."
  },
  {
   "property": "C69",
   "status": "partial",
   "theorems": [
    "Demod.C69_value_partial",
    "Demod.C69_documented_partial",
    "Demod.C69_distance_partial",
    "Demod.C69_missing_state",
    "Demod.C69_all_constant",
    "Demod.C69_longer_counterexample",
    "Demod.C69_normalisation_counterexample",
    "Demod.C69_full_fails"
   ],
   "note": "Proved when both data sets have the same states and a pattern that changes; the value is T/(T+1) times the documented one; a state of one data set only raises KeyError, constant patterns IndexError."
  },
  {
   "property": "C70",
   "status": "partial",
   "theorems": [
    "Demod.C70_values_partial",
    "Demod.C70_bounds_partial",
    "Demod.C70_single_step",
    "Demod.C70_size_counterexample",
    "Demod.C70_density_counterexample",
    "Demod.C70_full_fails"
   ],
   "note": "All four numbers characterised for two or more time steps; size counts states of the step before too, density can exceed 1, one time step divides by zero."
  },
  {
   "property": "C71",
   "status": "partial",
   "theorems": [
    "Demod.C71_time_aware_partial",
    "Demod.C71_not_time_aware",
    "Demod.C71_shift_counterexample"
   ],
   "note": "The property is false for time-aware simulators: the matrices used are exactly determined; they are shifted by one and the transition over the refresh time uses the day before."
  },
  {
   "property": "C72",
   "status": "partial",
   "theorems": [
    "Demod.C72_clock_partial",
    "Demod.C72_day_partial",
    "Demod.C72_wrong_day_counterexample",
    "Demod.C72_day_class",
    "Demod.C72_quarter_partial",
    "Demod.C72_quarter_counterexample"
   ],
   "note": "The property is false: the clock is ahead by the steps of the initialisation. The day is right iff the start is between 04:00 and 23:50. The quarter is one too small."
  },
  {
   "property": "C73",
   "status": "proved",
   "theorems": [
    "Demod.C73_no_overheating",
    "Demod.C73_no_undercooling"
   ],
   "note": "With steps of a minute, the step size that HeatDemand assumes."
  },
  {
   "property": "C74",
   "status": "partial",
   "theorems": [
    "Demod.C74_volume_partial",
    "Demod.C74_probabilistic",
    "Demod.C74_volume_counterexample"
   ],
   "note": "False for OccupancyApplianceSimulator, where the first minute of flow is missing (exact amount proved); ProbabiliticActivityAppliancesSimulator rounds up to whole minutes."
  },
  {
   "property": "C75",
   "status": "partial",
   "theorems": [
    "Demod.C75_in_use",
    "Demod.C75_never_off_counterexample"
   ],
   "note": "Proved for appliances flagged inactive_switch_off; others are never switched off again."
  },
  {
   "property": "C76",
   "status": "partial",
   "theorems": [
    "Demod.C76_activity_profile_partial",
    "Demod.C76_always_on",
    "Demod.C76_occupancy_profile_partial",
    "Demod.C76_first_sample_counterexample",
    "Demod.C78_use"
   ],
   "note": "Proved for ProbabiliticActivityAppliancesSimulator (C78_use) and always-on appliances; the others begin with the second sample."
  },
  {
   "property": "C77",
   "status": "partial",
   "theorems": [
    "Demod.C77_row",
    "Demod.C77_day_partial",
    "Demod.C77_seconds_counterexample"
   ],
   "note": "The row is right for all starts; the day only for starts at whole minutes."
  },
  {
   "property": "C78",
   "status": "partial",
   "theorems": [
    "Demod.C78_use",
    "Demod.C78_end",
    "Demod.C78_available",
    "Demod.C78_delay_counterexample",
    "Demod.C78_observer_counterexample"
   ],
   "note": "Durations proved; the delay is ignored and the usage getter's cache changes the simulation (counterexamples)."
  },
  {
   "property": "C79",
   "status": "proved",
   "theorems": [
    "Demod.C79_heat_demand"
   ],
   "note": ""
  },
  {
   "property": "C80",
   "status": "partial",
   "theorems": [
    "Demod.C80_shift",
    "Demod.C80_midnight_partial",
    "Demod.C80_counterexample"
   ],
   "note": "Proved for starts at midnight; for other starts the irradiance is ahead by the time of day of the start."
  },
  {
   "property": "C81",
   "status": "proved",
   "theorems": [
    "Demod.C81_value",
    "Demod.C81_bounds",
    "Demod.C81_night",
    "Demod.C81_noon",
    "Demod.C81_day_of_year",
    "Demod.C81_clearness"
   ],
   "note": "Over the reals: rounding of floats is not modelled. The value shown is that of the minute before the clock."
  },
  {
   "property": "C82",
   "status": "partial",
   "theorems": [
    "Demod.C82_every_minute",
    "Demod.C82_day",
    "Demod.C82_night",
    "Demod.C82_polar_night",
    "Demod.C82_zero_irradiance",
    "Demod.C82_counterexample"
   ],
   "note": "Proved for minutes with sun and for the night; a minute without irradiance during the day gets 0 degrees, and without daylight ValueError is raised."
  },
  {
   "property": "C83",
   "status": "proved",
   "theorems": [
    "Demod.C83_crop",
    "Demod.C83_never_on"
   ],
   "note": "A profile never above 6 W raises IndexError."
  },
  {
   "property": "C84",
   "status": "partial",
   "theorems": [
    "Demod.C84_subgroups",
    "Demod.C84_basic",
    "Demod.C84_subgroup",
    "Demod.C84_set_partial",
    "Demod.C84_others",
    "Demod.C84_counterexample"
   ],
   "note": "All methods proved; the check of the number of sets of 'set_defined' compares equal lengths: too many sets pass unnoticed, too few give IndexError."
  },
  {
   "property": "C85",
   "status": "partial",
   "theorems": [
    "Demod.C85_uniform_partial",
    "Demod.C85_succeeds",
    "Demod.C85_initial",
    "Demod.C85_counterexample",
    "Demod.C85_initial_counterexample"
   ],
   "note": "Proved when no type has both always-on and other appliances; otherwise the switched-on appliances get the full-day profile. A one-sample profile of an always-on appliance makes the construction raise ValueError."
  },
  {
   "property": "C86",
   "status": "partial",
   "theorems": [
    "Demod.C86_calibrated_partial",
    "Demod.C86_succeeds",
    "Demod.C86_counterexample"
   ],
   "note": "Calibration proved, for appliances that follow an activity provided their own activity is not listed later in the data: otherwise the probability is overwritten by one calibrated on steps."
  },
  {
   "property": "C87",
   "status": "partial",
   "theorems": [
    "Demod.C87_partition",
    "Demod.C87_without_flags",
    "Demod.C87_counterexample"
   ],
   "note": "Proved for fresh dictionaries; the probabilistic simulator negates the flags in the dictionary object it was given, so two simulators built from one object keep the same appliances."
  },
  {
   "property": "C88",
   "status": "proved",
   "theorems": [
    "Demod.C88_probability",
    "Demod.C88_profiles"
   ],
   "note": ""
  },
  {
   "property": "C89",
   "status": "partial",
   "theorems": [
    "Demod.C89_follow_partial",
    "Demod.C89_error",
    "Demod.C89_full_fails",
    "Demod.C89_unowned_counterexample"
   ],
   "note": "Proved for exactly one following appliance. The loop goes over the tuple returned by np.where: with several followers the first step raises, with none the first end of a use raises. Uses of appliances that a household does not own also count."
  },
  {
   "property": "C90",
   "status": "partial",
   "theorems": [
    "Demod.C90_activity_partial",
    "Demod.C90_counterexample"
   ],
   "note": "Proved when some appliance has the followed activity as its own; otherwise the activity is skipped and the follower never starts."
  },
  {
   "property": "C91",
   "status": "proved",
   "theorems": [
    "Demod.C91_randn",
    "Demod.C91_config",
    "Demod.C91_duration"
   ],
   "note": "The normal and uniform draws are arguments."
  },
  {
   "property": "C92",
   "status": "partial",
   "theorems": [
    "Demod.C92_occupancy_partial",
    "Demod.C92_lunch_counterexample",
    "Demod.C92_start_counterexample",
    "Demod.C92_full_fails",
    "Demod.C92_final_location",
    "Demod.C92_final_location_counterexample",
    "Demod.C92_out"
   ],
   "note": "The estimate of the code is characterised for every survey. The rule for the places between travels never applies (the code stores the mask of the travellers instead of that of the arrivals) and the ratings are replaced with their non-negative ranks; final places that do not apply come from the previous diary."
  },
  {
   "property": "C93",
   "status": "partial",
   "theorems": [
    "Demod.C93_group",
    "Demod.C93_rejects",
    "Demod.C93_conserves",
    "Demod.C93_four_states",
    "Demod.C93_four_states_rejects",
    "Demod.C93_sparse",
    "Demod.C93_active_occupancy",
    "Demod.C93_four_states_counterexample"
   ],
   "note": "Proved for households of up to nine (four states) or six (sparse) members, the limit of the digits. The smaller digit, used as active occupancy in the four states model, can exceed the number of active persons at home."
  },
  {
   "property": "C94",
   "status": "partial",
   "theorems": [
    "Demod.C94_matrix",
    "Demod.C94_last",
    "Demod.C94_agrees_with_dense",
    "Demod.C94_last_counterexample",
    "Demod.C94_full_fails"
   ],
   "note": "Proved for 'nothing'. With 'last' the code overwrites the first matrix, which is correct, with the transitions from the end of the day to its start, which nobody recorded."
  },
  {
   "property": "C95",
   "status": "partial",
   "theorems": [
    "Demod.C95_labels_partial",
    "Demod.C95_tpm",
    "Demod.C95_loader",
    "Demod.C95_loader_fails",
    "Demod.C95_counterexample",
    "Demod.C95_other_counterexample",
    "Demod.C95_full_fails"
   ],
   "note": "States, matrices and initial distribution proved in terms of the activities for every dictionary that covers the codes. Labels can be repeated ('-' and activities that nobody does are appended again) and the secondary activity is taken from the main ones, so it is never shown. Without the state 'away' the loader raises UnboundLocalError."
  },
  {
   "property": "C96",
   "status": "partial",
   "theorems": [
    "Demod.C96_profile_partial",
    "Demod.C96_activity",
    "Demod.C96_elsewhere_counterexample",
    "Demod.C96_full_fails"
   ],
   "note": "The value of the code is characterised for every survey: active occupants are the smaller of the numbers of members at home and awake, and activities done elsewhere count, so the value is not the share of the property."
  },
  {
   "property": "C97",
   "status": "partial",
   "theorems": [
    "Demod.C97_durations_partial",
    "Demod.C97_durations_counterexample",
    "Demod.C97_probabilities",
    "Demod.C97_probabilities_rejects",
    "Demod.C97_starts_partial",
    "Demod.C97_starts_counterexample",
    "Demod.C97_full_fails"
   ],
   "note": "Durations need somebody who changes activity (IndexError otherwise), probabilities somebody away and somebody asleep (KeyError otherwise). Positive numbers of daily starts are counted rightly but divided by the number of diaries, and the zero entry counts households that do not exist, so the sum is not one."
  },
  {
   "property": "C98",
   "status": "partial",
   "theorems": [
    "Demod.C98_mask_partial",
    "Demod.C98_rejects",
    "Demod.C98_weekdays",
    "Demod.C98_list_counterexample",
    "Demod.C98_missing_counterexample",
    "Demod.C98_full_fails"
   ],
   "note": "Proved with the default filters or with single values, if the diaries that report a missing day come in consecutive pairs. With a list, or '1_retired', the code applies the default filters although they were switched off; otherwise reported missing days are passed over."
  },
  {
   "property": "C99",
   "status": "partial",
   "theorems": [
    "Demod.C99_individuals",
    "Demod.C99_initial",
    "Demod.C99_transitions",
    "Demod.C99_new_day",
    "Demod.C99_day_partial",
    "Demod.C99_never_updated",
    "Demod.C99_step_size",
    "Demod.C99_two_schemes_counterexample",
    "Demod.C99_labels_counterexample",
    "Demod.C99_no_household_counterexample",
    "Demod.C99_full_fails"
   ],
   "note": "Everything but the last clause is proved for every start. The data are those of the current day only if the start is a multiple of 10 minutes after the refresh time; otherwise no data of a day are ever loaded (C99_never_updated). Two day types are rejected only at the first refresh. First order chains; for semi-Markov chains see C108."
  },
  {
   "property": "C100",
   "status": "partial",
   "theorems": [
    "Demod.C100_least_edits_partial",
    "Demod.C100_metric_partial",
    "Demod.C100_two_digits_counterexample",
    "Demod.C100_counted_twice_counterexample",
    "Demod.C100_full_fails"
   ],
   "note": "proved for profiles of single digits, the documented domain; false beyond (values are written without a separator)"
  },
  {
   "property": "C101",
   "status": "partial",
   "theorems": [
    "Demod.C101_similarity",
    "Demod.C101_variety_pairs",
    "Demod.C101_variety_mean",
    "Demod.C101_variety_nan",
    "Demod.C101_count",
    "Demod.C101_shape_counterexample",
    "Demod.C101_full_fails"
   ],
   "note": "all proved for every distance; the documented shape (n, n) of profiles_variety(average=False) is false: it returns the n(n-1)/2 pairs"
  },
  {
   "property": "C102",
   "status": "proved",
   "theorems": [
    "Demod.C102_crest_tpm",
    "Demod.C102_rejected",
    "Demod.C102_simulation",
    "Demod.C102_clearness"
   ],
   "note": "NaN cells and the reading of the Excel file are not modelled"
  },
  {
   "property": "C103",
   "status": "partial",
   "theorems": [
    "Demod.C103_entries",
    "Demod.C103_round_trip",
    "Demod.C103_names_counterexample",
    "Demod.C103_full_fails"
   ],
   "note": "the round trip is proved when no type is named like a numbered copy of another type; with types tv_2, tv, tv the second television gets the probability of tv_2"
  },
  {
   "property": "C104",
   "status": "proved",
   "theorems": [
    "Demod.C104_profiles",
    "Demod.C104_rejected"
   ],
   "note": ""
  },
  {
   "property": "C105",
   "status": "partial",
   "theorems": [
    "Demod.C105_consumption",
    "Demod.C105_power_factor",
    "Demod.C105_switch_off_partial",
    "Demod.C105_dish_washer_counterexample",
    "Demod.C105_full_fails"
   ],
   "note": "np.logical_or(a, b, c) takes the third array as the place of the result, so the dish washer is switched off when nobody is active"
  },
  {
   "property": "C106",
   "status": "partial",
   "theorems": [
    "Demod.C106_ownership_partial",
    "Demod.C106_equipment_partial",
    "Demod.C106_rejected",
    "Demod.C106_twice_counterexample",
    "Demod.C106_full_fails"
   ],
   "note": "proved for tables where each type has one row; in the shipped table laptop_computer has two, and the third laptop of the first row stays in the dictionary (2.088 laptops on average for 3 residents instead of 1.541; the shipped parsed data show it)"
  },
  {
   "property": "C107",
   "status": "partial",
   "theorems": [
    "Demod.C107_column_partial",
    "Demod.C107_rejected",
    "Demod.C107_impossible",
    "Demod.C107_time",
    "Demod.C107_population",
    "Demod.C107_income_counterexample",
    "Demod.C107_residents_counterexample",
    "Demod.C107_children_counterexample",
    "Demod.C107_full_fails"
   ],
   "note": "false for an income of 0 (ValueError), more than 5 residents (AssertionError although the report has 5 or more) and lone parents of 4 children (column of 5 persons); proved for all the others"
  },
  {
   "property": "C108",
   "status": "proved",
   "theorems": [
    "Demod.C108_durations",
    "Demod.C108_households"
   ],
   "note": "With day types the position in the cycle lags one slot after a new day (slotOf states it), as for first order chains (C99)."
  },
  {
   "property": "C109",
   "status": "proved",
   "theorems": [
    "Demod.C109_create",
    "Demod.C109_run",
    "Demod.C109_refuses",
    "Demod.C109_alone",
    "Demod.C109_getters",
    "Demod.C109_arguments_counterexample"
   ],
   "note": "The whole simulator with its arrays is modelled in Model/OccSim; the theorems refine it to one appliance alone (Model/Appliance, C45-C48). The constructor also writes the kind of day into the dictionaries of the subgroups given to it (C109_arguments_counterexample)."
  },
  {
   "property": "C110",
   "status": "partial",
   "theorems": [
    "Demod.C110_create",
    "Demod.C110_run",
    "Demod.C110_getters",
    "Demod.C110_refuses",
    "Demod.C110_first_log_counterexample",
    "Demod.C110_missing_counterexample"
   ],
   "note": "Proved for whole simulations under ActSetup (profiles drawn exist, always-on ones have at least two samples). False as stated for the log: the logger visits before the appliances are switched on (C110_first_log_counterexample). Activities cannot be left out of a step (C110_missing_counterexample). Activity arrays have one entry per household."
  },
  {
   "property": "C111",
   "status": "partial",
   "theorems": [
    "Demod.C111_create",
    "Demod.C111_run_partial",
    "Demod.C111_refuses",
    "Demod.C111_counterexample",
    "Demod.C111_always_on_counterexample"
   ],
   "note": "Proved for whole simulations under ProbSetup and ProbLimits: exactly one appliance follows a type of appliances and none is always on. False without these limits: with no follower the step in which a use ends fails (C111_counterexample), always-on appliances go off for good (C111_always_on_counterexample). No initialisation steps: the simulator would pass itself as the activities."
  },
  {
   "property": "C112",
   "status": "partial",
   "theorems": [
    "Demod.C112_create",
    "Demod.C112_run_partial",
    "Demod.C112_refuses",
    "Demod.C112_counterexample"
   ],
   "note": "Everything proved for every history but the log: the simulator lets the logger visit before it updates the lamps, so that the entry of a step holds the demand of the step before (proved exactly; counterexample for the full statement C112_full)."
  },
  {
   "property": "C113",
   "status": "partial",
   "theorems": [
    "Demod.C113_run_partial",
    "Demod.C113_refuses",
    "Demod.C113_counterexample"
   ],
   "note": "Proved for every history, with the slot and the type of day that the code really uses: the transition of a period uses the type of day of the period before, and until the first change of the type of day the slot that follows. The full statement C113_full (matrix of the period itself, up to a fixed shift) is refuted by C113_counterexample."
  },
  {
   "property": "C114",
   "status": "proved",
   "theorems": [
    "Demod.C114_run",
    "Demod.C114_heating",
    "Demod.C114_refuses"
   ],
   "note": "Under LoadSetup: start at a multiple of ten minutes, both kinds of population of the loader the same (as in the CREST data; otherwise the simulators sample different populations), data for up to six active occupants. Climate and heating simulators are arbitrary."
  },
  {
   "property": "C115",
   "status": "proved",
   "theorems": [
    "Demod.C115_run",
    "Demod.C115_independent",
    "Demod.C115_refuses"
   ],
   "note": "Arrays given by the user have one entry per household; NaN in external outputs is modelled, numpy broadcasting and division by zero parameters are not. One household alone is the model of C53-C59."
  },
  {
   "property": "C116",
   "status": "proved",
   "theorems": [
    "Demod.C116_run",
    "Demod.C116_refuses"
   ],
   "note": "Under LoadBase (see C114), consistent heating data without other fuels than gas and electricity, and external inputs of one entry per household. The climate simulator is arbitrary. The aliasing of returned arrays is not modelled."
  },
  {
   "property": "C117",
   "status": "partial",
   "theorems": [
    "Demod.C117_run_partial",
    "Demod.C117_course_unique",
    "Demod.C117_refuses",
    "Demod.C117_zero_draw_counterexample"
   ],
   "note": "Proved for all valid data, histories and draws other than exactly 0 (a draw of 0 takes the last target of the row before, counterexample). The class of the day is that of the simulator's own clock, which is ahead by the steps of the initialisation (C72)."
  },
  {
   "property": "C118",
   "status": "partial",
   "theorems": [
    "Demod.C118_run_partial",
    "Demod.C118_heating_partial",
    "Demod.C118_choice"
   ],
   "note": "Missing: activity draws that are exactly 0, for which a household can go to a state of probability zero (C117_zero_draw_counterexample); floats are rationals; the climate is arbitrary; active occupancies that would be negative (more persons out than residents) are excluded by a hypothesis on the data."
  },
  {
   "property": "C119",
   "status": "partial",
   "theorems": [
    "Demod.C119_data_partial",
    "Demod.C119_run_partial",
    "Demod.C119_wrap_counterexample",
    "Demod.C119_quarter_counterexample",
    "Demod.C119_full_fails"
   ],
   "note": "Missing, because false of the code: the matrix of the last slot of a day leads to the start of the same day, a change nobody recorded, and the quarter is counted from 0 by the simulator and from 1 by the survey, where 0 is no condition. The diaries of a household and day are at most six, and each class of days has a household all asleep at its start."
  },
  {
   "property": "C120",
   "status": "partial",
   "theorems": [
    "Demod.C120_latest_partial",
    "Demod.C120_update_repairs",
    "Demod.C120_errors",
    "Demod.C120_weighting_counterexample",
    "Demod.C120_name_counterexample",
    "Demod.C120_interrupted_download_counterexample",
    "Demod.C120_interrupted_update_counterexample",
    "Demod.C120_interrupted_load_counterexample",
    "Demod.C120_full_fails"
   ],
   "note": "Proved for all histories without interruption that use a country with one name and one weighting (other countries are arbitrary), and after an update for all histories. False otherwise: the parsed data is kept by name and not by weighting, a half-written download is accepted, an interrupted update keeps old data, an interrupted load leaves an unreadable file."
  },
  {
   "property": "C121",
   "status": "partial",
   "theorems": [
    "Demod.C121_ninja_partial",
    "Demod.C121_irradiance_counterexample",
    "Demod.C121_irradiance_excess",
    "Demod.C121_full_fails",
    "Demod.C121_power",
    "Demod.C121_power_names"
   ],
   "note": "Temperature and clock proved for both datasets, irradiance for Open Power System Data. For renewables.ninja the irradiance at the top of the atmosphere is added to the one at the surface, and the cloud cover is given as clearness."
  },
  {
   "property": "C122",
   "status": "partial",
   "theorems": [
    "Demod.C122_data_partial",
    "Demod.C122_households_partial",
    "Demod.C122_initial",
    "Demod.C122_step_partial",
    "Demod.C122_codes_counterexample",
    "Demod.C122_lag_counterexample",
    "Demod.C122_full_fails"
   ],
   "note": "Proved: the counts per household, the first activities, and each step with the pair of slots whose changes are really used. Missing, because false of the code: with kinds of days distinguished the changes used are those of the previous slot, an activity nobody of that day has is kept for ever, and when a label with several codes is recorded with none of them the persons doing it jump to another activity (excluded by a hypothesis)."
  },
  {
   "property": "C123",
   "status": "partial",
   "theorems": [
    "Demod.C123_latest_partial",
    "Demod.C123_clear_repairs",
    "Demod.C123_survey",
    "Demod.C123_version_counterexample",
    "Demod.C123_interrupted_counterexample",
    "Demod.C123_offline_counterexample",
    "Demod.C123_first_clear_counterexample",
    "Demod.C123_full_fails",
    "Demod.C123_interrupted_load_counterexample"
   ],
   "note": "Proved for all histories without interruption and with one version per activity type, and after a successful clearing for all histories. False otherwise: the archive is shared by the versions but unpacked only for the first, an interrupted download or unpacking is never repeated, clearing without network loses the data, and a first loader cannot clear."
  },
  {
   "property": "C124",
   "status": "partial",
   "theorems": [
    "Demod.C124_latest_partial",
    "Demod.C124_update_repairs",
    "Demod.C124_errors",
    "Demod.C124_step_counterexample",
    "Demod.C124_failed_update_counterexample",
    "Demod.C124_removed_counterexample",
    "Demod.C124_interrupted_counterexample",
    "Demod.C124_full_fails"
   ],
   "note": "Proved for all histories without interruption in which one version and step size does the updates, with success, and the archive keeps its file names; other versions and step sizes are arbitrary otherwise. False otherwise: an update leaves the profiles of other step sizes, a failed update and a retry leave the old ones, files removed from the archive stay, an interrupted unpacking gives a part of the profiles silently."
  },
  {
   "property": "C125",
   "status": "partial",
   "theorems": [
    "Demod.C125_run_partial",
    "Demod.C125_refuses",
    "Demod.C125_counterexample"
   ],
   "note": "Proved for all surveys in which every situation of the household sizes was recorded, all populations, starts at a multiple of ten minutes and draws: the exact changes used in each period are stated. If a situation was never recorded the simulator cannot be made (ValueError). False: after the first change of the type of day the changes come ten minutes late, the last period of a diary day uses the change before, and the first period after a change of the day those of the previous day; from a start between 0:00 and 4:00 on Saturday or Monday the first situation is that of the wrong type of day."
  },
  {
   "property": "C126",
   "status": "partial",
   "theorems": [
    "Demod.C126_accepts",
    "Demod.C126_states",
    "Demod.C126_errors",
    "Demod.C126_rebuild_partial",
    "Demod.C126_no_transition_counterexample",
    "Demod.C126_no_sizes_counterexample",
    "Demod.C126_first_partial",
    "Demod.C126_invented_state_counterexample"
   ],
   "note": "the states, the accepted arguments and the errors are exact; the rebuilding is false for diaries without any transition (ValueError), for which the full statement C126_full is refuted, and needs the sizes; without initial states it needs one transition per person at time 0"
  },
  {
   "property": "C127",
   "status": "partial",
   "theorems": [
    "Demod.C127_mask",
    "Demod.C127_same_states_partial",
    "Demod.C127_counterexample"
   ],
   "note": "exact mask; the states are kept when the sizes are given; with a deduced number of times the array can shrink (C127_full is refuted)"
  },
  {
   "property": "C128",
   "status": "proved",
   "theorems": [
    "Demod.C128_accepts",
    "Demod.C128_matrices"
   ],
   "note": "the index list is read as a tuple of index arrays, as numpy before 1.23 does"
  },
  {
   "property": "C129",
   "status": "partial",
   "theorems": [
    "Demod.C129_accepts",
    "Demod.C129_refuses",
    "Demod.C129_appliances_partial",
    "Demod.C129_named_sheets_partial",
    "Demod.C129_all_columns_partial",
    "Demod.C129_counterexample",
    "Demod.C129_empty_is_yes_counterexample"
   ],
   "note": "The exact content of the dictionary and the accepted sheets are proved for every sheet. That no column is lost holds if the labels differ up to spaces, and is refuted otherwise; an empty cell of a column of yes and no is read as yes."
  },
  {
   "property": "C130",
   "status": "partial",
   "theorems": [
    "Demod.C130_targets",
    "Demod.C130_refuses",
    "Demod.C130_simulated_partial",
    "Demod.C130_own_row_partial",
    "Demod.C130_counterexample"
   ],
   "note": "What each appliance gets is proved for every sheet whose types are not named like copies of another type. Each appliance gets the target of its own row if the types are distinct; refuted for two appliances of one type, as in the file that comes with the package: the first one gets the target of the last and the others 0."
  },
  {
   "property": "C131",
   "status": "partial",
   "theorems": [
    "Demod.C131_households_partial",
    "Demod.C131_refuses",
    "Demod.C131_secondary_partial",
    "Demod.C131_counterexample"
   ],
   "note": "Proved for diaries without secondary states, and with secondary states if no time step has both a vanished primary and a vanished secondary state. Refuted otherwise: the transitions are attributed to the household of another person."
  },
  {
   "property": "C132",
   "status": "proved",
   "theorems": [
    "Demod.C132_penetration",
    "Demod.C132_installed",
    "Demod.C132_power",
    "Demod.C132_sampled"
   ],
   "note": "The model has the variance in place of its square root."
  },
  {
   "property": "C133",
   "status": "partial",
   "theorems": [
    "Demod.C133_example_simulator_partial",
    "Demod.C133_example_simulator_total",
    "Demod.C133_time_aware_4am_partial",
    "Demod.C133_time_aware_random_partial",
    "Demod.C133_time_aware_total",
    "Demod.C133_counterexample",
    "Demod.C133_full_false"
   ],
   "note": "Everything proved for every history but the bounds: nothing keeps the occupants between 0 and max_residents (C133_full is refuted), and a random start never reaches max_residents."
  },
  {
   "property": "C134",
   "status": "partial",
   "theorems": [
    "Demod.C134_attribution",
    "Demod.C134_simulation_partial",
    "Demod.C134_arguments_counterexample",
    "Demod.C134_refuses",
    "Demod.C134_full_false"
   ],
   "note": "Attribution, schedules and independence of the households are proved for all draws and histories, for a simulator created without optional arguments. The last sentence is false: with any optional argument at all the constructor raises an error (C134_arguments_counterexample), so C134_full is refuted."
  },
  {
   "property": "C135",
   "status": "partial",
   "theorems": [
    "Demod.C135_closed_form_partial",
    "Demod.C135_recursion_partial",
    "Demod.C135_stable",
    "Demod.C135_autoregressive",
    "Demod.C135_moving_average",
    "Demod.C135_arma_iff",
    "Demod.C135_counterexample",
    "Demod.C135_full_false"
   ],
   "note": "Closed form and stability are proved for all coefficients and draws. The process is not ARMA(1,1): the recursion continues from the autoregressive part instead of the process itself, so the noise of two days ago is missing, weighted with both coefficients; it is ARMA(1,1) iff one coefficient is zero, which is not so for CREST (C135_full is refuted)."
  },
  {
   "property": "C136",
   "status": "proved",
   "theorems": [
    "Demod.C136_set_points",
    "Demod.C136_monotone",
    "Demod.C136_start",
    "Demod.C136_bands"
   ],
   "note": "Rationals instead of floats: the cumulated shares end at exactly 1."
  },
  {
   "property": "C137",
   "status": "partial",
   "theorems": [
    "Demod.C137_messages",
    "Demod.C137_refusals_partial",
    "Demod.C137_counterexample",
    "Demod.C137_full_false"
   ],
   "note": "False for two requests: the German Fisher lighting gives one argument to a template with two fields (IndexError), the CREST population types give positional arguments to named fields (KeyError). Proved for the others."
  }
 ]
}