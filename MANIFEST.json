{
 "claims": [
  {
   "property": "C01",
   "status": "proved",
   "theorems": [
    "Feedx.C01_constructor_accepts_iff",
    "Feedx.C01_constructor_only_raises_valueError",
    "Feedx.C01_constructor_keeps_parameters"
   ],
   "note": ""
  },
  {
   "property": "C02",
   "status": "proved",
   "theorems": [
    "Feedx.C02_item_counts"
   ],
   "note": ""
  },
  {
   "property": "C03",
   "status": "proved",
   "theorems": [
    "Feedx.C03_yaml_round_trip"
   ],
   "note": ""
  },
  {
   "property": "C04",
   "status": "proved",
   "theorems": [
    "Feedx.C04_load_only_consistent",
    "Feedx.C04_stored_counts_decide",
    "Feedx.C04_inconsistent_counts_raise"
   ],
   "note": ""
  },
  {
   "property": "C05",
   "status": "proved",
   "theorems": [
    "Feedx.C05_design_id_ignores_salt",
    "Feedx.C05_same_arguments_same_id"
   ],
   "note": ""
  },
  {
   "property": "C06",
   "status": "proved",
   "theorems": [
    "Feedx.C06_hashed_text_separates_designs",
    "Feedx.C06_design_id_separates_designs"
   ],
   "note": ""
  },
  {
   "property": "C07",
   "status": "proved",
   "theorems": [
    "Feedx.C07_salt_required",
    "Feedx.C07_coinflip_is_digest_parity",
    "Feedx.C07_depends_only_on_salted_id"
   ],
   "note": ""
  },
  {
   "property": "C08",
   "status": "proved",
   "theorems": [
    "Feedx.C08_printed_washout_weeks"
   ],
   "note": ""
  },
  {
   "property": "C09",
   "status": "proved",
   "theorems": [
    "Feedx.C09_regular_labels",
    "Feedx.C09_column_errors",
    "Feedx.C09_labelling_returns"
   ],
   "note": ""
  },
  {
   "property": "C10",
   "status": "proved",
   "theorems": [
    "Feedx.C10_crossover_labels",
    "Feedx.C10_crossover_periods_contiguous"
   ],
   "note": ""
  },
  {
   "property": "C11",
   "status": "proved",
   "theorems": [
    "Feedx.C11_crossover_period_lengths"
   ],
   "note": ""
  },
  {
   "property": "C12",
   "status": "proved",
   "theorems": [
    "Feedx.C12_start_is_first_labelled_date",
    "Feedx.C12_drawn_dates_match_labels"
   ],
   "note": ""
  },
  {
   "property": "C13",
   "status": "proved",
   "theorems": [
    "Feedx.C13_values_are_weekly_averages",
    "Feedx.C13_index_is_items_with_labelled_rows",
    "Feedx.C13_unlabelled_rows_irrelevant"
   ],
   "note": ""
  },
  {
   "property": "C14",
   "status": "proved",
   "theorems": [
    "Feedx.C14_row_order_irrelevant"
   ],
   "note": ""
  },
  {
   "property": "C15",
   "status": "partial",
   "theorems": [
    "Feedx.C15_caller_frame_unchanged_partial",
    "Feedx.C15_caller_frame_unchanged_false"
   ],
   "note": "The code violates the property on the KeyError path (no row in the test weeks): the period column stays in the caller's frame and a retry raises ValueError. Proved for every other outcome."
  },
  {
   "property": "C16",
   "status": "proved",
   "theorems": [
    "Feedx.C16_accepts_iff",
    "Feedx.C16_trims_exactly_the_extremes"
   ],
   "note": ""
  },
  {
   "property": "C17",
   "status": "proved",
   "theorems": [
    "Feedx.C17_statistics_ignore_order_and_ties"
   ],
   "note": ""
  },
  {
   "property": "C18",
   "status": "proved",
   "theorems": [
    "Feedx.C18_winsorized_statistics"
   ],
   "note": ""
  },
  {
   "property": "C19",
   "status": "proved",
   "theorems": [
    "Feedx.C19_no_trimming_ordinary_statistics"
   ],
   "note": ""
  },
  {
   "property": "C20",
   "status": "proved",
   "theorems": [
    "Feedx.C20_shift_and_scale"
   ],
   "note": ""
  },
  {
   "property": "C21",
   "status": "proved",
   "theorems": [
    "Feedx.C21_cov_is_a_covariance",
    "Feedx.C21_cov_is_bilinear"
   ],
   "note": ""
  },
  {
   "property": "C22",
   "status": "proved",
   "theorems": [
    "Feedx.C22_cuped_without_trimming",
    "Feedx.C22_cuped_returns"
   ],
   "note": ""
  },
  {
   "property": "C23",
   "status": "proved",
   "theorems": [
    "Feedx.C23_cuped_with_trimming",
    "Feedx.C23_trimmed_adjustment"
   ],
   "note": ""
  },
  {
   "property": "C24",
   "status": "proved",
   "theorems": [
    "Feedx.C24_covariate_units_irrelevant",
    "Feedx.C24_metric_shift"
   ],
   "note": ""
  },
  {
   "property": "C25",
   "status": "proved",
   "theorems": [
    "Feedx.C25_p_values_are_coherent",
    "Feedx.C25_no_variation",
    "Feedx.C25_unknown_alternative"
   ],
   "note": ""
  },
  {
   "property": "C26",
   "status": "partial",
   "theorems": [
    "Feedx.C26_independent_test",
    "Feedx.C26_paired_test_partial",
    "Feedx.C26_paired_test_false"
   ],
   "note": "The code violates the property for the paired test when one sample is constant (or a ratio has a zero mean): the interval is [nan, nan] while the p-value is an ordinary number. Proved the counterexample, the full property for the independent test, and the paired test whenever its interval is not nan."
  },
  {
   "property": "C27",
   "status": "proved",
   "theorems": [
    "Feedx.C27_extreme_levels",
    "Feedx.C27_absolute_interval"
   ],
   "note": ""
  },
  {
   "property": "C28",
   "status": "proved",
   "theorems": [
    "Feedx.C28_swapping_samples_mirrors_result"
   ],
   "note": ""
  },
  {
   "property": "C29",
   "status": "proved",
   "theorems": [
    "Feedx.C29_sample_order_irrelevant",
    "Feedx.C29_shift_and_scale"
   ],
   "note": ""
  },
  {
   "property": "C30",
   "status": "partial",
   "theorems": [
    "Feedx.C30_two_sided_interval",
    "Feedx.C30_constant_sample_false",
    "Feedx.C30_interval_uses_reported_standard_error_partial",
    "Feedx.C30_nonconstant_samples"
   ],
   "note": "Fails for constant samples (correlation 0/0, see C26): C30_constant_sample_false, for every constant sample and level. C30_two_sided_interval is exact for plain two-sided tests: the interval is built from the reported standard error unless a winsorized sample is constant, and is [nan, nan] then. Proved for all other samples, plain and ratio metrics."
  },
  {
   "property": "C31",
   "status": "partial",
   "theorems": [
    "Feedx.C31_never_below_minus_100_percent",
    "Feedx.C31_contains_estimate_partial",
    "Feedx.C31_contains_estimate_false"
   ],
   "note": "The -100% limit is proved for all inputs. That the interval contains the estimate is false for strongly correlated samples with an uncertain control mean (counterexample proved); proved when the control mean is significantly away from zero or the samples are not too strongly correlated (e.g. independent)."
  },
  {
   "property": "C32",
   "status": "proved",
   "theorems": [
    "Feedx.C32_relative_interval_is_fieller_set",
    "Feedx.C32_agrees_with_t_test"
   ],
   "note": ""
  },
  {
   "property": "C33",
   "status": "partial",
   "theorems": [
    "Feedx.C33_units_irrelevant_partial",
    "Feedx.C33_false"
   ],
   "note": "The code compares variances with the absolute tolerance 1e-8 (np.isclose), so changing units can turn an infinite upper bound into one below the lower bound (counterexample proved). Proved whenever the tolerance is not crossed or the control mean is significantly away from zero."
  },
  {
   "property": "C34",
   "status": "partial",
   "theorems": [
    "Feedx.C34_independent_test_false",
    "Feedx.C34_tests_return_partial",
    "Feedx.C34_ratio_tests_return"
   ],
   "note": "The independent test of a plain metric raises ZeroDivisionError for a zero control mean (counterexample proved, with the exact condition). Proved for the paired test and for ratio metrics."
  },
  {
   "property": "C35",
   "status": "proved",
   "theorems": [
    "Feedx.C35_extreme_powers",
    "Feedx.C35_mde_positive_and_monotone",
    "Feedx.C35_power_calculations",
    "Feedx.C35_unknown_alternative"
   ],
   "note": ""
  },
  {
   "property": "C36",
   "status": "proved",
   "theorems": [
    "Feedx.C36_equal_groups_agree",
    "Feedx.C36_welch_bounds"
   ],
   "note": ""
  },
  {
   "property": "C37",
   "status": "proved",
   "theorems": [
    "Feedx.C37_ratio_variance",
    "Feedx.C37_paired_ratio_variance"
   ],
   "note": ""
  },
  {
   "property": "C38",
   "status": "partial",
   "theorems": [
    "Feedx.C38_crossover_pairs_stored",
    "Feedx.C38_crossover_pairs_partial",
    "Feedx.C38_crossover_pairs_ratio_stored",
    "Feedx.C38_crossover_pairs_ratio_partial",
    "Feedx.C38_period_effects_cancel",
    "Feedx.C38_crossover_pairs_false"
   ],
   "note": "The code violates the property for integer metrics (at-least-one metrics): when all period-1 averages are whole, period-2 averages lose their fractions while the arrays are rearranged (C38_crossover_pairs_false). C38_crossover_pairs_stored and C38_crossover_pairs_ratio_stored say what is paired in every case, C38_crossover_pairs_partial and C38_crossover_pairs_ratio_partial that these are the items' own values unless fractions are lost. C38_period_effects_cancel holds as stated."
  },
  {
   "property": "C39",
   "status": "proved",
   "theorems": [
    "Feedx.C39_regular_split",
    "Feedx.C39_regular_split_ratio"
   ],
   "note": "The values are stated for metrics that are not constant in an untrimmed pretest; for those see C124."
  },
  {
   "property": "C40",
   "status": "partial",
   "theorems": [
    "Feedx.C40_design_alpha_partial",
    "Feedx.C40_design_alpha_false"
   ],
   "note": "The code violates the property: the analysis never passes the design's alpha to the tests, so every result is computed at the default level 0.05. Proved the counterexample (a creatable design with alpha 0.1) and that the reported level is always 0.05, hence the design's own level exactly when that is 0.05."
  },
  {
   "property": "C41",
   "status": "proved",
   "theorems": [
    "Feedx.C41_metrics_independent",
    "Feedx.C41_rows_are_single_analyses"
   ],
   "note": ""
  },
  {
   "property": "C42",
   "status": "proved",
   "theorems": [
    "Feedx.C42_fill_returns",
    "Feedx.C42_grid_complete"
   ],
   "note": ""
  },
  {
   "property": "C43",
   "status": "proved",
   "theorems": [
    "Feedx.C43_rows_kept_zeros_added",
    "Feedx.C43_idempotent",
    "Feedx.C43_totals_unchanged"
   ],
   "note": ""
  },
  {
   "property": "C44",
   "status": "partial",
   "theorems": [
    "Feedx.C44_nulls_reported_false",
    "Feedx.C44_nulls_reported_partial"
   ],
   "note": "The code violates the property: missing metric values are filled with zero before validation. Proved the counterexample, and that the validation functions report every missing value that reaches them."
  },
  {
   "property": "C45",
   "status": "proved",
   "theorems": [
    "Feedx.C45_weeks_follow_calendar",
    "Feedx.C45_returns"
   ],
   "note": ""
  },
  {
   "property": "C46",
   "status": "proved",
   "theorems": [
    "Feedx.C46_complete_weeks",
    "Feedx.C46_all_seven_days"
   ],
   "note": ""
  },
  {
   "property": "C47",
   "status": "partial",
   "theorems": [
    "Feedx.C47_weekly_unchanged_partial",
    "Feedx.C47_mixed_refused",
    "Feedx.C47_single_date_false"
   ],
   "note": "The code violates the property for weekly data with a single date: no spacing can be measured, the date is taken for a daily one and its rows are dropped as an incomplete week (counterexample proved). Proved for weekly data with at least two dates, and that mixed spacings are refused."
  },
  {
   "property": "C48",
   "status": "proved",
   "theorems": [
    "Feedx.C48_whole_items",
    "Feedx.C48_limits"
   ],
   "note": ""
  },
  {
   "property": "C49",
   "status": "partial",
   "theorems": [
    "Feedx.C49_historical_partial",
    "Feedx.C49_experiment_partial",
    "Feedx.C49_skipped_check_raises_false"
   ],
   "note": "Proved for all data on which the checks come to a verdict (columns present and typed, at least one row, one week id per date). The full property fails: a check that raises by itself (dates not timestamps, empty data) raises even if it is skipped (counterexample proved)."
  },
  {
   "property": "C50",
   "status": "proved",
   "theorems": [
    "Feedx.C50_unknown_names"
   ],
   "note": ""
  },
  {
   "property": "C51",
   "status": "partial",
   "theorems": [
    "Feedx.C51_missing_rows_pass_false",
    "Feedx.C51_one_row_each_partial"
   ],
   "note": "The code violates the property: only the number of items per date is compared, so dates with different items pass (counterexample proved). Proved: at most one row per item and date, equal item counts, and the full statement if some date has a row for every item."
  },
  {
   "property": "C52",
   "status": "proved",
   "theorems": [
    "Feedx.C52_coinflip_check",
    "Feedx.C52_no_salt"
   ],
   "note": ""
  },
  {
   "property": "C53",
   "status": "proved",
   "theorems": [
    "Feedx.C53_date_range"
   ],
   "note": ""
  },
  {
   "property": "C54",
   "status": "proved",
   "theorems": [
    "Feedx.C54_indicators",
    "Feedx.C54_returns"
   ],
   "note": ""
  },
  {
   "property": "C55",
   "status": "partial",
   "theorems": [
    "Feedx.C55_trims_the_extremes_partial",
    "Feedx.C55_illegal_fractions_raise",
    "Feedx.C55_with_missing_values",
    "Feedx.C55_missing_values_false"
   ],
   "note": "Count claim false when ordering values are missing: those rows are dropped as well unless nothing is trimmed (C55_missing_values_false); C55_with_missing_values says exactly what is returned for all data. Proved in full for complete data (up to 2^51 rows)."
  },
  {
   "property": "C56",
   "status": "proved",
   "theorems": [
    "Feedx.C56_counts_agree"
   ],
   "note": ""
  },
  {
   "property": "C57",
   "status": "proved",
   "theorems": [
    "Feedx.C57_each_eligible_item_once",
    "Feedx.C57_wrong_arguments",
    "Feedx.C57_returns"
   ],
   "note": ""
  },
  {
   "property": "C58",
   "status": "proved",
   "theorems": [
    "Feedx.C58_salt_kept",
    "Feedx.C58_salt_set",
    "Feedx.C58_assignments_never_change"
   ],
   "note": ""
  },
  {
   "property": "C59",
   "status": "partial",
   "theorems": [
    "Feedx.C59_retry_repeats_false",
    "Feedx.C59_mismatch_is_permanent_false",
    "Feedx.C59_retry_without_salt_partial"
   ],
   "note": "False: the salt is stored before the ratio check, so a retry repeats the failure (C59_mismatch_is_permanent_false, C59_retry_repeats_false). Proved for a caller that clears the salt first."
  },
  {
   "property": "C60",
   "status": "proved",
   "theorems": [
    "Feedx.C60_own_assignment_passes"
   ],
   "note": ""
  },
  {
   "property": "C61",
   "status": "proved",
   "theorems": [
    "Feedx.C61_exactly_assigned_items",
    "Feedx.C61_row_counts",
    "Feedx.C61_values_kept"
   ],
   "note": ""
  },
  {
   "property": "C62",
   "status": "proved",
   "theorems": [
    "Feedx.C62_weekly_panel"
   ],
   "note": ""
  },
  {
   "property": "C63",
   "status": "proved",
   "theorems": [
    "Feedx.C63_requested_columns",
    "Feedx.C63_bad_requests"
   ],
   "note": ""
  },
  {
   "property": "C64",
   "status": "proved",
   "theorems": [
    "Feedx.C64_exactly_the_wanted_designs",
    "Feedx.C64_members",
    "Feedx.C64_returns_iff"
   ],
   "note": ""
  },
  {
   "property": "C65",
   "status": "partial",
   "theorems": [
    "Feedx.C65_traditional_only_false",
    "Feedx.C65_type_error_false",
    "Feedx.C65_with_washout_partial"
   ],
   "note": "The code violates this: without washout weeks it raises TypeError instead of the documented behaviour, even for traditional-only candidates. Proved: concrete counterexamples (C65_traditional_only_false, C65_type_error_false) and the property whenever washout weeks are given (C65_with_washout_partial)."
  },
  {
   "property": "C66",
   "status": "proved",
   "theorems": [
    "Feedx.C66_windows_inside_the_data",
    "Feedx.C66_earliest_start"
   ],
   "note": ""
  },
  {
   "property": "C67",
   "status": "proved",
   "theorems": [
    "Feedx.C67_working_columns",
    "Feedx.C67_bootstrap"
   ],
   "note": ""
  },
  {
   "property": "C68",
   "status": "partial",
   "theorems": [
    "Feedx.C68_random_assignment_partial",
    "Feedx.C68_false"
   ],
   "note": "The code renames metrics whose name contains a double underscore or starts or ends with an underscore when it flattens and restores the column names. C68_false is a concrete counterexample; C68_random_assignment_partial proves the property for every table whose metric names have neither. The consequence for validating a design is C86_metric_name_error."
  },
  {
   "property": "C69",
   "status": "proved",
   "theorems": [
    "Feedx.C69_effect"
   ],
   "note": ""
  },
  {
   "property": "C70",
   "status": "partial",
   "theorems": [
    "Feedx.C70_regular_partial",
    "Feedx.C70_crossover_trimmed_partial",
    "Feedx.C70_crossover_partial",
    "Feedx.C70_cuped_partial",
    "Feedx.C70_false"
   ],
   "note": "The change of the estimate equals the planted effect exactly without CUPED in regular designs and in trimmed crossovers. It is not exact in untrimmed crossovers with groups of different sizes, nor with CUPED when the pretest means of the groups differ; the exact factor is proved for both, and C70_false is a concrete crossover that reports 8 for an effect of 9. With CUPED the pretest values must not all be equal (C124). CUPED together with post-trimming is not covered."
  },
  {
   "property": "C71",
   "status": "proved",
   "theorems": [
    "Feedx.C71_count_checks_unreachable",
    "Feedx.C71_other_number_of_items_raises",
    "Feedx.C71_validation_has_no_count_checks",
    "Feedx.C71_estimation_succeeds"
   ],
   "note": ""
  },
  {
   "property": "C72",
   "status": "proved",
   "theorems": [
    "Feedx.C72_results_in_order",
    "Feedx.C72_presence",
    "Feedx.C72_validating_first_raises",
    "Feedx.C72_failed_calls_keep_results"
   ],
   "note": ""
  },
  {
   "property": "C73",
   "status": "proved",
   "theorems": [
    "Feedx.C73_none_iff_not_validated",
    "Feedx.C73_true_iff_five_checks",
    "Feedx.C73_without_simulations_raises"
   ],
   "note": ""
  },
  {
   "property": "C74",
   "status": "proved",
   "theorems": [
    "Feedx.C74_complete_funnel_panel",
    "Feedx.C74_returns_iff_legal"
   ],
   "note": ""
  },
  {
   "property": "C75",
   "status": "partial",
   "theorems": [
    "Feedx.C75_lognormal_moments",
    "Feedx.C75_beta_mean_partial",
    "Feedx.C75_beta_false"
   ],
   "note": "Proved for the lognormal sampler against the real lognormal distribution. For the beta sampler the mean is right, but the standard deviation is not the requested one (false by a witness with the default click-through rate); it is right exactly if sqrt(mean(1-mean)) is the golden ratio times the requested one."
  },
  {
   "property": "C76",
   "status": "proved",
   "theorems": [
    "Feedx.C76_scales_exactly_the_treated_rows",
    "Feedx.C76_returns"
   ],
   "note": ""
  },
  {
   "property": "C77",
   "status": "partial",
   "theorems": [
    "Feedx.C77_drawn_iff_partial",
    "Feedx.C77_finite_bounds_partial",
    "Feedx.C77_geometry_partial",
    "Feedx.C77_infinite_primary_bound_false",
    "Feedx.C77_reachable_result_false",
    "Feedx.C77_results_partial",
    "Feedx.C77_no_relative_effect_false",
    "Feedx.C77_significant_control_partial"
   ],
   "note": "The drawing rule, the finite bounds and the geometry are proved for the metrics that are drawn, and that results with significantly positive control averages are always drawn. The property fails when the primary metric has an infinite bound (counterexamples proved, one of them reached by the t-test), and when no metric of the table has a relative effect (C77_no_relative_effect_false)."
  },
  {
   "property": "C78",
   "status": "proved",
   "theorems": [
    "Feedx.C78_lorenz"
   ],
   "note": ""
  },
  {
   "property": "C79",
   "status": "proved",
   "theorems": [
    "Feedx.C79_keeps_average",
    "Feedx.C79_item_without_pretest",
    "Feedx.C79_returns"
   ],
   "note": ""
  },
  {
   "property": "C80",
   "status": "partial",
   "theorems": [
    "Feedx.C80_p_value_text",
    "Feedx.C80_marked_iff_significant",
    "Feedx.C80_row_colours",
    "Feedx.C80_text_and_colour_agree",
    "Feedx.C80_nan_p_value_false"
   ],
   "note": "Proved for every p-value that is a number. A missing p-value (all differences equal to zero, 0/0 statistic) is shown as p>0.99: C80_nan_p_value_false."
  },
  {
   "property": "C81",
   "status": "partial",
   "theorems": [
    "Feedx.C81_listed_columns_partial",
    "Feedx.C81_returns",
    "Feedx.C81_washout_stays_false"
   ],
   "note": "The code does not list crossover_washout_weeks, although it is a design attribute, so a constant washout stays a column (counterexample proved). Proved for all the attributes the code lists, with the exact return condition."
  },
  {
   "property": "C82",
   "status": "partial",
   "theorems": [
    "Feedx.C82_equal_designs_same_id_false",
    "Feedx.C82_equal_designs_same_id_partial"
   ],
   "note": "The code violates the property: 1 and 1.0 are equal parameter values but print differently. Proved the counterexample and the property for parameters written with the same numeric type."
  },
  {
   "property": "C83",
   "status": "proved",
   "theorems": [
    "Feedx.C83_independent_test_reports",
    "Feedx.C83_paired_test_reports"
   ],
   "note": ""
  },
  {
   "property": "C84",
   "status": "proved",
   "theorems": [
    "Feedx.C84_needed_periods"
   ],
   "note": ""
  },
  {
   "property": "C85",
   "status": "proved",
   "theorems": [
    "Feedx.C85_calendar_columns",
    "Feedx.C85_only_window_dates",
    "Feedx.C85_outside_dates_raise"
   ],
   "note": ""
  },
  {
   "property": "C86",
   "status": "partial",
   "theorems": [
    "Feedx.C86_metric_name_never",
    "Feedx.C86_metric_name_error",
    "Feedx.C86_metric_name_iff",
    "Feedx.C86_metric_name_false",
    "Feedx.C86_validation_succeeds_partial",
    "Feedx.C86_cuped_partial",
    "Feedx.C86_cuped_false"
   ],
   "note": "Proved for every crossover design and every regular design without pretest weeks, with any trimming. For regular designs with pretest weeks (CUPED), also if the estimated effect is nan: it returns or raises ZeroDivisionError (average adjusted control value exactly zero); C86_cuped_false shows that the error does occur on positive data. The primary metric must have an ordinary name: if it contains a double underscore or starts or ends with an underscore, validation never returns (C86_metric_name_never); on usable data it raises KeyError (C86_metric_name_error, also for the empty name), although estimating succeeds (C86_metric_name_false); for crossover designs the ordinary names are exactly those that work (C86_metric_name_iff)."
  },
  {
   "property": "C87",
   "status": "proved",
   "theorems": [
    "Feedx.C87_cumulative_distribution"
   ],
   "note": ""
  },
  {
   "property": "C88",
   "status": "proved",
   "theorems": [
    "Feedx.C88_metric_history"
   ],
   "note": ""
  },
  {
   "property": "C89",
   "status": "partial",
   "theorems": [
    "Feedx.C89_column_names_false"
   ],
   "note": "The code violates the property: the date column is read through a fixed name. Counterexample proved."
  },
  {
   "property": "C90",
   "status": "partial",
   "theorems": [
    "Feedx.C90_returns",
    "Feedx.C90_rows",
    "Feedx.C90_numbers",
    "Feedx.C90_thousands",
    "Feedx.C90_no_relative_effect_false",
    "Feedx.C90_same_name_false"
   ],
   "note": "Proved for every table with different metric names and with a relative effect (or without the relative columns). The code raises TypeError with the default options when no metric has a relative effect (C90_no_relative_effect_false), and KeyError when two results have the same name (C90_same_name_false). The `+,.kg` texts of the absolute columns are a parameter."
  },
  {
   "property": "C91",
   "status": "partial",
   "theorems": [
    "Feedx.C91_level_rounded_away_false",
    "Feedx.C91_whole_percent_partial"
   ],
   "note": "Levels that are not whole percents are rounded away (0.995 and 0.999 are both shown as 100%): counterexample proved, and the property for whole percents."
  },
  {
   "property": "C92",
   "status": "proved",
   "theorems": [
    "Feedx.C92_entries",
    "Feedx.C92_design_entries",
    "Feedx.C92_validated_entries",
    "Feedx.C92_without_simulations_raises",
    "Feedx.C92_salt_not_shown"
   ],
   "note": ""
  },
  {
   "property": "C93",
   "status": "proved",
   "theorems": [
    "Feedx.C93_rows",
    "Feedx.C93_returns"
   ],
   "note": ""
  },
  {
   "property": "C94",
   "status": "partial",
   "theorems": [
    "Feedx.C94_cells",
    "Feedx.C94_displays_iff",
    "Feedx.C94_analyses_partial",
    "Feedx.C94_unvalidated_false",
    "Feedx.C94_same_design_false"
   ],
   "note": "The code violates the property: a table none of whose analyses has been validated raises TypeError when displayed with the default options (None % formatting), and a table with two analyses of the same design raises KeyError (C94_same_design_false). Proved the counterexamples, the exact condition under which a table can be displayed, and all texts and colours of every table that can."
  },
  {
   "property": "C95",
   "status": "partial",
   "theorems": [
    "Feedx.C95_printed",
    "Feedx.C95_settings",
    "Feedx.C95_crossover",
    "Feedx.C95_items",
    "Feedx.C95_left_out_partial",
    "Feedx.C95_top_mentioned_false",
    "Feedx.C95_numbers_read_back"
   ],
   "note": "Proved: every design can be printed and starts with its id; all printed settings, counts and washout weeks are those of the design. The last part is violated: a requested top (bottom) trim of less than one item is described as items left out if items are left out at the other end (counterexample); the exact condition is proved. The salt, id and fraction texts use the printing contracts of DESIGN.md section 2."
  },
  {
   "property": "C96",
   "status": "partial",
   "theorems": [
    "Feedx.C96_totals_partial",
    "Feedx.C96_unknown_metric",
    "Feedx.C96_accepted",
    "Feedx.C96_negative_refused",
    "Feedx.C96_week_id_false"
   ],
   "note": "Proved: usable raw data is accepted with exactly the stated columns, weeks, items and totals; negative totals and unknown metrics raise ValueError. The last sentence is violated by another metric whose column is called \"week_id\": its values are silently replaced by the week numbers (counterexample); it is proved for all other metrics."
  },
  {
   "property": "C97",
   "status": "proved",
   "theorems": [
    "Feedx.C97_estimate_repeatable",
    "Feedx.C97_validation_repeatable",
    "Feedx.C97_repeatable_after_returned_calls",
    "Feedx.C97_estimate_not_random",
    "Feedx.C97_effect_settled",
    "Feedx.C97_gap_blocks_later_calls"
   ],
   "note": ""
  },
  {
   "property": "C98",
   "status": "partial",
   "theorems": [
    "Feedx.C98_needs_validation",
    "Feedx.C98_shows_last_validation",
    "Feedx.C98_without_simulations_raises",
    "Feedx.C98_effect_line_partial",
    "Feedx.C98_effect_line_settled_partial",
    "Feedx.C98_effect_line_false"
   ],
   "note": "Proved: the refusal, the shown values and the zero-simulation error, for all histories. The line at the planted effect is proved when no estimate follows the validation, and for all histories on usable data when the design trims no items before the experiment. It is violated by a later estimate with a first trimming: the line is then at the newer estimate (counterexample with a positive planted effect and a line at zero). Errors raised by matplotlib while binning are not modelled."
  },
  {
   "property": "C99",
   "status": "proved",
   "theorems": [
    "Feedx.C99_points",
    "Feedx.C99_zero_in_band",
    "Feedx.C99_cuped",
    "Feedx.C99_row_order",
    "Feedx.C99_swap_groups",
    "Feedx.C99_one_group",
    "Feedx.C99_equal_pretest",
    "Feedx.C99_returns",
    "Feedx.C99_cuped_returns"
   ],
   "note": "Proved over the reals for the numbers handed to matplotlib. Assignments other than 0, 1 and missing, and columns given twice, are outside the model; values of a plotted metric are finite in the theorems on the points."
  },
  {
   "property": "C100",
   "status": "proved",
   "theorems": [
    "Feedx.C100_formula",
    "Feedx.C100_returns",
    "Feedx.C100_plain",
    "Feedx.C100_cuped",
    "Feedx.C100_cuped_constant",
    "Feedx.C100_crossover"
   ],
   "note": "Proved over the reals, for power and alpha strictly between 0 and 1. C100_formula covers every estimate that returns: numbers, or nan for everything when the regression is not defined for some start week (C100_cuped_constant)."
  },
  {
   "property": "C101",
   "status": "partial",
   "theorems": [
    "Feedx.C101_regular",
    "Feedx.C101_cuped",
    "Feedx.C101_crossover",
    "Feedx.C101_post_trim_partial",
    "Feedx.C101_post_trim_false"
   ],
   "note": "Proved for one start week and designs that cut no items; false for crossover designs with post trimming (C101_post_trim_false; C101_post_trim_partial gives the exact relation when no item is cut). Missing: designs that cut items, where trimming is done per group in the analysis and jointly in the estimate, so no exact relation can hold. C101_post_trim_partial assumes that the stored averages keep their fractions (see C38). C101_cuped is about estimates that are numbers (not nan, see C100_cuped_constant)."
  },
  {
   "property": "C102",
   "status": "partial",
   "theorems": [
    "Feedx.C102_ratio_partial",
    "Feedx.C102_paired_partial",
    "Feedx.C102_paired_ratio_partial",
    "Feedx.C102_ratio_false",
    "Feedx.C102_paired_false"
   ],
   "note": "Proved when nothing is trimmed or the cut is clean (different items with the same trimming key are all well inside or all cut). False otherwise: items with equal numerators (equal differences) at the cut are chosen by their position, so for every sorting routine two orders of the same items give different results (C102_ratio_false, C102_paired_false)."
  },
  {
   "property": "C103",
   "status": "partial",
   "theorems": [
    "Feedx.C103_crossover_analysed",
    "Feedx.C103_regular_analysed_partial",
    "Feedx.C103_prepared_is_experiment_data",
    "Feedx.C103_prepared_crossover_analysed",
    "Feedx.C103_prepared_refused_false",
    "Feedx.C103_correct_crossover_analysed",
    "Feedx.C103_correct_regular_analysed_partial",
    "Feedx.C103_groups_large",
    "Feedx.C103_prepared_regular_analysed_partial",
    "Feedx.C103_positive_regular_analysed"
   ],
   "note": "The code violates the property: the prepared data has a column time_period, which the analysis refuses with ValueError (C103_prepared_refused_false). Proved for crossover designs once that column is dropped, for every metric list, also from the raw tables of a correctly run experiment (C103_correct_crossover_analysed). For regular designs: with the binomial test of C105 the groups are always large enough, and the analysis returns or raises ZeroDivisionError (C34); without pretest weeks it always returns if the control items have positive totals."
  },
  {
   "property": "C104",
   "status": "proved",
   "theorems": [
    "Feedx.C104_correct_run_accepted",
    "Feedx.C104_own_assignment_accepted"
   ],
   "note": "Proved for every created design and every table; the p-value of the binomial test is a parameter and assumed to be above the threshold of the check."
  },
  {
   "property": "C105",
   "status": "proved",
   "theorems": [
    "Feedx.C105_balanced_passes",
    "Feedx.C105_groups_exchanged",
    "Feedx.C105_less_balanced_refused",
    "Feedx.C105_small_group_refused",
    "Feedx.C105_false_alarms",
    "Feedx.C105_imbalance_refused"
   ],
   "note": "Proved for the binomial test as SciPy computes it, in exact arithmetic. The bound 10^15 of the last claim comes from SciPy's relative tolerance of 1e-7 for equally likely outcomes."
  },
  {
   "property": "C106",
   "status": "proved",
   "theorems": [
    "Feedx.C106_rate_within_alpha_passes",
    "Feedx.C106_enough_power_passes",
    "Feedx.C106_fewer_false_positives",
    "Feedx.C106_more_power",
    "Feedx.C106_all_false_positives",
    "Feedx.C106_no_power",
    "Feedx.C106_false_positive_alarms",
    "Feedx.C106_power_alarms",
    "Feedx.C106_excess_fails",
    "Feedx.C106_missing_power_fails",
    "Feedx.C106_detected_eventually"
   ],
   "note": "Proved for the one-sided binomial tests as SciPy computes them, in exact arithmetic. The first two claims are proved for alpha up to 1/2 and power from 1/2, as the property says."
  },
  {
   "property": "C107",
   "status": "proved",
   "theorems": [
    "Feedx.C107_ab_check_is_interval",
    "Feedx.C107_aa_check_is_interval",
    "Feedx.C107_right_on_average",
    "Feedx.C107_missing_estimate_fails",
    "Feedx.C107_single_simulation_fails",
    "Feedx.C107_identical_estimates_fail",
    "Feedx.C107_units"
   ],
   "note": "Proved for the one-sample t-test as SciPy computes it, in exact arithmetic, for every t distribution meeting TDist. A check with identical estimates fails even if they are exactly right."
  },
  {
   "property": "C108",
   "status": "partial",
   "theorems": [
    "Feedx.C108_text_ids_partial",
    "Feedx.C108_missing_ids_false",
    "Feedx.C108_same_text_false"
   ],
   "note": "The code violates the property: missing ids become an item (C108_missing_ids_false, for every usable table with missing ids) and ids with the same text are merged (C108_same_text_false). Proved when every id is a text."
  },
  {
   "property": "C109",
   "status": "proved",
   "theorems": [
    "Feedx.C109_exchanging_groups",
    "Feedx.C109_exchanging_groups_ratio",
    "Feedx.C109_flipped_coins",
    "Feedx.C109_no_bias",
    "Feedx.C109_crossover_no_bias"
   ],
   "note": "The result of the exchanged table is compared when both analyses return (a regular analysis raises for a control mean of zero, see C34); the intervals when both are numbers (C30). A constant pretest is included: both results then have no numbers (C124)."
  },
  {
   "property": "C110",
   "status": "partial",
   "theorems": [
    "Feedx.C110_estimate_partial",
    "Feedx.C110_equal_groups_partial",
    "Feedx.C110_unequal_groups_false",
    "Feedx.C110_mirrored_partial",
    "Feedx.C110_ties_false"
   ],
   "note": "The code violates the property when the groups differ in size and nothing is trimmed (C110_unequal_groups_false: -4/7 becomes 1): the periods are demeaned and then moved back to the mean of the control values, which a ratio does not cancel. It also violates it when items with equal differences of the numerators, but other values, meet the cut of a trimmed crossover (C110_ties_false, stable sorting: 1 becomes -1/3). C110_estimate_partial gives the exact estimate of every untrimmed crossover in which no fraction is lost (see C38; the same is assumed in the other partial theorems); C110_mirrored_partial proves that everything reported is mirrored in all other cases: trimming with a clean cut, or equally large groups without trimming (C110_equal_groups_partial states the estimate alone)."
  },
  {
   "property": "C111",
   "status": "proved",
   "theorems": [
    "Feedx.C111_check_is_distance",
    "Feedx.C111_false_alarms",
    "Feedx.C111_closer_passes",
    "Feedx.C111_evenly_spread",
    "Feedx.C111_missing_p_value",
    "Feedx.C111_false_positive_rate",
    "Feedx.C111_far_from_uniform_fails",
    "Feedx.C111_detected_eventually",
    "Feedx.C111_wrong_rate_fails",
    "Feedx.C111_complement"
   ],
   "note": "Proved for the exact null distribution of the Kolmogorov-Smirnov statistic (SciPy's kstwo.sf without rounding), as a Lebesgue measure on the cube."
  },
  {
   "property": "C112",
   "status": "proved",
   "theorems": [
    "Feedx.C112_reordered_results",
    "Feedx.C112_reordered_simulations"
   ],
   "note": "Proved for the tests of C106, C107 and C111."
  },
  {
   "property": "C113",
   "status": "partial",
   "theorems": [
    "Feedx.C113_regular_partial",
    "Feedx.C113_coin_flips_partial",
    "Feedx.C113_crossover_partial",
    "Feedx.C113_crossover_false",
    "Feedx.C113_cuped_partial",
    "Feedx.C113_cuped_false",
    "Feedx.C113_trimmed_partial",
    "Feedx.C113_trimmed_crossover_partial",
    "Feedx.C113_no_effect_partial",
    "Feedx.C113_trimmed_false"
   ],
   "note": "Proved without post-trimming for regular experiments without pretest data (C113_regular_partial for fixed group sizes, C113_coin_flips_partial for any set of group sizes) and crossovers with equal groups (C113_crossover_partial). The code violates the property with pretest data (C113_cuped_false: with a constant effect e the average is e (n-2)/(n-1)) and for crossovers with unequal groups (C113_crossover_false); C113_cuped_partial (pretest values that are not all equal) and C113_crossover_partial give the exact averages. With post-trimming the average is the effect if all items have the same effect and each assignment's exchange is possible too (C113_trimmed_partial, C113_trimmed_crossover_partial); an effect on a single item is never seen (C113_trimmed_false: reported difference 0 for all assignments). For a treatment without effect the average is 0 and gains and losses are equally often significant, for every design (C113_no_effect_partial; with pretest data, unless the pretest is constant and untrimmed, see C124). Missing: ratio metrics, pretest data together with trimming."
  },
  {
   "property": "C114",
   "status": "partial",
   "theorems": [
    "Feedx.C114_regular_partial",
    "Feedx.C114_crossover_partial",
    "Feedx.C114_crossover_false",
    "Feedx.C114_cuped_no_effect_partial"
   ],
   "note": "Proved without post-trimming for regular experiments without pretest data (C114_regular_partial, with the exact excess). With pretest data it is proved, with equality, if there is no effect on any item (C114_cuped_no_effect_partial). The code violates the property for crossovers (C114_crossover_false); C114_crossover_partial gives the exact average for equal groups. Missing: post-trimming, pretest data with an effect, ratio metrics, crossovers with unequal groups."
  },
  {
   "property": "C115",
   "status": "partial",
   "theorems": [
    "Feedx.C115_regular",
    "Feedx.C115_crossover_stored",
    "Feedx.C115_crossover_partial",
    "Feedx.C115_raw_difference",
    "Feedx.C115_crossover_false",
    "Feedx.C115_raw_regular",
    "Feedx.C115_raw_crossover_stored",
    "Feedx.C115_raw_crossover_partial",
    "Feedx.C115_raw_totals",
    "Feedx.C115_regular_totals",
    "Feedx.C115_crossover_difference",
    "Feedx.C115_crossover_totals_partial",
    "Feedx.C115_regular_pretest_totals"
   ],
   "note": "C115_regular: the tests of every accepted regular analysis, from the rows of the analysed table; C115_raw_regular: the same from the rows of the performance data and the assignment table, for concluded experiments prepared without skipped checks. For crossovers the property is false for at-least-one metrics whose fractions are lost (C115_crossover_false): C115_crossover_stored and C115_raw_crossover_stored say what is reported for every metric, C115_crossover_partial and C115_raw_crossover_partial that it is the documented test for every metric that loses no fraction. C115_regular_totals, C115_regular_pretest_totals and C115_crossover_totals_partial: the untrimmed report in closed form; C115_crossover_difference: the untrimmed plain difference, which is right for every metric; C115_raw_totals and C115_raw_difference: from the raw tables. For crossovers with groups of different size the reported difference is smaller than the average change (see C113)."
  },
  {
   "property": "C116",
   "status": "partial",
   "theorems": [
    "Feedx.C116_time_period_false",
    "Feedx.C116_every_design_estimated_partial",
    "Feedx.C116_time_period"
   ],
   "note": "C116_every_design_estimated_partial: all candidates are estimated, with the stated statistics, from all admissible start weeks (nan if the pretest averages are all equal for a start week, see C100). Assumed beyond the English: at most 2^51 items. The full statement (C116_full) is false: accepted data whose metric column is called \"time_period\" cannot be used with any design (C116_time_period_false; C116_time_period for every such table)."
  },
  {
   "property": "C117",
   "status": "proved",
   "theorems": [
    "Feedx.C117_history",
    "Feedx.C117_validated_kept",
    "Feedx.C117_all_validated",
    "Feedx.C117_export",
    "Feedx.C117_same_export",
    "Feedx.C117_shown"
   ],
   "note": "C117_history, C117_validated_kept, C117_all_validated: any sequence of cells; C117_export: what is exported; C117_same_export: exporting again; C117_shown: the summary tables. Texts typed into the form are taken as already split into lists; the data of the study is that of the opening cell."
  },
  {
   "property": "C118",
   "status": "partial",
   "theorems": [
    "Feedx.C118_every_design_exported",
    "Feedx.C118_validation_returns_partial",
    "Feedx.C118_any_validation_partial",
    "Feedx.C118_export_returns",
    "Feedx.C118_zero_metric_false",
    "Feedx.C118_idle_items_false"
   ],
   "note": "C118_validation_returns_partial: crossover designs, and regular designs without pretest weeks on positive values, with two items left in each group. C118_any_validation_partial: with designs of any kind it returns with all results, or raises ZeroDivisionError, the latter only if some validated design is regular with pretest weeks. The full statement is false: on accepted history without any value of the metric the validation of a regular design without pretest weeks always raises ZeroDivisionError (C118_zero_metric_false, with a study of sixty items in C118_idle_items_false); with pretest weeks it also occurs for positive values (C86_cuped_false). C118_every_design_exported: every design that passes its checks, with or without items cut before the assignment, gets a table of as many items as it counts; the sample ratio test is only assumed for the kept items and the salt that is used (C118_export_returns states it for all items when none are cut)."
  },
  {
   "property": "C119",
   "status": "partial",
   "theorems": [
    "Feedx.C119_data_accepted",
    "Feedx.C119_crossover_analysed",
    "Feedx.C119_regular_analysed_partial",
    "Feedx.C119_crossover_report",
    "Feedx.C119_regular_report",
    "Feedx.C119_tables",
    "Feedx.C119_division_false"
   ],
   "note": "C119_data_accepted: the file loads as a generated design with a salt and the data is accepted; C119_crossover_analysed; C119_regular_analysed_partial: one result per metric or ZeroDivisionError, with the exact binomial test. C119_crossover_report, C119_regular_report: what the results are. C119_tables: the projection is always shown, the table of results exactly if some result has relative effects. Assumed beyond the English: at most 2^51 rows of historical data, names in the form that differ from each other and from the columns of the prepared data, more than 50 items left after an overridden trimming. The code violates the property for regular designs: a metric that is zero for all the control items makes the analysis raise (C119_division_false)."
  },
  {
   "property": "C120",
   "status": "proved",
   "theorems": [
    "Feedx.C120_columns",
    "Feedx.C120_unknown_metric",
    "Feedx.C120_left_empty"
   ],
   "note": "C120_columns, C120_unknown_metric, C120_left_empty. The assignment table has its two columns only."
  },
  {
   "property": "C121",
   "status": "partial",
   "theorems": [
    "Feedx.C121_dates",
    "Feedx.C121_table_partial",
    "Feedx.C121_last_days_missing_false"
   ],
   "note": "C121_dates, C121_table_partial: all of the statement except that the last week may be incomplete. The full statement is false: a concluded experiment is accepted with daily data that ends with the first day of the last week (C121_last_days_missing_false: 22 days of 28)."
  },
  {
   "property": "C122",
   "status": "partial",
   "theorems": [
    "Feedx.C122_experiment_data",
    "Feedx.C122_historical_data",
    "Feedx.C122_daily_history",
    "Feedx.C122_weekly_sample_false",
    "Feedx.C122_analysis",
    "Feedx.C122_report",
    "Feedx.C122_designer",
    "Feedx.C122_designer_daily"
   ],
   "note": "C122_experiment_data, C122_analysis, C122_report: the analyser, without restriction (the at-least-one metrics may not be called week_id or date, which the notebook's never are). C122_historical_data, C122_designer: the designer when all items are kept, for any cells run in any order; C122_daily_history, C122_designer_daily: daily data, whatever part of the items is kept. The full statement is false: the items kept of weekly data depend on the order of the rows (C122_weekly_sample_false)."
  },
  {
   "property": "C123",
   "status": "proved",
   "theorems": [
    "Feedx.C123_historical_data",
    "Feedx.C123_daily_history",
    "Feedx.C123_experiment_data",
    "Feedx.C123_designer",
    "Feedx.C123_designer_daily",
    "Feedx.C123_report"
   ],
   "note": "C123_experiment_data, C123_report: the analyser. C123_historical_data, C123_designer: the designer when all items are kept, for any cells run in any order; C123_daily_history, C123_designer_daily: daily data, whatever part of the items is kept. Proved in the direction that data accepted with the rows is accepted without them. For weekly data that is downsampled nothing is claimed: the order of the rows, on which the sample depends (C122), changes."
  },
  {
   "property": "C124",
   "status": "proved",
   "theorems": [
    "Feedx.C124_constant_pretest",
    "Feedx.C124_constant_pretest_ratio"
   ],
   "note": "For the analysis of one metric, plain and ratio; C103 shows that the analysis returns or raises ZeroDivisionError, the latter only for a metric without denominator, and constant_returns and constant_returns_ratio that it returns for constant pretests."
  },
  {
   "property": "C125",
   "status": "proved",
   "theorems": [
    "Feedx.C125_history",
    "Feedx.C125_performance"
   ],
   "note": "The names of columns that the assignment table has, too (item id and treatment), and of metrics that are not standard ones, are kept: they are also the names in the results. The named columns must be different ones."
  },
  {
   "property": "C126",
   "status": "proved",
   "theorems": [
    "Feedx.C126_items",
    "Feedx.C126_averages",
    "Feedx.C126_plain",
    "Feedx.C126_cuped",
    "Feedx.C126_crossover"
   ],
   "note": "Designs without trimming; with trimming, C116 gives the estimates from the items' weekly averages in the prepared data and C126_averages gives these averages from the raw rows. Study on at most 2^51 items. The weeks are counted from the first date of the raw data; days after the last complete week are not used."
  },
  {
   "property": "C127",
   "status": "proved",
   "theorems": [
    "Feedx.C127_relative_effect"
   ],
   "note": "Designs without trimming (with trimming, equal averages may be ordered differently by the unstable sort). All items asked for (fraction 1), no rows skipped. Real arithmetic: rounding of the values is not modelled."
  },
  {
   "property": "C128",
   "status": "proved",
   "theorems": [
    "Feedx.C128_report_units"
   ],
   "note": "Real arithmetic: rounding of the values is not modelled. The sort is a parameter with the contract that it gives the same order for numbers in other units. Crossovers: the column is not held as integers in either table (C115_crossover_false shows what happens then). The bounds of the relative difference are compared for regular experiments with a precise control average only (C33_false)."
  },
  {
   "property": "C129",
   "status": "proved",
   "theorems": [
    "Feedx.C129_design_units"
   ],
   "note": "Real arithmetic: rounding of the values is not modelled. The sort is a parameter with the contract that it gives the same order for numbers in other units, and the external test of means has the contract that it gives the same p-value for numbers in other units (shown for any p-value of the t statistic). The item and treatment columns are not called like a period. The random draws are the same in both studies."
  },
  {
   "property": "C130",
   "status": "proved",
   "theorems": [
    "Feedx.C130_session_units"
   ],
   "note": "Real arithmetic: rounding of the values is not modelled. The sort and the external test of means have the contracts of C129. The column of the metric is not called week_id, week_start or time_period (names that the notebook uses for its own columns). The random draws are the same in both sessions. Strengthens C127 to designs that trim, to parts of the items, to skipped checks, and to the validation, the summary and the assignment."
  },
  {
   "property": "C131",
   "status": "proved",
   "theorems": [
    "Feedx.C131_prepared_data",
    "Feedx.C131_session_units",
    "Feedx.C131_tables"
   ],
   "note": "Real arithmetic: rounding of the values is not modelled. The metric is not called like a column that the notebook makes (week_id, week_start, time_period, treatment_assignment, at_least_one_click, at_least_one_impression, at_least_one_conversion), and its column is neither the item nor the date column. The bounds of relative differences can differ (C33_false); C131_tables has their equality as a hypothesis for the table of results. The texts of absolute effects are those of the new numbers and are not compared."
  },
  {
   "property": "C132",
   "status": "proved",
   "theorems": [
    "Feedx.C132_prepared_data",
    "Feedx.C132_session"
   ],
   "note": "The item and the date column are different, and at-least-one metrics are not called week_id or date (in the session theorem they have the notebook's names). Dates are unbounded integers of nanoseconds: the range of pandas timestamps, and the parsing of texts into dates (an external function; the theorem is about the dates it returns), are not modelled."
  },
  {
   "property": "C133",
   "status": "proved",
   "theorems": [
    "Feedx.C133_prepared_data",
    "Feedx.C133_session_calendar"
   ],
   "note": "Dates are unbounded integers of nanoseconds, and the parsing of texts into dates is an external function; the theorem is about the dates it returns. The random draws are the same in both sessions."
  },
  {
   "property": "C134",
   "status": "partial",
   "theorems": [
    "Feedx.C134_prepared_data_partial",
    "Feedx.C134_missing_cell",
    "Feedx.C134_report_partial",
    "Feedx.C134_report_false"
   ],
   "note": "Proved if the further columns have no missing cells; with one the data is refused (`C134_missing_cell`), so the full statement is false of the code (`C134_report_false`). Further columns called like a prepared one are in C135."
  },
  {
   "property": "C135",
   "status": "proved",
   "theorems": [
    "Feedx.C135_different_names",
    "Feedx.C135_refused_names",
    "Feedx.C135_prepared_data",
    "Feedx.C135_report",
    "Feedx.C135_week_start",
    "Feedx.C135_week_start_report"
   ],
   "note": "Columns in both tables get the suffixes _x and _y. Suffixes that make two columns have the same name are outside the model (an error here, so `C135_refused_names` says such data is not accepted by the model, not which error pandas raises)."
  },
  {
   "property": "C136",
   "status": "proved",
   "theorems": [
    "Feedx.C136_prepared_data",
    "Feedx.C136_session",
    "Feedx.C136_both_open",
    "Feedx.C136_salt"
   ],
   "note": "For new names that sort like the old ones. Without that condition the rows of the pivoted table come in another order."
  },
  {
   "property": "C137",
   "status": "proved",
   "theorems": [
    "Feedx.C137_history",
    "Feedx.C137_experiment",
    "Feedx.C137_fewer_skipped",
    "Feedx.C137_session"
   ],
   "note": "A skipped check still runs, so it can raise; if the check of negative values is skipped, allowing further columns to be negative could have it read further columns."
  },
  {
   "property": "C138",
   "status": "proved",
   "theorems": [
    "Feedx.C138_session",
    "Feedx.C138_both_open"
   ],
   "note": "For metrics of which nothing is trimmed, and for metrics without a denominator in regular experiments without pretest weeks. With other trimming, items that tie at a cut are cut by their order, which the names decide: see C102_ratio_false and C102_paired_false."
  },
  {
   "property": "C139",
   "status": "proved",
   "theorems": [
    "Feedx.C139_prepared_data",
    "Feedx.C139_session_names"
   ],
   "note": "For generators that draw positions (as `Series.sample` does) and names that keep their order; the order decides ties at the cuts of the pretest trimming and which row a bootstrap position is."
  },
  {
   "property": "C140",
   "status": "proved",
   "theorems": [
    "Feedx.C140_prepared_data",
    "Feedx.C140_estimates"
   ],
   "note": "For an `argsort` that sorts. The errors of two refused sessions are not compared. Simulated validations are not covered: which item a bootstrap position is depends on the order of the names."
  },
  {
   "property": "C141",
   "status": "proved",
   "theorems": [
    "Feedx.C141_same_design_same_estimate",
    "Feedx.C141_fewer_designs",
    "Feedx.C141_order_of_candidates",
    "Feedx.C141_longest_pretest_matters"
   ],
   "note": "The longest pretest has to be the same: it fixes the first start week of all designs, and `C141_longest_pretest_matters` has a history where a further candidate with a pretest changes the average of a design. Two different designs with the same id (a collision of the hash) are not excluded, therefore the comparison is by design."
  }
 ]
}
