{"id": "C01", "title": "A design can be created exactly when its parameters are legal", "statement": "Creating an ExperimentDesign succeeds if and only if runtime_weeks>0, pretest_weeks>=0, every trim fraction is >=0, top+bottom pre-trim <1, post-trim <0.5, there is no pre-trimming without pretest weeks, a crossover design names a washout >=0 with runtime >2*washout and runtime even, and more than 50 items are left after all trimming; otherwise a ValueError is raised.", "quantifier": "all parameter combinations (all integers, all trim fractions, every floating-point rounding of the products)", "why_tests_cant": "the parameter space is infinite and the rules interact; tests only sample one violation at a time", "anchors": ["feedx/experiment_design.py:ExperimentDesign._validate_design", "feedx/experiment_design.py:ExperimentDesign.__post_init__"]}
{"id": "C02", "title": "Item counts derived by a design are ordered and leave data to analyse", "statement": "For every design that can be created, 50 < n_items_after_post_trim <= n_items_after_pre_trim <= n_items_before_trimming, the pre-trim count is the input count minus the floored top and bottom cuts, and the post-trim removes the same number of items from each side.", "quantifier": "all creatable designs", "why_tests_cant": "needs every fraction/size combination including rounding of fraction*size", "anchors": ["feedx/experiment_design.py:ExperimentDesign.__post_init__"]}
{"id": "C03", "title": "A design written to YAML loads back as the same design", "statement": "For every created design (with or without a coinflip salt set later), load_from_yaml(write_to_yaml(d)) succeeds and returns a design equal to d in every field, including derived counts and salt.", "quantifier": "all created designs, all salts", "why_tests_cant": "round trip over an infinite set of designs", "anchors": ["feedx/experiment_design.py:ExperimentDesign.write_to_yaml", "feedx/experiment_design.py:ExperimentDesign.load_from_yaml"]}
{"id": "C04", "title": "Loading never yields an illegal or inconsistent design", "statement": "load_from_yaml returns a design only if the file has both derived counts, exactly the constructor's keys, legal parameters, and derived counts equal to the recomputed ones; a file whose stored counts differ raises ValueError.", "quantifier": "all possible YAML mappings", "why_tests_cant": "arbitrary tampered files", "anchors": ["feedx/experiment_design.py:ExperimentDesign.load_from_yaml"]}
{"id": "C05", "title": "design_id ignores the coinflip salt", "statement": "Two created designs that differ only in coinflip_salt have the same design_id, and assigning a salt after creation never changes design_id.", "quantifier": "all created designs, all salts", "why_tests_cant": "all salts and designs", "anchors": ["feedx/experiment_design.py:ExperimentDesign.design_id"]}
{"id": "C06", "title": "design_id separates different designs", "statement": "If two created designs differ in any field other than the salt, the texts hashed for their design_ids differ (so ids differ unless MD5 collides).", "quantifier": "all pairs of created designs, all primary metric names", "why_tests_cant": "requires injectivity of the textual encoding for all names, including quotes, commas and escapes", "anchors": ["feedx/experiment_design.py:ExperimentDesign.design_id"]}
{"id": "C07", "title": "Coinflip is a deterministic 0/1 function of salt and item id", "statement": "Coinflip(salt)(item) is always 0 or 1, equals the parity of the MD5 digest of salt+str(item), depends on nothing else, and an empty salt is rejected.", "quantifier": "all salts and item ids", "why_tests_cant": "all strings", "anchors": ["feedx/experiment_design.py:Coinflip"]}
{"id": "C08", "title": "The washout weeks printed for a crossover design are the weeks labelled washout", "statement": "The list of (1-based) washout weeks shown by str(design) is exactly the set of experiment weeks that add_time_period_column labels washout_1 or washout_2.", "quantifier": "all creatable crossover designs, all start weeks", "why_tests_cant": "two independent computations must agree for every runtime/washout pair", "anchors": ["feedx/experiment_design.py:ExperimentDesign.__str__", "feedx/experiment_analysis.py:add_time_period_column"]}
{"id": "C09", "title": "Regular experiments label every week correctly", "statement": "For a regular design, a row is labelled pretest iff its week is in the pretest_weeks weeks before the start week, test iff in the runtime_weeks weeks from the start week, and unlabelled otherwise; no other column or row changes.", "quantifier": "all designs, start weeks, week ids and frames", "why_tests_cant": "all integers", "anchors": ["feedx/experiment_analysis.py:_add_time_period_column_for_regular_experiment", "feedx/experiment_analysis.py:add_time_period_column"]}
{"id": "C10", "title": "Crossover experiments split the timeline into five adjacent periods", "statement": "For a crossover design the labels pretest, washout_1, test_1, washout_2, test_2 occupy consecutive, non-overlapping week ranges covering exactly [start-pretest, start+runtime), with washout_2 starting exactly halfway through the runtime, and every other week is unlabelled.", "quantifier": "all creatable crossover designs, start weeks, week ids", "why_tests_cant": "all integers; off-by-one errors at every boundary", "anchors": ["feedx/experiment_analysis.py:_add_time_period_column_for_crossover_experiment"]}
{"id": "C11", "title": "The two crossover test periods have the same, positive number of weeks", "statement": "For every creatable crossover design, test_1 and test_2 each contain exactly runtime/2 - washout >= 1 weeks and each washout contains exactly crossover_washout_weeks weeks.", "quantifier": "all creatable crossover designs", "why_tests_cant": "all integers", "anchors": ["feedx/experiment_analysis.py:_add_time_period_column_for_crossover_experiment"]}
{"id": "C12", "title": "Dates drawn on the time plot agree with the period labels", "statement": "In plot_metric_over_time on data labelled from its start date, with a row on that day, a date lies between the drawn start and end lines / washout spans / crossover line exactly when the week of that date carries the corresponding period label.", "quantifier": "all creatable designs and all dates", "why_tests_cant": "date arithmetic for every design and date", "anchors": ["feedx/plotting.py:plot_metric_over_time", "feedx/experiment_analysis.py:add_time_period_column"]}
{"id": "C13", "title": "Pivoted values are per-week averages of exactly the period's rows", "statement": "In the output of pivot_time_assignment, the value for (item, metric, period) is the sum of the metric over that item's rows in the period divided by the number of weeks of the period, 0 if the item has no rows in it; rows outside the labelled weeks never influence any value.", "quantifier": "all frames, designs, start weeks, metrics", "why_tests_cant": "all data sets", "anchors": ["feedx/experiment_analysis.py:pivot_time_assignment"]}
{"id": "C14", "title": "Pivoting does not depend on row order", "statement": "Permuting the rows of the input of pivot_time_assignment does not change any output value nor the set of output items.", "quantifier": "all frames and permutations", "why_tests_cant": "all permutations", "anchors": ["feedx/experiment_analysis.py:pivot_time_assignment"]}
{"id": "C15", "title": "Pivoting leaves the caller's data as it was", "statement": "After pivot_time_assignment returns or raises, the caller's dataframe has the same columns and values as before the call.", "quantifier": "all frames, designs and failure points", "why_tests_cant": "needs every crash point", "anchors": ["feedx/experiment_analysis.py:_pivot_regular_time_assignment", "feedx/experiment_analysis.py:_pivot_crossover_time_assignment"]}
{"id": "C16", "title": "Trimming removes exactly the extreme samples", "statement": "TrimmedArray(values,q) keeps n-2*floor(q*n) samples, in original order; every kept first-row value is >= every value cut at the bottom and <= every value cut at the top, with floor(q*n) values cut on each side; all rows are trimmed at the same positions; q outside [0,0.5) is rejected.", "quantifier": "all arrays, quantiles, tie patterns and sort algorithms", "why_tests_cant": "unstable sort and ties", "anchors": ["feedx/statistics.py:TrimmedArray"]}
{"id": "C17", "title": "Trimmed statistics do not depend on sample order or tie breaking", "statement": "For one-dimensional data, mean, winsorized mean and variance of a TrimmedArray are the same for every permutation of the samples and every valid argsort.", "quantifier": "all arrays, permutations, argsort implementations", "why_tests_cant": "all permutations/ties", "anchors": ["feedx/statistics.py:TrimmedArray.mean", "feedx/statistics.py:TrimmedArray.var"]}
{"id": "C18", "title": "Winsorized mean and variance follow their definition", "statement": "winsorized_mean is the mean of all original samples clipped to the most extreme untrimmed values, and var(ddof) is the sum of squared deviations of the clipped samples from that mean divided by (samples after trimming - ddof).", "quantifier": "all arrays and quantiles", "why_tests_cant": "all arrays", "anchors": ["feedx/statistics.py:TrimmedArray.winsorized_mean", "feedx/statistics.py:TrimmedArray.cov", "feedx/statistics.py:TrimmedArray.var"]}
{"id": "C19", "title": "Without trimming the statistics are the ordinary ones", "statement": "When floor(q*n)=0, mean, var and cov of a TrimmedArray equal the ordinary sample mean, variance and covariance.", "quantifier": "all arrays, small quantiles", "why_tests_cant": "all arrays", "anchors": ["feedx/statistics.py:TrimmedArray"]}
{"id": "C20", "title": "Trimmed statistics are shift and scale equivariant", "statement": "Adding c to all samples adds c to the trimmed and winsorized mean and leaves the variance unchanged; multiplying by s multiplies the means by s and the variance by s^2 (also for negative s).", "quantifier": "all arrays, shifts, scales, quantiles", "why_tests_cant": "all reals", "anchors": ["feedx/statistics.py:TrimmedArray"]}
{"id": "C21", "title": "Winsorized covariance is a genuine covariance", "statement": "TrimmedArray.cov is symmetric, positive semi-definite, has var on its diagonal, is bilinear in the rows, so variances are >=0 and correlations lie in [-1,1].", "quantifier": "all stacked arrays", "why_tests_cant": "all arrays", "anchors": ["feedx/statistics.py:TrimmedArray.cov"]}
{"id": "C22", "title": "CUPED without trimming keeps the mean and removes explained variance", "statement": "With no samples trimmed and a non-constant covariate, apply_cuped_adjustment keeps the sample mean, makes the result uncorrelated with the covariate and its variance equals var(metric)*(1-corr^2) <= var(metric), the smallest achievable by any linear adjustment.", "quantifier": "all metric/covariate arrays", "why_tests_cant": "all arrays", "anchors": ["feedx/statistics.py:apply_cuped_adjustment"]}
{"id": "C23", "title": "CUPED with trimming keeps the trimmed mean and never increases the trimmed variance", "statement": "With trimming, the trimmed mean of the output equals the trimmed mean of the metric and the winsorized variance of the output is <= that of the metric, for every input on which it returns.", "quantifier": "all arrays, quantiles, tie breaks", "why_tests_cant": "all arrays; relies on the fallback branch", "anchors": ["feedx/statistics.py:apply_cuped_adjustment"]}
{"id": "C24", "title": "CUPED does not depend on the covariate's units", "statement": "Without trimming, replacing the covariate by a*covariate+b (a != 0) leaves the adjusted metric unchanged, and adding a constant to the metric shifts the output by that constant.", "quantifier": "all arrays and affine maps", "why_tests_cant": "all reals", "anchors": ["feedx/statistics.py:apply_cuped_adjustment"]}
{"id": "C25", "title": "p-values are coherent probabilities", "statement": "ttest_from_stats returns a p-value in [0,1]; the greater and less p-values sum to 1; the two-sided p-value is twice the smaller of them; negating the estimate keeps the two-sided value and swaps the one-sided ones; the greater p-value is below 1/2 exactly for positive estimates and falls as the estimate grows; any other alternative raises ValueError.", "quantifier": "all estimates, standard errors >0, degrees of freedom >0", "why_tests_cant": "all reals", "anchors": ["feedx/statistics.py:ttest_from_stats"]}
{"id": "C26", "title": "A result is significant exactly when its absolute confidence interval excludes zero", "statement": "For yuens_t_test_ind and yuens_t_test_paired, for each alternative, is_significant is true iff 0 lies strictly outside the reported absolute-difference interval.", "quantifier": "all samples (with non-zero standard error), alphas in (0,1), alternatives, ratio or plain metrics", "why_tests_cant": "p-value and interval are computed by different formulas for every data set", "anchors": ["feedx/statistics.py:yuens_t_test_ind", "feedx/statistics.py:yuens_t_test_paired", "feedx/statistics.py:absolute_difference_confidence_interval"]}
{"id": "C27", "title": "Absolute confidence intervals contain the estimate and widen as alpha shrinks", "statement": "The absolute interval always contains the reported difference, lower<=upper, a smaller alpha gives an interval containing the larger-alpha one, 'greater' has upper=+inf and 'less' has lower=-inf. At alpha 0 the interval is the whole line; at alpha 1 a one-sided interval contains no number; a level out of range gives nan bounds.", "quantifier": "all inputs with defined standard error, alpha<=1/2 one-sided and alpha<=1 two-sided", "why_tests_cant": "all reals", "anchors": ["feedx/statistics.py:absolute_difference_confidence_interval"]}
{"id": "C28", "title": "Swapping the two samples mirrors the result", "statement": "Swapping values1 and values2 in yuens_t_test_ind negates the statistic, difference and interval, keeps the two-sided p-value and exchanges the greater and less ones, and keeps standard error, degrees of freedom and sample size.", "quantifier": "all sample pairs", "why_tests_cant": "all arrays", "anchors": ["feedx/statistics.py:yuens_t_test_ind"]}
{"id": "C29", "title": "The independent test ignores sample order, common shifts and units", "statement": "yuens_t_test_ind gives the same p-value and standard error when samples are reordered or a constant is added to both arrays, and the same p-value when both are multiplied by a positive constant.", "quantifier": "all arrays, permutations, constants", "why_tests_cant": "all arrays", "anchors": ["feedx/statistics.py:yuens_t_test_ind"]}
{"id": "C30", "title": "The paired test's interval uses the same standard error as its p-value", "statement": "In yuens_t_test_paired the standard error rebuilt from the two samples' standard errors and their correlation equals the reported standard error (plain and ratio metrics), and the reported difference equals mean1-mean2.", "quantifier": "all paired samples", "why_tests_cant": "needs bilinearity of the winsorized covariance for all data", "anchors": ["feedx/statistics.py:yuens_t_test_paired"]}
{"id": "C31", "title": "Relative differences are never reported below -100%", "statement": "Whenever the relative interval's lower bound is a number it is >= -1, and lower <= relative point estimate <= upper.", "quantifier": "all means >=0, standard errors, correlations, alphas, alternatives", "why_tests_cant": "all reals incl. near-degenerate variances", "anchors": ["feedx/statistics.py:relative_difference_confidence_interval"]}
{"id": "C32", "title": "The bounded relative interval is Fieller's confidence set", "statement": "When the control mean is significantly away from zero the two-sided relative interval is exactly the set of ratios not rejected by the t-test of mean1 - ratio*mean2 = 0 (clipped at -100%), and 0 lies outside it iff the absolute difference is significant.", "quantifier": "all means, standard errors, correlations, alphas", "why_tests_cant": "all reals", "anchors": ["feedx/statistics.py:relative_difference_confidence_interval"]}
{"id": "C33", "title": "Relative results do not depend on the metric's units", "statement": "Multiplying both means and standard errors by the same positive constant leaves the relative interval unchanged.", "quantifier": "all inputs and scale factors", "why_tests_cant": "absolute tolerances hidden in the code only matter for some scales", "anchors": ["feedx/statistics.py:relative_difference_confidence_interval"]}
{"id": "C34", "title": "A metric with a zero control average can still be analysed", "statement": "Both tests return a result (absolute difference, p-value) for non-negative data whose control mean is 0.", "quantifier": "all samples with zero control mean", "why_tests_cant": "needs all-zero-control data sets for both tests", "anchors": ["feedx/statistics.py:yuens_t_test_ind", "feedx/statistics.py:yuens_t_test_paired"]}
{"id": "C35", "title": "Minimum detectable effects are positive and monotone", "statement": "For a positive standard error the minimum detectable effect is positive iff power > alpha/2 (two-sided) or power > alpha (one-sided), is proportional to the standard deviation, increases with power and decreases with alpha; an unknown alternative raises ValueError. At power 1 it is infinite, at power 0 minus infinity, and a power outside of [0, 1] gives nan.", "quantifier": "all standard deviations, sizes, powers and alphas in (0,1)", "why_tests_cant": "all reals", "anchors": ["feedx/statistics.py:calculate_minimum_detectable_effect_from_stats", "feedx/statistics.py:yuens_t_test_ind_minimum_detectable_effect", "feedx/statistics.py:yuens_t_test_paired_minimum_detectable_effect"]}
{"id": "C36", "title": "Equal- and unequal-variance formulas agree for equal groups, and Welch degrees of freedom are bounded", "statement": "With equal group sizes and standard deviations, both formulas give the same standard error and degrees of freedom; in general Welch degrees of freedom lie between min(n1,n2)-1 and n1+n2-2.", "quantifier": "all sizes >1 and standard deviations, not both zero", "why_tests_cant": "all reals", "anchors": ["feedx/statistics.py:_two_sample_degrees_of_freedom", "feedx/statistics.py:_two_sample_standard_errors"]}
{"id": "C37", "title": "Ratio metrics use a consistent, non-negative delta-method variance", "statement": "The variance reported for a ratio is the winsorized variance of the linearised metric (hence >=0) for positive means, and for paired ratios var1+var2-2*corr*sd1*sd2 equals the variance of the difference with |corr|<=1.", "quantifier": "all stacked samples with non-zero means", "why_tests_cant": "all arrays", "anchors": ["feedx/statistics.py:_ratio_mean_and_variance", "feedx/statistics.py:_difference_of_ratios_mean_and_variance"]}
{"id": "C38", "title": "Crossover alignment pairs every item's treated and untreated period", "statement": "In the crossover analysis each item contributes its treated-period value to treatment and its untreated-period value to control; after demeaning, the control mean is unchanged and adding any constant to one whole period changes no treatment-minus-control difference.", "quantifier": "all data sets with assignments in {0,1}", "why_tests_cant": "all arrays", "anchors": ["feedx/experiment_analysis.py:_prepare_metrics_for_crossover_experiment"]}
{"id": "C39", "title": "Regular analysis splits items by assignment without losing any", "statement": "In the regular analysis treatment and control arrays contain the (adjusted) metric of exactly the items assigned 1 and 0, in order; with 0/1 assignments every item is in exactly one.", "quantifier": "all data sets", "why_tests_cant": "all arrays", "anchors": ["feedx/experiment_analysis.py:_prepare_metrics_for_regular_experiment"]}
{"id": "C40", "title": "The analysis honours the design's alpha", "statement": "analyze_single_metric / analyze_experiment report significance and intervals at level design.alpha.", "quantifier": "all designs and data", "why_tests_cant": "any alpha other than the default", "anchors": ["feedx/experiment_analysis.py:analyze_single_metric", "feedx/experiment_analysis.py:_analyze_regular_experiment_single_metric", "feedx/experiment_analysis.py:_analyze_crossover_experiment_single_metric"]}
{"id": "C41", "title": "Each metric's result is independent of the other metrics analysed", "statement": "analyze_experiment returns one row per requested metric, in order, and the row of a metric is the same whatever other metrics are requested.", "quantifier": "all metric lists and data", "why_tests_cant": "all subsets of metrics", "anchors": ["feedx/experiment_analysis.py:analyze_experiment"]}
{"id": "C42", "title": "Filling makes the item x date grid complete", "statement": "After fill_missing_rows_with_zeros every item of the input has at least one row for every date of the input, with no other item or date; if the input has at most one row per item and date, the output has exactly one.", "quantifier": "all frames", "why_tests_cant": "all sparse patterns", "anchors": ["feedx/data_preparation.py:fill_missing_rows_with_zeros"]}
{"id": "C43", "title": "Filling keeps existing rows and adds only zeros", "statement": "Every input row survives with its multiplicity (nulls replaced by 0), every added row is 0 in every metric, metric totals are unchanged and filling twice equals filling once.", "quantifier": "all frames", "why_tests_cant": "all data", "anchors": ["feedx/data_preparation.py:fill_missing_rows_with_zeros"]}
{"id": "C44", "title": "Null metric values are reported to the user", "statement": "If the raw data contains a null metric value, prepare_and_validate_* raises the no_nulls validation error (unless skipped).", "quantifier": "all raw data", "why_tests_cant": "the masking depends on the order of pipeline steps for all data", "anchors": ["feedx/data_preparation.py:fill_missing_rows_with_zeros", "feedx/data_preparation.py:_validate_no_null_values"]}
{"id": "C45", "title": "Week ids and week starts follow the experiment calendar", "statement": "add_week_id_and_week_start gives week_id w and week_start s with s = start + 7w days and s <= date < s+7 days, week 0 starting on the experiment start date (the first date in the data by default), also before the start.", "quantifier": "all dates (any time of day) and start dates", "why_tests_cant": "negative offsets and floor division", "anchors": ["feedx/data_preparation.py:add_week_id_and_week_start"]}
{"id": "C46", "title": "Weekly grouping keeps exactly the complete weeks with exact totals", "statement": "For daily data, group_data_to_complete_weeks returns one row for exactly those (week,item) with 7 distinct dates, whose metrics are the sums over that week's rows.", "quantifier": "all daily frames", "why_tests_cant": "all data", "anchors": ["feedx/data_preparation.py:group_data_to_complete_weeks"]}
{"id": "C47", "title": "Weekly data passes through and mixed frequencies are refused", "statement": "For data whose consecutive dates are all 7 days apart the rows are returned unchanged (minus the date column); any data neither daily nor weekly raises ValueError.", "quantifier": "all frames", "why_tests_cant": "edge cases such as a single date", "anchors": ["feedx/data_preparation.py:group_data_to_complete_weeks"]}
{"id": "C48", "title": "Downsampling keeps whole items", "statement": "downsample_items returns all the rows of the sampled items and none of the others, in order, with round(fraction*items) items; fraction 1 returns the data; fractions outside (0,1] raise.", "quantifier": "all frames, fractions and random states", "why_tests_cant": "all random states", "anchors": ["feedx/data_preparation.py:downsample_items"]}
{"id": "C49", "title": "Validation passes exactly when every unskipped check passes", "statement": "validate_historical_data and validate_experiment_data return normally iff every named check either passes or is listed in skip_validation_checks; listing a name never affects another check.", "quantifier": "all data, all skip lists", "why_tests_cant": "2^13 skip lists x all data", "anchors": ["feedx/data_preparation.py:ValidationChecks", "feedx/data_preparation.py:validate_historical_data", "feedx/data_preparation.py:validate_experiment_data"]}
{"id": "C50", "title": "Unknown check names are rejected first", "statement": "If skip_validation_checks contains a name that is not a registered check, validation raises ValueError before running any check.", "quantifier": "all skip lists and data", "why_tests_cant": "all strings", "anchors": ["feedx/data_preparation.py:ValidationChecks.assert_check_exists"]}
{"id": "C51", "title": "The duplicate check guarantees one row per item and date", "statement": "If the no_duplicate_items_per_date check passes then every item in the data has exactly one row for every date in the data.", "quantifier": "all frames", "why_tests_cant": "needs all item/date patterns", "anchors": ["feedx/data_preparation.py:_validate_every_item_exists_exactly_once_for_every_date"]}
{"id": "C52", "title": "The coinflip check is exact and implies unique assignments", "statement": "coinflip_salt_validation passes iff every row's assignment equals the coinflip of its item under the design's salt; whenever it passes, treatment_assignment_is_unique passes too; without a salt in the design validation never passes.", "quantifier": "all frames and salts", "why_tests_cant": "all data", "anchors": ["feedx/data_preparation.py:_validate_coinflip_matches_assignments", "feedx/data_preparation.py:_validate_treatment_assignment_is_unique_for_each_item_id"]}
{"id": "C53", "title": "The date check guarantees the design's date range", "statement": "experiment_dates_match_design passes iff the first date is no later than start - 7*pretest_weeks days and, when the experiment has concluded, the last date is no earlier than the first day of the last runtime week.", "quantifier": "all dates and designs", "why_tests_cant": "all dates", "anchors": ["feedx/data_preparation.py:_validate_experiment_dates_match_design"]}
{"id": "C54", "title": "At-least-one metrics are exact indicators", "statement": "add_at_least_one_metrics sets the new column to 1 exactly where the source metric is >0 and 0 elsewhere (including nulls), leaving other columns unchanged.", "quantifier": "all frames and metric maps", "why_tests_cant": "all data", "anchors": ["feedx/data_preparation.py:add_at_least_one_metrics"]}
{"id": "C55", "title": "Outlier trimming removes the right number of the right rows", "statement": "trim_outliers keeps n-floor(n*top)-floor(n*bottom) rows in the original order; every removed-top value >= every kept value >= every removed-bottom value, for every random tie-break; illegal fractions raise.", "quantifier": "all data, fractions and shuffles", "why_tests_cant": "all shuffles and ties", "anchors": ["feedx/data_preparation.py:trim_outliers"]}
{"id": "C56", "title": "Trimming agrees with the design's item counts", "statement": "Trimming a data set of design.n_items_before_trimming rows with the design's fractions leaves exactly design.n_items_after_pre_trim rows, and a TrimmedArray over those with post_trim_percentile leaves design.n_items_after_post_trim, under any floating point rounding.", "quantifier": "all creatable designs, data and roundings", "why_tests_cant": "two computations of floor(fraction*n)", "anchors": ["feedx/data_preparation.py:trim_outliers", "feedx/experiment_design.py:ExperimentDesign.__post_init__", "feedx/statistics.py:TrimmedArray.n_trim"]}
{"id": "C57", "title": "Treatment assignment covers each eligible item once, by coinflip", "statement": "perform_treatment_assignment returns each eligible item exactly once (all items if no pre-trimming, the untrimmed items otherwise) with assignment Coinflip(design salt)(item).", "quantifier": "all historical data and designs", "why_tests_cant": "all data", "anchors": ["feedx/data_preparation.py:perform_treatment_assignment"]}
{"id": "C58", "title": "The salt is kept in the design and reused", "statement": "After perform_treatment_assignment the design has a non-empty salt; a design that already had one keeps it; repeating the call, any number of times and on any data, never changes the salt nor any item's assignment.", "quantifier": "all call sequences", "why_tests_cant": "histories of calls", "anchors": ["feedx/data_preparation.py:perform_treatment_assignment"]}
{"id": "C59", "title": "A failed randomisation can be retried with a new salt", "statement": "If perform_treatment_assignment raises because of a sample ratio mismatch, calling it again re-randomises the items.", "quantifier": "all data and histories", "why_tests_cant": "crash point after the salt was stored", "anchors": ["feedx/data_preparation.py:perform_treatment_assignment"]}
{"id": "C60", "title": "Data prepared from a design's own assignment passes the assignment checks", "statement": "If the treatment assignment returned by perform_treatment_assignment is fed to prepare_and_validate_experiment_data with the same design, then coinflip_salt_validation, treatment_assignment_is_unique and no_duplicate_items_per_date pass for any performance data with at most one row per item and date (item ids that are distinct as text).", "quantifier": "all performance data", "why_tests_cant": "end-to-end over all data", "anchors": ["feedx/data_preparation.py:prepare_and_validate_experiment_data"]}
{"id": "C61", "title": "Prepared experiment data contains exactly the assigned items", "statement": "prepare_and_validate_experiment_data returns rows for exactly the items in the treatment assignment; assigned items missing from the performance data get zero metrics on every date; unassigned items are dropped; every assigned item has every date.", "quantifier": "all performance data and assignments", "why_tests_cant": "all data", "anchors": ["feedx/data_preparation.py:prepare_and_validate_experiment_data"]}
{"id": "C62", "title": "Prepared historical data is a complete weekly panel", "statement": "When prepare_and_validate_historical_data returns with no check skipped, the data is non-empty, has one row per item and week, finite non-negative metric values, week_start = first date + 7*week_id and consecutive week ids.", "quantifier": "all raw data", "why_tests_cant": "all data", "anchors": ["feedx/data_preparation.py:prepare_and_validate_historical_data"]}
{"id": "C63", "title": "Standardised data has exactly the requested columns", "statement": "standardize_column_names_and_types returns exactly the requested columns, under their standard names, each holding the parsed input column; a missing input column, a custom column clashing with a standard one or a parse function without a column raises ValueError.", "quantifier": "all frames and column maps without repeated input columns", "why_tests_cant": "all maps", "anchors": ["feedx/data_preparation.py:standardize_column_names_and_types"]}
{"id": "C64", "title": "generate_all_valid_designs is sound and complete", "statement": "When it returns, the list contains exactly the designs for the allowed types over all candidate combinations (skipping only pre-trimming without pretest weeks and impossible crossovers), in product order, and every one is a valid design.", "quantifier": "all candidate lists", "why_tests_cant": "cartesian products of arbitrary lists", "anchors": ["feedx/experiment_simulations.py:generate_all_valid_designs"]}
{"id": "C65", "title": "Traditional-only design generation needs no washout weeks", "statement": "generate_all_valid_designs with crossover_design_allowed=False and crossover_washout_weeks=None returns the traditional designs.", "quantifier": "all candidate lists", "why_tests_cant": "non-short-circuit evaluation", "anchors": ["feedx/experiment_simulations.py:generate_all_valid_designs"]}
{"id": "C66", "title": "Every simulated experiment window lies inside the historical data", "statement": "If calculate_minimum_start_week_id returns s, then for every candidate design the valid start weeks are a non-empty range and for each of them all pretest weeks and all runtime weeks lie between the first and last historical week.", "quantifier": "all candidate lists and week ids", "why_tests_cant": "all integers", "anchors": ["feedx/experiment_simulations.py:calculate_minimum_start_week_id", "feedx/experiment_simulations.py:SimulationAnalysis.valid_start_week_ids"]}
{"id": "C67", "title": "Bootstrap samples have unique ids and only real rows", "statement": "A bootstrap sample has as many rows as the data, each a copy of a data row, with item ids 0..n-1 all distinct and the other index levels preserved.", "quantifier": "all data and random states", "why_tests_cant": "all random draws", "anchors": ["feedx/experiment_simulations.py:_bootstrap_sample_data"]}
{"id": "C68", "title": "Random assignment in simulations preserves the metric columns", "statement": "apply_random_treatment_assignment returns the same (metric, period) columns and values it was given, each item in exactly one group.", "quantifier": "all column names and data", "why_tests_cant": "string encodings for all names", "anchors": ["feedx/experiment_simulations.py:apply_random_treatment_assignment"]}
{"id": "C69", "title": "The synthetic effect is applied exactly to treated item-periods", "statement": "apply_synthetic_treatment_effect adds the effect to test for treated items (regular), to test_1 for treated-first items and test_2 for the others (crossover), and changes nothing else.", "quantifier": "all data and effects", "why_tests_cant": "all data", "anchors": ["feedx/experiment_simulations.py:apply_synthetic_treatment_effect"]}
{"id": "C70", "title": "The analysis recovers a synthetic effect exactly", "statement": "Adding a constant effect to the treated item-periods increases the reported absolute difference by exactly that effect.", "quantifier": "all data, effects, designs", "why_tests_cant": "all data", "anchors": ["feedx/experiment_simulations.py:apply_synthetic_treatment_effect", "feedx/experiment_analysis.py:analyze_single_metric"]}
{"id": "C71", "title": "Simulation count checks can never fail for complete data", "statement": "If the historical data has design.n_items_before_trimming items for every start week, the 'unexpected number of items' and 'sample size was different' errors are unreachable, also after each trimming; with any other number of items the estimate is refused.", "quantifier": "all data, designs, start weeks, random states", "why_tests_cant": "all data", "anchors": ["feedx/experiment_simulations.py:SimulationAnalysis._get_pivoted_and_trimmed_historical_data", "feedx/experiment_simulations.py:SimulationAnalysis._estimate_primary_metric_stats"]}
{"id": "C72", "title": "Simulation results appear in order", "statement": "Over any sequence of estimate/validate calls, validating raises RuntimeError exactly while no estimate has returned, results are either all absent or all present, presence of simulation results implies a minimum detectable effect is present, and calls that raise change no result.", "quantifier": "all call sequences", "why_tests_cant": "histories", "anchors": ["feedx/experiment_simulations.py:SimulationAnalysis"]}
{"id": "C73", "title": "all_robustness_checks_pass is the conjunction of the five checks", "statement": "all_robustness_checks_pass is None iff no validation has returned; after a validation with at least one simulation it is True iff all five robustness p-values are >= the threshold, else False (with no simulations it raises KeyError).", "quantifier": "all simulation results", "why_tests_cant": "all p-values", "anchors": ["feedx/experiment_simulations.py:SimulationAnalysis.all_robustness_checks_pass"]}
{"id": "C74", "title": "Synthetic data is a complete funnel panel", "statement": "generate_synthetic_data returns exactly one row per item and day over the requested weeks, with conversions <= clicks <= impressions, zero cost without clicks and zero value without conversions.", "quantifier": "all sizes, dates and random draws", "why_tests_cant": "all random draws", "anchors": ["feedx/data_preparation.py:generate_synthetic_data"]}
{"id": "C75", "title": "Synthetic distributions have the requested moments", "statement": "The lognormal and beta samplers are called with parameters whose distribution mean and standard deviation are the requested ones.", "quantifier": "all requested means and standard deviations", "why_tests_cant": "all reals", "anchors": ["feedx/data_preparation.py:_sample_from_lognormal", "feedx/data_preparation.py:_sample_from_beta"]}
{"id": "C76", "title": "Demo effects only scale treated rows", "statement": "add_relative_effects_to_synthetic_data_for_demo multiplies each of the five metrics by 1+effect exactly on rows where the item is treated (including washout in a crossover, a crossover being recognised by the presence of a first test period) and leaves zeros, missing values, other columns and all other rows unchanged.", "quantifier": "all frames and effects", "why_tests_cant": "all data", "anchors": ["feedx/data_preparation.py:add_relative_effects_to_synthetic_data_for_demo"]}
{"id": "C77", "title": "Effect plots cope with infinite bounds", "statement": "plot_effects draws any analysis result, including ones whose relative upper bounds are infinite.", "quantifier": "all result tables", "why_tests_cant": "all patterns of infinities", "anchors": ["feedx/plotting.py:_plot_horizontal_error_bar_with_infs", "feedx/plotting.py:plot_effects"]}
{"id": "C78", "title": "Lorenz curve is a proper cumulative share", "statement": "For non-negative values with positive total the Lorenz points start at or above the equal-share line, are non-decreasing, concave and end at (1,1).", "quantifier": "all value arrays", "why_tests_cant": "all arrays", "anchors": ["feedx/plotting.py:_make_lorenz_plot"]}
{"id": "C79", "title": "Per-date CUPED for plots keeps each date's average", "statement": "The CUPED-adjusted metric used for plotting has the same average over items on each date as the raw metric, also when the new column overwrites the metric column.", "quantifier": "all frames with complete, non-constant pretest data", "why_tests_cant": "all data", "anchors": ["feedx/plotting.py:_add_cuped_adjusted_metric_per_date"]}
{"id": "C80", "title": "Displayed p-values and highlights match the result", "statement": "The formatted p-value says '(Significant)' iff p<alpha and its numeric text matches the p-value's range; rows are grey iff not significant, green iff significant and positive, pink otherwise.", "quantifier": "all results", "why_tests_cant": "all reals", "anchors": ["feedx/experiment_analysis.py:_format_p_value", "feedx/experiment_analysis.py:_highlight_significant"]}
{"id": "C81", "title": "Summary captions only hide constant columns", "statement": "Formatting the design summary removes exactly the design columns with a single distinct value, and lists each with that value in the caption.", "quantifier": "all summaries", "why_tests_cant": "all tables", "anchors": ["feedx/experiment_simulations.py:_extract_constant_design_columns_for_caption"]}
{"id": "C82", "title": "Designs that compare equal have the same design_id", "statement": "If two created designs are equal (Python ==), their design_id is the same.", "quantifier": "all pairs of created designs", "why_tests_cant": "all field types, e.g. 0 versus 0.0", "anchors": ["feedx/experiment_design.py:ExperimentDesign.design_id"]}
{"id": "C83", "title": "The t-tests report the textbook (Yuen) estimates", "statement": "When a t-test of a plain metric returns, the reported difference is the difference of the trimmed means, the sample size counts the values kept by trimming, the control average is the kept control mean, the standard error and degrees of freedom are those of Yuen's trimmed t-test (pooled, Welch-Satterthwaite, or paired), the statistic is difference over standard error, and the relative difference is mean1/mean2 - 1, reported exactly when no mean is negative.", "quantifier": "all samples, trimming quantiles, alternatives, significance levels, and both variance options", "why_tests_cant": "examples compare a handful of samples with scipy, an error in one trimming or variance branch shows only for some sizes", "anchors": ["feedx/statistics.py:yuens_t_test_ind", "feedx/statistics.py:yuens_t_test_paired"]}
{"id": "C84", "title": "The analysis refuses data missing a period the design needs", "statement": "analyze_single_metric returns only if the pivoted data has the test period (both test periods in a crossover) and, for a regular design with pretest weeks, the pretest period; for a known metric it raises ValueError when one is missing.", "quantifier": "all pivoted data, designs and metrics (index columns not named like a period)", "why_tests_cant": "every combination of present and missing periods with every design", "anchors": ["feedx/experiment_analysis.py:analyze_single_metric"]}
{"id": "C85", "title": "Prepared experiment data covers only the weeks of the design", "statement": "prepare_and_validate_experiment_data labels every row with the week counted from the start date and that week's first day, leaves the period label empty exactly outside the weeks from the start of the pretest to the end of the runtime, and therefore returns (unless no_nulls is skipped) only if no date of the performance data is before the pretest or after the runtime; otherwise it raises ValueError.", "quantifier": "all created designs, performance data and assignments", "why_tests_cant": "all dates and designs; the refusal comes from an interplay of labelling and the null check", "anchors": ["feedx/data_preparation.py:prepare_and_validate_experiment_data", "feedx/experiment_analysis.py:add_time_period_column"]}
{"id": "C86", "title": "Validating a design on usable historical data returns one result per simulation", "statement": "After an estimate, on complete historical data with ordinary names and (for regular designs) a positive primary metric, validating a design returns for every sequence of random choices that leaves at least two items in each group of a regular design after trimming, with exactly one A/A and one A/B result per simulation, and can be repeated.", "quantifier": "all designs, data, random choices and numbers of simulations", "why_tests_cant": "all random choices and histories", "anchors": ["feedx/experiment_simulations.py:SimulationAnalysis.validate_design"]}
{"id": "C87", "title": "The cumulative distribution plot", "statement": "In the distribution plot of plot_metric_history, every value has a point at the fraction of the items with that value or more; the points go from left to right and down, one per item, the first at 100%.", "quantifier": "all samples", "why_tests_cant": "all samples, with ties and any size", "anchors": ["feedx/plotting.py:_make_cumulative_distribution_plot", "feedx/plotting.py:plot_metric_history"]}
{"id": "C88", "title": "The metric history plots weekly totals and item averages", "statement": "plot_metric_history draws exactly one point per week of the data, at the total of the metric in that week; the two distribution plots are those of the averages of the items over their rows, every item counting once.", "quantifier": "all data frames whose metric has no missing or infinite values", "why_tests_cant": "all frames, with any missing rows and any number of dates", "anchors": ["feedx/plotting.py:plot_metric_history"]}
{"id": "C89", "title": "The time plot uses the given column names", "statement": "The dates drawn by plot_metric_over_time are read from the period and date columns named in the call, so renaming them in the data and in the call draws the same dates.", "quantifier": "all column names and data", "why_tests_cant": "tests use the default names, for which the fault cannot show", "anchors": ["feedx/plotting.py:plot_metric_over_time"]}
{"id": "C90", "title": "The formatted results table shows every result", "statement": "format_experiment_analysis_results_dataframe returns one row per metric in the same order with exactly the columns asked for; each percentage and projection shown is within half a unit of its last decimal place, has the sign of the value, has its thousands separated, and never reverses the ends of an interval; it can be applied to every non-empty analysis result.", "quantifier": "all results and all display options", "why_tests_cant": "all real values, decimal places and combinations of missing effects", "anchors": ["feedx/experiment_analysis.py:format_experiment_analysis_results_dataframe"]}
{"id": "C91", "title": "The interval header states the confidence level", "statement": "The header of the interval columns in the formatted results table identifies the confidence level 1-alpha of the results.", "quantifier": "all significance levels", "why_tests_cant": "all reals; tests use 0.05", "anchors": ["feedx/experiment_analysis.py:format_experiment_analysis_results_dataframe"]}
{"id": "C92", "title": "The summary of an analysis reports the analysis", "statement": "SimulationAnalysis.summary_dict returns, after any sequence of estimate and validate calls whose validations had at least one simulation, the design id, every design attribute except the salt, the minimum detectable effects (None exactly while no estimate has returned) and the simulated rates and robustness checks (None exactly while no validation has returned), each equal to the current value of the analysis.", "quantifier": "all analyses and all sequences of estimate and validate calls", "why_tests_cant": "all histories of calls, including failed ones", "anchors": ["feedx/experiment_simulations.py:SimulationAnalysis.summary_dict"]}
{"id": "C93", "title": "The summary table has one row per analysis, in order", "statement": "make_analysis_summary_dataframe returns one row per analysis, indexed by its design id, holding exactly its summary, in ascending order of the chosen column with missing values last; it raises KeyError for no analyses and for an unknown column.", "quantifier": "all lists of analyses and sort columns", "why_tests_cant": "all lists and all orders of values", "anchors": ["feedx/experiment_simulations.py:make_analysis_summary_dataframe"]}
{"id": "C94", "title": "The displayed summary shows every value", "statement": "Every summary table can be displayed with format_analysis_summary_dataframe with its default options; the rows keep their order, the remaining columns have distinct headers, each percentage is the value times 100 with two decimals, missing values are hidden, and each robustness check cell is green exactly if it passed and red exactly if it failed.", "quantifier": "all summary tables and display options", "why_tests_cant": "all values, missing or not", "anchors": ["feedx/experiment_simulations.py:format_analysis_summary_dataframe"]}
{"id": "C95", "title": "The printed description of a design is true", "statement": "str(design) succeeds for every design and starts with its id. The printed type, primary metric, weeks, salt and numbers of items are those of the design; the washout weeks listed are exactly the weeks excluded from the analysis; a stage of trimming is mentioned exactly if it removes items, and items left out at the top (bottom) are mentioned exactly if there are such items.", "quantifier": "all designs that can be created", "why_tests_cant": "all combinations of settings", "anchors": ["feedx/experiment_design.py:ExperimentDesign.__str__"]}
{"id": "C96", "title": "Usable raw history is accepted and becomes weekly totals", "statement": "Raw historical data with readable dates on consecutive days (at least seven) or consecutive weeks (at least two, no item twice a week), and finite numbers that are not negative, is accepted when preparing historical data. The prepared data has exactly the item, week and metric columns, the complete weeks counted from the first date, and all items (or the sampled ones); the metric of a row is the total of the item's values with a date in that week, absent days counting as zero. Data with a negative weekly total, or a metric that is not one of the choices, raises ValueError. Any data accepted without skipped checks holds the weekly totals.", "quantifier": "all raw data, item, date and metric columns, sampled fractions and skipped checks", "why_tests_cant": "all numbers of items, days, missing rows, values and their order", "anchors": ["feedx/data_preparation.py:prepare_and_validate_historical_data", "feedx/data_preparation.py:standardize_column_names_and_types", "feedx/data_preparation.py:fill_missing_rows_with_zeros", "feedx/data_preparation.py:group_data_to_complete_weeks"]}
{"id": "C97", "title": "Estimates and validations do not depend on earlier calls", "statement": "On usable historical data, estimating the minimum detectable effect with the same random tie-breaking gives the same outcome and the same four numbers whatever calls were made before and whatever they raised; two validations with the same random choices and the same effect give the same results. When the design trims no items before the experiment, the estimate does not depend on the random generator at all, so the first estimate settles the effect. On other data this holds as long as the calls in between returned; a call that failed because no row is in the test weeks leaves a working column behind and blocks all later calls.", "quantifier": "all designs, data, random choices and call histories", "why_tests_cant": "all histories of calls, including failing ones", "anchors": ["feedx/experiment_simulations.py:SimulationAnalysis.estimate_minimum_detectable_effect", "feedx/experiment_simulations.py:SimulationAnalysis.validate_design", "feedx/experiment_analysis.py:pivot_time_assignment"]}
{"id": "C98", "title": "The deep dive plot shows the last validation", "statement": "plot_deep_dive refuses with ValueError exactly when no validation has returned on the object, whatever other calls were made. Otherwise its histograms show the effects and the p-values of the A/A and A/B simulations of the last validation that returned, one value per simulation, with dashed lines at zero and at the effect that was planted in the A/B simulations. A validation with zero simulations makes the plot raise KeyError.", "quantifier": "all designs, data, random choices and call histories", "why_tests_cant": "all histories of estimates and validations, including failing ones", "anchors": ["feedx/plotting.py:plot_deep_dive", "feedx/experiment_simulations.py:SimulationAnalysis.simulated_false_positive_rate"]}
{"id": "C99", "title": "The plot of a metric over time shows the group averages and a normal band around their difference", "statement": "plot_metric_over_time draws one point for every date of a row with an assignment, in the order of time: the averages of the treated and of the control rows of that date, their difference, and a band of z standard errors around it, where z is the normal quantile of the design's significance level; the band contains zero exactly if the difference is at most z standard errors. With the CUPED adjustment the values are first corrected by the pretest totals of the items, with the least squares slope of that date. The plot does not depend on the order of the rows, and exchanging the groups reflects it. A table with only one group, and with the adjustment a table whose items all have the same pretest total, ends with KeyError; otherwise complete tables are plotted.", "quantifier": "all tables, designs, metrics, column names and row orders", "why_tests_cant": "all values, group sizes and row orders", "anchors": ["feedx/plotting.py:plot_metric_over_time", "feedx/plotting.py:_add_cuped_adjusted_metric_per_date"]}
{"id": "C100", "title": "The estimated minimum detectable effect is the textbook formula on the historical data", "statement": "After estimate_minimum_detectable_effect returns, the stored average and standard deviation are computed from the historical rows: for every start week, the primary metric is averaged per item and week of the experiment, the items with extreme averages before the experiment are cut if the design says so, and the (trimmed) mean and (winsorized) variance of the remaining items are taken; for a crossover design those of the differences of the two periods, with pretest weeks those left by a regression on the pretest averages. The average is the mean over the start weeks, the standard deviation the square root of the mean variance, and the effect is 2 sd / sqrt(n) (sd / sqrt(n) for a crossover) times the sum of the Student t quantiles at 1 - alpha/2 and at the power, with n - 2 (n - 1) degrees of freedom; the relative effect divides it by the average. On complete historical data the call returns. If the items of a start week all have the same average before the experiment, so that the regression is not defined, all the stored results are nan.", "quantifier": "all designs, historical tables, start weeks, sort orders of ties and random choices", "why_tests_cant": "all tables, trimming fractions and numbers of start weeks", "anchors": ["feedx/experiment_simulations.py:SimulationAnalysis.estimate_minimum_detectable_effect", "feedx/experiment_simulations.py:SimulationAnalysis._estimate_primary_metric_stats", "feedx/statistics.py:yuens_t_test_paired_minimum_detectable_effect"]}
{"id": "C101", "title": "The minimum detectable effect assumes the precision the analysis then has", "statement": "The minimum detectable effect is computed with the standard error 2 sd / sqrt(n) (sd / sqrt(n) for a crossover design), where sd is the stored standard deviation. Analysing the same historical weeks as if they were the experiment, with the items split in two groups (of equal size in a regular design), reports a standard error that agrees with it exactly up to the degrees of freedom and the square of the reported difference, which is zero on average: se^2 (n-2) = (2 sd / sqrt n)^2 (n-1) - difference^2, and se^2 (n-1) = (sd / sqrt n)^2 (n-1) - difference^2 for a crossover.", "quantifier": "all designs with one possible start week, historical tables and assignments of the items to the groups", "why_tests_cant": "all values, assignments and sizes; relates two independent computations", "anchors": ["feedx/experiment_simulations.py:SimulationAnalysis._estimate_primary_metric_stats", "feedx/experiment_simulations.py:SimulationAnalysis._estimate_minimum_detectable_effect_from_stats", "feedx/experiment_analysis.py:analyze_single_metric"]}
{"id": "C102", "title": "Tests of ratio metrics and paired tests do not depend on the order of the items", "statement": "Reordering the items (all arrays of a group in the same way), or sorting items with equal values in another way, changes nothing in the result of yuens_t_test_ind for a ratio metric and of yuens_t_test_paired for plain and ratio metrics.", "quantifier": "all items, permutations, trimming quantiles, argsort implementations", "why_tests_cant": "all arrays, permutations and tie-breaking rules", "anchors": ["feedx/statistics.py:yuens_t_test_ind", "feedx/statistics.py:yuens_t_test_paired", "feedx/statistics.py:TrimmedArray"]}
{"id": "C103", "title": "Data prepared for an experiment can be analysed", "statement": "The data returned by prepare_and_validate_experiment_data for a concluded experiment, with every check passed, can be given to analyze_experiment with the same design: it returns one row per requested metric, in the requested order, and never raises.", "quantifier": "all designs, input tables, metric lists (with and without denominators), trimming overrides and roundings", "why_tests_cant": "all designs, tables and metric lists, through the whole pipeline", "anchors": ["feedx/data_preparation.py:prepare_and_validate_experiment_data", "feedx/experiment_analysis.py:analyze_experiment", "feedx/experiment_analysis.py:analyze_single_metric", "feedx/experiment_analysis.py:pivot_time_assignment"]}
{"id": "C104", "title": "A correctly run experiment is accepted", "statement": "If the performance table covers exactly the assigned items on exactly the days (or weeks) of the design, with finite values of the allowed sign, and the assignment table holds the coin flips of the design's salt for as many items as the design says, with a group split the binomial test accepts, then prepare_and_validate_experiment_data returns: no check fails. In particular this is so for the assignment written by the tool itself.", "quantifier": "all designs, tables, names, date formats, metrics, at-least-one metrics, skip lists", "why_tests_cant": "all correctly run experiments", "anchors": ["feedx/data_preparation.py:prepare_and_validate_experiment_data", "feedx/data_preparation.py:validate_experiment_data", "feedx/experiment_design.py:Coinflip"]}
{"id": "C105", "title": "The sample ratio check measures the imbalance of the groups", "statement": "validate_no_sample_ratio_mismatch passes every split whose groups differ by at most one item; it gives the same verdict when the two groups are exchanged; if it refuses a split it refuses every split of as many items that is at least as lopsided; among more than fifty items (the least a design may have) it refuses every split with a group of at most a fifth; and of all ways to split the items into two groups it refuses at most one in a thousand. Among up to 10^15 items it refuses every split whose groups differ by at least four times the square root of the number of items.", "quantifier": "all tables, item sets and splits", "why_tests_cant": "all splits of all sets of items; the false-alarm rate counts all 2^n splits", "anchors": ["feedx/data_preparation.py:validate_no_sample_ratio_mismatch"]}
{"id": "C106", "title": "The false positive and power checks judge the simulated rates on the right side", "statement": "After validating a design with alpha at most 1/2 the false positive check passes whenever the simulated false positive rate is at most alpha, and with a target power of at least 1/2 the power check passes whenever the simulated power is at least the target (thresholds up to 1/2). With as many simulations, fewer false positives never turn a pass into a failure, nor does more power. If all n A/A simulations are significant the first check passes only if alpha^n reaches the threshold; if no A/B simulation is significant the second passes only if (1-power)^n does. If the simulations are significant independently with probability alpha (power), the check fails with probability at most the threshold. With n simulations a false positive rate that is d above alpha fails if exp(-2nd^2) is below the threshold, and so does a power that is d below the target; so every excess and every shortfall is detected once there are enough simulations.", "quantifier": "all designs, thresholds, numbers of simulations and simulation results", "why_tests_cant": "all numbers of simulations and all outcomes; the false-alarm rate sums over all 2^n outcomes", "anchors": ["feedx/experiment_simulations.py:false_positive_rate_robustness_check_pass", "feedx/experiment_simulations.py:power_robustness_check_pass", "feedx/experiment_simulations.py:false_positive_rate_robustness_p_value", "feedx/experiment_simulations.py:power_robustness_p_value"]}
{"id": "C107", "title": "The point estimate checks compare the average estimate with the true effect", "statement": "With two or more simulations whose estimates are finite and differ, the A/B check passes exactly if the minimum detectable effect lies in the t-interval (level one minus threshold) around the average estimate, the A/A check exactly if zero does; estimates right on average pass, and the unit of the metric does not matter. A missing or infinite estimate, identical estimates, or a single simulation make the check, and so all_robustness_checks_pass, fail.", "quantifier": "all simulation results, effects and thresholds", "why_tests_cant": "all lists of estimates, including missing and infinite ones", "anchors": ["feedx/experiment_simulations.py:aa_point_estimate_robustness_p_value", "feedx/experiment_simulations.py:ab_point_estimate_robustness_p_value", "feedx/experiment_simulations.py:all_robustness_checks_pass"]}
{"id": "C108", "title": "The items of prepared history are the ids of the raw data", "statement": "prepare_and_validate_historical_data returns, for usable data, exactly one item for each item id of the raw data, with the totals of the rows that have this id; rows without an id are refused or left out.", "quantifier": "all usable raw tables", "why_tests_cant": "all tables and all mixtures of id types and missing ids", "anchors": ["feedx/data_preparation.py:prepare_and_validate_historical_data", "feedx/data_preparation.py:standardize_column_names_and_types"]}
{"id": "C109", "title": "Exchanging treatment and control mirrors the analysis", "statement": "If the two groups are exchanged (every treated item becomes a control item and vice versa, with the same values), analyze_single_metric reports the opposite difference, statistic and interval with the same p-value, significance, standard error, degrees of freedom and sample size: for plain metrics of every design and for ratio metrics of regular designs. Consequently simulated experiments without effect favour neither group: over all random assignments of the items the estimates average to zero, and significant results are equally often positive as negative.", "quantifier": "all pivoted tables, designs and metrics; all assignments of all tables", "why_tests_cant": "all values, group sizes and assignments; the average is over all 2^n coin flips", "anchors": ["feedx/experiment_analysis.py:analyze_single_metric", "feedx/experiment_simulations.py:apply_random_treatment_assignment", "feedx/experiment_simulations.py:validate_design"]}
{"id": "C110", "title": "Exchanging the groups of a crossover negates the estimate of a ratio metric", "statement": "If the two groups of a crossover experiment are exchanged, analyze_single_metric reports the opposite difference for a ratio metric (with a denominator), with or without trimming, together with the same p-value and the mirrored confidence interval.", "quantifier": "all pivoted tables and crossover designs", "why_tests_cant": "all values and group sizes", "anchors": ["feedx/experiment_analysis.py:analyze_single_metric", "feedx/experiment_analysis.py:_prepare_metrics_for_crossover_experiment", "feedx/statistics.py:yuens_t_test_paired"]}
{"id": "C111", "title": "The check of the A/A p-values measures their distance from the uniform distribution", "statement": "After a validation null_p_value_robustness_check_pass is true exactly if n independent uniform numbers are, with a probability of at least the threshold, at least as far from the uniform distribution as the n p-values of the A/A simulations (distance: the largest difference between the share of p-values up to t and t). If the p-values are independent and uniform it is false with probability at most the threshold. P-values closer to uniform never turn a pass into a failure, evenly spread p-values pass, a missing p-value fails, and the check is two-sided. Every distance is detected once there are enough simulations, in particular a false positive rate that differs from alpha in either direction.", "quantifier": "all numbers of simulations, p-values and thresholds", "why_tests_cant": "all lists of p-values; the false-alarm rate is a measure on all of them", "anchors": ["feedx/experiment_simulations.py:null_p_value_robustness_check_pass", "feedx/experiment_simulations.py:null_p_value_robustness_p_value"]}
{"id": "C112", "title": "The verdict on a design does not depend on the order of the simulations", "statement": "If the same simulated experiments are run in another order, validate_design also returns, with the same results in that order, and the simulated rates, all robustness checks, all_robustness_checks_pass and summary_dict are unchanged.", "quantifier": "all simulated experiments, orders, designs and thresholds", "why_tests_cant": "all orders of all lists of simulations", "anchors": ["feedx/experiment_simulations.py:validate_design", "feedx/experiment_simulations.py:summary_dict", "feedx/experiment_simulations.py:all_robustness_checks_pass"]}
{"id": "C113", "title": "The estimate is right on average over all assignments", "statement": "If the items are assigned at random (all assignments with the same group sizes are equally likely), then the average over all assignments of the absolute_difference reported by analyze_single_metric is the average over the items of the effect, that is of the difference between what an item does when treated and when not, whatever these values are: the analysis is unbiased. This also holds if each item is assigned by its own coin flip and experiments with fewer than two items in a group are repeated.", "quantifier": "all numbers of items, group sizes, and values of each item when treated and when not treated, with and without pretest data, regular and crossover designs", "why_tests_cant": "an average over all assignments of all possible experiments", "anchors": ["feedx/experiment_analysis.py:analyze_single_metric", "feedx/statistics.py:yuens_t_test_ind", "feedx/statistics.py:yuens_t_test_paired", "feedx/statistics.py:apply_cuped_adjustment"]}
{"id": "C114", "title": "The standard error is on average not too small", "statement": "If the items are assigned at random (all assignments with the same group sizes are equally likely), then the average over all assignments of the squared standard_error reported by analyze_single_metric is at least the average squared distance of the reported absolute_difference from the average effect, with equality exactly if all items have the same effect.", "quantifier": "all numbers of items, group sizes, and values of each item when treated and when not treated, regular and crossover designs", "why_tests_cant": "an average over all assignments of all possible experiments", "anchors": ["feedx/experiment_analysis.py:analyze_single_metric", "feedx/statistics.py:yuens_t_test_ind", "feedx/statistics.py:yuens_t_test_paired"]}
{"id": "C115", "title": "The report is computed from the rows of the raw data as documented", "statement": "If analyze_experiment accepts the data of an experiment, then its table has one row per metric in the given order, and the row of a metric is the t-test of the values of the items: for a regular design Yuen's t-test with unequal variances of the totals per week in the runtime of the items of group 1 and group 0 (CUPED-adjusted by the totals per week in the pretest weeks if there are any), for a crossover design the paired test of the totals per week in the two test periods after the washouts. After prepare_and_validate_experiment_data these are totals over the rows of the performance data dated in those weeks, for exactly the items of the assignment table, with missing rows and values counted as 0. Without trimming the reported difference of a regular experiment without pretest weeks is the difference of the two groups' totals per week and item (or of their ratios), with pretest weeks the difference of the adjusted averages, and for a crossover the average change in the two groups times 4 n1 n0 / (n1 + n0)^2.", "quantifier": "all designs, tables of performance and assignment data accepted by the checks, metrics (with and without denominators) and trimming fractions", "why_tests_cant": "must hold for every table, every week and item layout and every pattern of missing rows", "anchors": ["feedx/experiment_analysis.py:analyze_experiment", "feedx/experiment_analysis.py:analyze_single_metric", "feedx/data_preparation.py:prepare_and_validate_experiment_data", "feedx/experiment_analysis.py:pivot_time_assignment", "feedx/statistics.py:yuens_t_test_ind", "feedx/statistics.py:yuens_t_test_paired", "feedx/statistics.py:apply_cuped_adjustment"]}
{"id": "C116", "title": "Every candidate design of the designer is estimated", "statement": "In the experiment designer (notebook 01): once the historical data is accepted by prepare_and_validate_historical_data with no check skipped, the candidate designs are generated and the data covers the longest pretest and runtime, the cell that estimates the minimum detectable effects returns for every candidate: there is one analysis per different design id, in the order of the designs, holding the average, standard deviation and minimum detectable effect of its design over all the start weeks from which the windows of all the candidates lie in the data.", "quantifier": "all raw tables accepted by the checks, names of columns, metrics, lists of runtimes, pretests, trimming percentiles and washouts, random shuffles", "why_tests_cant": "must hold for every accepted table and every list of candidates", "anchors": ["notebooks/01_experiment_designer.ipynb", "feedx/data_preparation.py:prepare_and_validate_historical_data", "feedx/experiment_simulations.py:generate_all_valid_designs", "feedx/experiment_simulations.py:calculate_minimum_start_week_id", "feedx/experiment_simulations.py:SimulationAnalysis.estimate_minimum_detectable_effect"]}
{"id": "C117", "title": "The designer never mixes up designs, and what it exports is validated and repeatable", "statement": "In the experiment designer (notebook 01), whatever cells are run after the estimates, in any order, with any random values and whether they raise or not: the list of analyses keeps its ids, designs (except for salts) and estimates, validated analyses stay validated and are not validated again unless forced, and a salt once set never changes. Whenever a design is exported, it was validated and passed all five robustness checks, the file loads back as that design with its salt, and the table assigns every eligible item exactly once by the coin flip of that salt. Exporting the design again later gives the same file and the same groups. The summary table is displayed as long as there is a design, the one with validation results as soon as one design is validated.", "quantifier": "all studies, all sequences of validation and export cells (with failures), all random values", "why_tests_cant": "must hold for every history of cells, including ones interrupted by errors", "anchors": ["notebooks/01_experiment_designer.ipynb", "feedx/experiment_simulations.py:SimulationAnalysis", "feedx/experiment_simulations.py:make_simulation_summary_table", "feedx/data_preparation.py:perform_treatment_assignment", "feedx/experiment_design.py:ExperimentDesign.write_to_yaml"]}
{"id": "C118", "title": "Validating and exporting accepted studies succeeds", "statement": "In the experiment designer (notebook 01): right after the estimates of accepted data, the validation cell returns for every list of design ids and all random draws, and then holds one A/A and one A/B result per simulation for each of them. A validated design that passes its checks can be exported whenever the file name ends in .yaml and the sample ratio test does not reject.", "quantifier": "all accepted data, designs, lists of design ids and random draws; all histories of cells before the export", "why_tests_cant": "must hold for every data set and every random draw", "anchors": ["notebooks/01_experiment_designer.ipynb", "feedx/experiment_simulations.py:SimulationAnalysis.validate_design", "feedx/data_preparation.py:perform_treatment_assignment"]}
{"id": "C119", "title": "Experiments run as exported are accepted and analysed as designed", "statement": "Whatever the user did in the designer (notebook 01), once it has exported an assignment table and a design file: the analyser (notebook 02) loads the file, with its entries in any order, as one of the designs generated from what the user entered, now with a salt; it accepts the exported table, read back in any order and with any column names, together with every performance data of an experiment run according to that design; once the experiment is concluded it returns one result per metric, in the order of the metrics; each result is the one the design prescribes for the exported items, with the groups given by the coin flips of the exported salt and the values given by the totals per week in the raw performance data; and the yearly projection is shown with one row for each of the five standard metrics.", "quantifier": "all histories of the designer notebook, raw tables, exported designs, orders of the file's entries and of the table's rows, column names, performance data of experiments run according to the design, lists of metrics", "why_tests_cant": "joins two notebooks through a file and a table; must hold for every history of the first and every data of the second", "anchors": ["notebooks/01_experiment_designer.ipynb", "notebooks/02_experiment_analyzer.ipynb", "feedx/experiment_design.py:ExperimentDesign.load_from_yaml", "feedx/data_preparation.py:prepare_and_validate_experiment_data", "feedx/experiment_analysis.py:analyze_experiment", "feedx/experiment_analysis.py:format_experiment_analysis_results_dataframe"]}
{"id": "C120", "title": "Prepared experiment data has exactly the columns asked for, and unknown metrics are refused", "statement": "prepare_and_validate_experiment_data returns exactly these columns: item_id, date, the metrics asked for under their standard names, week_id, week_start, time_period, the at-least-one metrics and treatment_assignment. Analysing a list of metrics in which a column or denominator is not among them raises ValueError, so no metric is silently skipped; in particular, if the user of the analyser (notebook 02) leaves the column of a standard metric empty, the data is accepted but the analysis with the notebook's list of metrics is refused.", "quantifier": "all performance data, assignment tables, designs, names in the form and lists of metrics for which the preparation returns", "why_tests_cant": "must hold for every choice of columns and every list of metrics", "anchors": ["feedx/data_preparation.py:prepare_and_validate_experiment_data", "feedx/experiment_analysis.py:analyze_experiment", "notebooks/02_experiment_analyzer.ipynb"]}
{"id": "C121", "title": "Accepted data of concluded experiments has all dates, as the table of days per period shows", "statement": "If data with whole days as dates is accepted as that of a concluded experiment with no check skipped, its dates are one per week or one per day from the first day of the pretest to the end of the runtime, without gaps, and the analyser's table of the number of days per time period lists, sorted by name, exactly the periods of the design that have weeks, with as many (seven times as many) dates as weeks.", "quantifier": "all performance data, assignment tables, created designs and start dates for which the preparation returns", "why_tests_cant": "must hold for every accepted table and every design", "anchors": ["feedx/data_preparation.py:_validate_experiment_dates_match_design", "feedx/data_preparation.py:_validate_dates_are_either_daily_or_weekly", "feedx/data_preparation.py:prepare_and_validate_experiment_data", "notebooks/02_experiment_analyzer.ipynb"]}
{"id": "C122", "title": "The order of the rows of the loaded tables makes no difference", "statement": "Loading the historical data, the performance data or the assignment table with the rows in another order changes nothing the user sees: accepted data stays accepted, the prepared data has the same rows, the designs, estimates, validations and summaries of the designer and the results of the analyser are the same, and so are the exported design file and assignments, apart from the order in which items are listed.", "quantifier": "all tables and rearrangements of their rows, all forms, designs and random values, and all cells of the designer run in any order", "why_tests_cant": "must hold for every table and every rearrangement; the operations on the way (dropping duplicates, grouping, joining, taking the first date, ranking, sampling) each could depend on the order", "anchors": ["feedx/data_preparation.py:prepare_and_validate_historical_data", "feedx/data_preparation.py:prepare_and_validate_experiment_data", "feedx/data_preparation.py:downsample_items", "feedx/data_preparation.py:perform_treatment_assignment", "feedx/experiment_simulations.py:SimulationAnalysis", "feedx/experiment_analysis.py:analyze_experiment", "notebooks/01_experiment_designer.ipynb", "notebooks/02_experiment_analyzer.ipynb"]}
{"id": "C123", "title": "Rows of zeros, and rows of items outside the experiment, can be left out", "statement": "Leaving rows out of the loaded data that only say that nothing happened (all metrics zero or missing, and no other row of the same item and date), or, for the performance data, rows of items that are not in the assignment table, changes nothing the user sees, as long as their dates (and, for the historical data, their items) still occur, and the historical data is daily or is not reduced to a sample of the items: accepted data stays accepted, the prepared data has the same rows, and the designs, estimates, validations and exports of the designer and the results of the analyser are the same.", "quantifier": "all tables and all sets of such rows, all forms, designs and random values, and all cells of the designer run in any order", "why_tests_cant": "must hold for every table and every set of rows left out; the filled in rows take part in every later step (grouping into weeks, checks, at-least-one metrics, joins, sampling)", "anchors": ["feedx/data_preparation.py:fill_missing_rows_with_zeros", "feedx/data_preparation.py:standardize_column_names_and_types", "feedx/data_preparation.py:prepare_and_validate_historical_data", "feedx/data_preparation.py:prepare_and_validate_experiment_data", "notebooks/01_experiment_designer.ipynb", "notebooks/02_experiment_analyzer.ipynb"]}
{"id": "C124", "title": "A metric that is constant before the experiment gets a result without numbers", "statement": "If a metric (or, for a ratio, its numerator or denominator) has the same pretest value for every item of a regular experiment, for example because it was zero for all of them, and nothing is trimmed, then an analysis that returns reports nothing about it but the number of items: all numbers are nan, there are no relative effects, and the result is not significant, whatever happened in the experiment itself.", "quantifier": "all pivoted tables with two groups, regular designs with pretest weeks, metrics and values in the test", "why_tests_cant": "must hold for every table; the missing values are produced by a division of zero by zero and travel through the adjustment, the split into groups and the whole test", "anchors": ["feedx/statistics.py:apply_cuped_adjustment", "feedx/statistics.py:yuens_t_test_ind", "feedx/experiment_analysis.py:analyze_regular_experiment", "feedx/experiment_analysis.py:analyze_single_metric"]}
{"id": "C125", "title": "Only the named columns of the loaded data matter, and not what they are called", "statement": "The designer's and the analyser's results depend only on the columns that the user names in the form: tables with the same cells in the named columns, whatever those columns are called and whatever other columns the tables have, give the same designs, estimates and drawn samples in the designer and the same prepared data (or the same error) in the analyser.", "quantifier": "all forms, all pairs of loaded tables whose named columns agree, every environment (rounding, samplers, assignment files)", "why_tests_cant": "must hold for every table, every further column (including ones with internal names such as item_id or week_id) and every choice of names", "anchors": ["feedx/data_preparation.py:standardize_column_names_and_types", "feedx/data_preparation.py:prepare_and_validate_historical_data", "feedx/data_preparation.py:prepare_and_validate_experiment_data", "notebooks/01_experiment_designer.ipynb", "notebooks/02_experiment_analyzer.ipynb"]}
{"id": "C126", "title": "The designer's estimates come from the rows of the raw data as documented", "statement": "For raw historical data over consecutive days or weeks, the average, the standard deviation and the minimum detectable effect that the designer reports for a design without trimming are the documented formulas applied to the raw rows: every item's value for a start week is the total of its raw rows with dates in the (test) weeks of the experiment divided by the number of weeks, the start weeks are all those for which the longest pretest fits before and the experiment ends within the complete weeks of the data, and with pretest weeks the variance is what a regression on the items' totals before the experiment leaves (nan if these are all the same). The items are those of the raw data, all of them unless a fraction was asked for.", "quantifier": "all usable raw tables (any number of rows, items, days, daily or weekly), all forms, all generated designs without trimming, every environment (rounding, samplers, random generator)", "why_tests_cant": "must hold for every table, its gaps, repeated rows and incomplete last week, and for every design, start week and item", "anchors": ["feedx/data_preparation.py:prepare_and_validate_historical_data", "feedx/experiment_simulations.py:SimulationAnalysis.estimate_minimum_detectable_effect", "feedx/experiment_simulations.py:generate_all_valid_designs", "notebooks/01_experiment_designer.ipynb"]}
{"id": "C127", "title": "The designer's recommendations do not depend on the unit of the metric", "statement": "If all values of the raw historical data are given in another unit (dollars or cents), the designer accepts the data alike, generates and tries the same designs, and for every design without trimming reports the average, the standard deviation and the minimum detectable effect converted to the new unit (or nan in both cases) and exactly the same relative minimum detectable effect.", "quantifier": "all usable raw tables, all positive factors, all forms asking for all items, all generated designs without trimming, every environment (rounding of shares, samplers, random generator)", "why_tests_cant": "must hold for every table and every factor, through the preparation, the candidate generation and the estimates with and without pretest weeks and for crossovers", "anchors": ["feedx/data_preparation.py:prepare_and_validate_historical_data", "feedx/experiment_simulations.py:SimulationAnalysis.estimate_minimum_detectable_effect", "feedx/experiment_simulations.py:generate_all_valid_designs", "notebooks/01_experiment_designer.ipynb"]}
{"id": "C128", "title": "The report of an experiment does not depend on the unit of a metric", "statement": "If a column of the experiment data is given in another unit (cents instead of euros), the analysis either fails with the same error or returns the same rows in the new unit: for every metric the same statistic, p-value, significance, degrees of freedom, sample size and relative difference, and averages, differences, standard errors and intervals multiplied by the factor between the units (the inverse factor for ratios by that column; nothing changes for other metrics). In regular experiments the interval of the relative difference is unchanged, too, when the interval of the difference is shorter to either side than the control average. In crossover experiments the column is not held as integers.", "quantifier": "all experiment tables, all positive factors, all designs (regular with or without pretest, crossover), all lists of metrics with or without denominators and own trimming fractions, every sorting function that only compares", "why_tests_cant": "must hold for every table, factor, design and list of metrics, through grouping, trimming, adjustment by pretest values and all statistics, including the cases that raise", "anchors": ["feedx/experiment_analysis.py:analyze_experiment", "feedx/experiment_analysis.py:analyze_single_metric", "feedx/statistics.py:yuens_t_test_ind", "feedx/statistics.py:yuens_t_test_paired", "feedx/statistics.py:TrimmedArray"]}
{"id": "C129", "title": "The estimate and the validation of a design do not depend on the unit of the primary metric", "statement": "Take the history of the items in two units of the primary metric (euros and cents). A study of a design can be created from both or from neither, and after any sequence of estimates and validations with the same random draws: the minimum detectable effect, the average, the standard deviation and the results of the simulated experiments are the same in the new unit, the relative minimum detectable effect is the same, every further call returns in both studies or raises the same error in both, and the false positive rate, the power and the verdict of the robustness checks are the same. The design may trim items before and after the experiment, adjust by pretest values, or be a crossover.", "quantifier": "all histories, all positive factors, all designs (with and without trimming, regular and crossover), all sequences of estimates and validations with all random draws, every sorting function that only compares and every external test of means that only compares", "why_tests_cant": "must hold for every history, factor, design, sequence of calls and random draw, including calls that raise", "anchors": ["feedx/experiment_simulations.py:SimulationAnalysis.estimate_minimum_detectable_effect", "feedx/experiment_simulations.py:SimulationAnalysis.validate_design", "feedx/experiment_simulations.py:SimulationAnalysis.all_robustness_checks_pass", "feedx/experiment_simulations.py:apply_synthetic_treatment_effect", "feedx/data_preparation.py:trim_outliers"]}
{"id": "C130", "title": "A session of the experiment designer does not depend on the unit of the primary metric", "statement": "Upload the same raw table in two units of the primary metric (euros and cents), with the same form and the same random draws. The designer opens a session for both tables or raises the same error for both. The prepared history and the estimates are the same in the new unit, for the same designs. After any sequence of validations and assignments, which may raise: this is still so, the next validation returns in both sessions or raises the same error in both, the next assignment gives the same assignment table and the same design file (or the same error), and the table of designs that is shown has the same rows in the same order with the same texts, colours and values, except that the minimum detectable effects are in the new unit.", "quantifier": "all raw tables, with daily or weekly rows, missing rows and unreadable cells; all positive factors; all forms (any fraction of the items, skipped checks, trimming, crossover and regular designs); all sequences of cells with all random draws; every sort of the summary; every sorting function and test of means that only compare", "why_tests_cant": "must hold for every table, factor, form, random draw and sequence of cells, including the ones that raise", "anchors": ["notebooks/01_experiment_designer.ipynb", "feedx/data_preparation.py:standardize_column_names_and_types", "feedx/data_preparation.py:fill_missing_rows_with_zeros", "feedx/data_preparation.py:group_data_to_complete_weeks", "feedx/data_preparation.py:validate_historical_data", "feedx/data_preparation.py:perform_treatment_assignment", "feedx/experiment_simulations.py:make_analysis_summary_dataframe", "feedx/experiment_simulations.py:format_analysis_summary_dataframe"]}
{"id": "C131", "title": "A session of the experiment analyser does not depend on the unit of a metric", "statement": "Load the same performance data in two units of one metric (cost in euros or in cents), with the same design file, assignment table and form. The data is accepted in both units or refused with the same error in both. The loaded design, the number of days per period and the at-least-one metrics are the same, and the prepared data differs only in that metric. The analysis returns the same report in the new unit, or raises the same error: statistics, p-values, significance and relative differences are the same; averages, differences and intervals are multiplied by the factor (by its inverse for ratios that divide by the metric), and metrics that do not use it are unchanged. This holds for regular designs and for crossovers, also if the metric consists of whole numbers. The projection to a year is shown for both or raises the same error, with the same metrics, colours and p-values; so is the table of results if the bounds of the relative differences are the same (as they are in regular experiments with precise averages).", "quantifier": "all performance and assignment tables, with missing rows and unreadable cells; all design files and forms (skipped checks, concluded or not); all positive factors; all lists of metrics with or without denominators and own trimming; every sorting function that only compares", "why_tests_cant": "must hold for every table, factor, form, design file and list of metrics, including the ones that raise", "anchors": ["notebooks/02_experiment_analyzer.ipynb", "feedx/data_preparation.py:prepare_and_validate_experiment_data", "feedx/data_preparation.py:validate_experiment_data", "feedx/data_preparation.py:add_at_least_one_metrics", "feedx/experiment_analysis.py:analyze_experiment", "feedx/experiment_analysis.py:format_experiment_analysis_results_dataframe"]}
{"id": "C132", "title": "The report of an experiment does not depend on when it was run", "statement": "Load the performance data of an experiment, and the same data with all dates moved by the same amount of time, with the start date moved by the same amount, and with the same design file, assignment table and form otherwise. The data is accepted in both cases or refused with the same error in both. The loaded design is the same. The prepared data is the same except that its dates and starts of weeks are moved by that amount: week numbers, time periods, metrics and assignments are the same. The number of days per period is the same, and the analysis returns the same report or raises the same error.", "quantifier": "all performance and assignment tables, daily or weekly, with missing rows, missing dates and unreadable cells; all amounts of time, forwards and backwards; all design files and forms; all lists of metrics", "why_tests_cant": "must hold for every table, start date and amount of time, including data that is refused", "anchors": ["notebooks/02_experiment_analyzer.ipynb", "feedx/data_preparation.py:prepare_and_validate_experiment_data", "feedx/data_preparation.py:add_week_id_and_week_start", "feedx/data_preparation.py:fill_missing_rows_with_zeros", "feedx/data_preparation.py:validate_experiment_data", "feedx/experiment_analysis.py:analyze_experiment"]}
{"id": "C133", "title": "A session of the experiment designer does not depend on when the history was recorded", "statement": "Load historical data into the designer, and the same data with all dates moved by the same amount of time, with the same form and the same random draws. The data is accepted in both cases or refused with the same error in both. The prepared histories are the same except for dates and starts of weeks. The same candidate designs are listed with the same estimates; every validation gives the same simulation results or the same error; every assignment gives the same assignment table and the same design file, or the same error; and the tables that are shown are the same, after any sequence of validations and assignments.", "quantifier": "all historical tables, daily or weekly, with missing rows, missing dates and unreadable cells; all amounts of time, forwards and backwards; all forms, fractions of items and trimming; all sequences of validations and assignments with all random draws", "why_tests_cant": "must hold for every table, amount of time and history of cells", "anchors": ["notebooks/01_experiment_designer.ipynb", "feedx/data_preparation.py:prepare_and_validate_historical_data", "feedx/data_preparation.py:group_data_to_complete_weeks", "feedx/data_preparation.py:perform_treatment_assignment", "feedx/experiment_simulations.py:SimulationAnalysis", "feedx/experiment_simulations.py:make_analysis_summary_dataframe"]}
{"id": "C134", "title": "Further columns of the assignment table do not change the report", "statement": "Give the analyser an assignment table with the items and their assignments, and the same table with further columns (labels, exported attributes of the items), whose names are not those of the prepared data and which are not analysed as metrics. The same errors are raised; the prepared data has the same rows in the same order, with the further cells of a row of the assignment table for the item added to each row; the days per period and all the results of the analysis are the same.", "quantifier": "all performance tables, assignment tables, positions and contents of further columns, designs, forms, metrics and skipped checks", "why_tests_cant": "must hold for every table and every set of further columns", "anchors": ["feedx/data_preparation.py:prepare_and_validate_experiment_data", "feedx/data_preparation.py:validate_experiment_data", "feedx/data_preparation.py:_validate_no_null_values", "feedx/experiment_analysis.py:analyze_experiment", "notebooks/02_experiment_analyzer.ipynb"]}
{"id": "C135", "title": "A report never depends on further columns of the assignment table, whatever they are called", "statement": "Give the analyser an assignment table with any further columns, including ones that are called like a column of the prepared data. If a report (or the days per period) is returned, it is the one for the table with just the items and assignments. Data with a further column called like the date, the week or a metric is not accepted; a further column called week_start, without missing cells, changes neither the acceptance nor the report. No column of the prepared data may itself be called like another one with \"_x\" or \"_y\" appended.", "quantifier": "all performance tables, assignment tables, names, positions and contents of further columns, designs, forms, metrics of the prepared data and skipped checks", "why_tests_cant": "must hold for every table and every set of further columns, including clashes of names", "anchors": ["feedx/data_preparation.py:prepare_and_validate_experiment_data", "feedx/data_preparation.py:validate_experiment_data", "feedx/experiment_analysis.py:analyze_experiment", "notebooks/02_experiment_analyzer.ipynb"]}
{"id": "C136", "title": "The report does not depend on what the items are called", "statement": "Give the items of an experiment new names that sort like the old ones (with a common prefix, say), in the performance data and in the assignment table. If the check of the salt is skipped, the session of the analyser opens with both or fails with the same error in both; the design, the days per period and the report for any metrics are the same, and the data is the same except for the names. If the check of the salt is not skipped and the session opens with both, all this is the same too; and if it opens with the old names only, then a ValueError is raised with the new ones.", "quantifier": "all performance and assignment tables, strictly increasing maps of names, designs, forms and lists of metrics", "why_tests_cant": "must hold for every table and every order-preserving renaming, through sorting, grouping, merging, pivoting and the tests", "anchors": ["feedx/data_preparation.py:prepare_and_validate_experiment_data", "feedx/data_preparation.py:validate_experiment_data", "feedx/experiment_analysis.py:pivot_time_assignment", "feedx/experiment_analysis.py:analyze_experiment", "notebooks/02_experiment_analyzer.ipynb"]}
{"id": "C137", "title": "Skipping checks never has accepted data refused or changed", "statement": "If the preparation accepts data, of a history or of an experiment, then it accepts it and returns the same table with further checks skipped; for an experiment also if it is declared not to be concluded, and with further columns allowed to be negative (unless the check of negative values is already skipped). Conversely, data accepted with some checks skipped is, with any other list of skipped checks, prepared to the same table or refused with a ValueError.", "quantifier": "all tables, designs, arguments and lists of names of checks", "why_tests_cant": "must hold for every table and every pair of lists of skipped checks, although a skipped check still runs and can raise", "anchors": ["feedx/data_preparation.py:prepare_and_validate_experiment_data", "feedx/data_preparation.py:validate_experiment_data", "feedx/data_preparation.py:validate_historical_data", "feedx/data_preparation.py:prepare_and_validate_historical_data"]}
{"id": "C138", "title": "Where no trimming breaks ties, the report does not depend on the names of the items nor on their order", "statement": "Give the items of an experiment any new names, different ones for different items, in the performance data and in the assignment table. If the check of the salt is skipped, the session of the analyser opens with the old and the new names or with neither. The design and the days per period are the same, and the prepared data has the same rows, in some order, except for the names. For metrics of which nothing is trimmed, plain or ratios, with or without a pretest, in regular experiments and crossovers, and for metrics without a denominator in regular experiments without pretest weeks, whatever is trimmed of them, the analysis returns the same report or fails in both cases. This also holds whenever the session opens with both, whatever checks are skipped.", "quantifier": "all performance and assignment tables, injective maps of names, designs, forms and lists of such metrics", "why_tests_cant": "must hold for every table and every renaming, whose effect on the order of the items is an arbitrary permutation", "anchors": ["feedx/data_preparation.py:prepare_and_validate_experiment_data", "feedx/data_preparation.py:validate_experiment_data", "feedx/experiment_analysis.py:pivot_time_assignment", "feedx/experiment_analysis.py:analyze_experiment", "notebooks/02_experiment_analyzer.ipynb"]}
{"id": "C139", "title": "A session of the designer does not depend on what the items are called", "statement": "Give the items of the historical data new names that sort like the old ones (a common prefix, say). With the same form and the same random draws the designer opens a session for both histories or raises the same error for both; the prepared data is the same except for the names, and all designs have the same estimates. After any sequence of validations and assignments the estimates and simulation results are still the same, the next validation has the same outcome, and the table shown is the same. The next assignment takes the same items and writes the same design file in both sessions, or raises the same error in both; only the check of the group sizes can refuse one of the two assignments, since who is treated does depend on the names.", "quantifier": "all historical tables, strictly increasing maps of names, forms, random draws and sequences of notebook cells", "why_tests_cant": "must hold for every history, every such renaming and every sequence of user actions", "anchors": ["feedx/data_preparation.py:prepare_and_validate_historical_data", "feedx/data_preparation.py:perform_treatment_assignment", "feedx/experiment_simulations.py:SimulationAnalysis", "feedx/experiment_simulations.py:generate_all_valid_designs", "notebooks/01_experiment_designer.ipynb"]}
{"id": "C140", "title": "The estimates of designs do not depend on the names of the items nor on their order, if no trimming does", "statement": "Give the items of the historical data any other names, different ones to different items. If the form uses the whole history, trims nothing before the experiment, and either trims nothing after it or asks only for traditional designs without pretest, the designer opens a session for both histories or for neither; the prepared data is the same except for the names and the order of the rows; the designs are the same, in the same order and with the same settings, minimum detectable effects, averages and standard deviations; and the table shown is the same.", "quantifier": "all historical tables, injective maps of names, and forms that use the whole history, trim nothing before the experiment, and trim nothing after it or have only traditional designs without pretest", "why_tests_cant": "must hold for every history and every renaming, including those that change the order of the items", "anchors": ["feedx/data_preparation.py:prepare_and_validate_historical_data", "feedx/experiment_simulations.py:SimulationAnalysis", "feedx/experiment_simulations.py:estimate_minimum_detectable_effect", "notebooks/01_experiment_designer.ipynb"]}
{"id": "C141", "title": "The estimates of a design do not depend on which other designs are considered", "statement": "Open the designer twice on the same raw data, with forms that prepare the history in the same way and whose longest candidate pretest is the same, but whose other candidates (runtimes, pretests, trimming, crossover or traditional, washout) may differ. A design that is in both sessions and trims nothing before the experiment has the same id, settings, start weeks and estimates in both; so has any design if the random order of equal values does not depend on the place of the design in the list. If a session is opened for many candidates, it is also opened for fewer of them, with the same longest pretest and without trimming before the experiment. The order and the repetition of candidates make no difference to the set of analyses of such a session, unless two different designs have the same id. With another longest pretest the estimates can be different.", "quantifier": "all raw tables and all pairs of forms with the same preparation and the same longest pretest", "why_tests_cant": "must hold for every history and every pair of candidate lists", "anchors": ["feedx/experiment_simulations.py:generate_all_valid_designs", "feedx/experiment_simulations.py:calculate_minimum_start_week_id", "feedx/experiment_simulations.py:SimulationAnalysis", "feedx/experiment_simulations.py:estimate_minimum_detectable_effect", "notebooks/01_experiment_designer.ipynb"]}
