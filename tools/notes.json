{
 "C82": "The code violates the property: 1 and 1.0 are equal parameter values but print differently. Proved the counterexample and the property for parameters written with the same numeric type.",
 "C15": "The code violates the property on the KeyError path (no row in the test weeks): the period column stays in the caller's frame and a retry raises ValueError. Proved for every other outcome.",
 "C26": "The code violates the property for the paired test when one sample is constant (or a ratio has a zero mean): the interval is [nan, nan] while the p-value is an ordinary number. Proved the counterexample, the full property for the independent test, and the paired test whenever its interval is not nan.",
 "C30": "Fails for constant samples (correlation 0/0, see C26): C30_constant_sample_false, for every constant sample and level. C30_two_sided_interval is exact for plain two-sided tests: the interval is built from the reported standard error unless a winsorized sample is constant, and is [nan, nan] then. Proved for all other samples, plain and ratio metrics.",
 "C31": "The -100% limit is proved for all inputs. That the interval contains the estimate is false for strongly correlated samples with an uncertain control mean (counterexample proved); proved when the control mean is significantly away from zero or the samples are not too strongly correlated (e.g. independent).",
 "C33": "The code compares variances with the absolute tolerance 1e-8 (np.isclose), so changing units can turn an infinite upper bound into one below the lower bound (counterexample proved). Proved whenever the tolerance is not crossed or the control mean is significantly away from zero.",
 "C34": "The independent test of a plain metric raises ZeroDivisionError for a zero control mean (counterexample proved, with the exact condition). Proved for the paired test and for ratio metrics.",
 "C40": "The code violates the property: the analysis never passes the design's alpha to the tests, so every result is computed at the default level 0.05. Proved the counterexample (a creatable design with alpha 0.1) and that the reported level is always 0.05, hence the design's own level exactly when that is 0.05.",
 "C47": "The code violates the property for weekly data with a single date: no spacing can be measured, the date is taken for a daily one and its rows are dropped as an incomplete week (counterexample proved). Proved for weekly data with at least two dates, and that mixed spacings are refused.",
 "C49": "Proved for all data on which the checks come to a verdict (columns present and typed, at least one row, one week id per date). The full property fails: a check that raises by itself (dates not timestamps, empty data) raises even if it is skipped (counterexample proved).",
 "C51": "The code violates the property: only the number of items per date is compared, so dates with different items pass (counterexample proved). Proved: at most one row per item and date, equal item counts, and the full statement if some date has a row for every item.",
 "C55": "Count claim false when ordering values are missing: those rows are dropped as well unless nothing is trimmed (C55_missing_values_false); C55_with_missing_values says exactly what is returned for all data. Proved in full for complete data (up to 2^51 rows).",
 "C59": "False: the salt is stored before the ratio check, so a retry repeats the failure (C59_mismatch_is_permanent_false, C59_retry_repeats_false). Proved for a caller that clears the salt first.",
 "C44": "The code violates the property: missing metric values are filled with zero before validation. Proved the counterexample, and that the validation functions report every missing value that reaches them.",
 "C65": "The code violates this: without washout weeks it raises TypeError instead of the documented behaviour, even for traditional-only candidates. Proved: concrete counterexamples (C65_traditional_only_false, C65_type_error_false) and the property whenever washout weeks are given (C65_with_washout_partial).",
 "C68": "The code renames metrics whose name contains a double underscore or starts or ends with an underscore when it flattens and restores the column names. C68_false is a concrete counterexample; C68_random_assignment_partial proves the property for every table whose metric names have neither. The consequence for validating a design is C86_metric_name_error.",
 "C70": "The change of the estimate equals the planted effect exactly without CUPED in regular designs and in trimmed crossovers. It is not exact in untrimmed crossovers with groups of different sizes, nor with CUPED when the pretest means of the groups differ; the exact factor is proved for both, and C70_false is a concrete crossover that reports 8 for an effect of 9. With CUPED the pretest values must not all be equal (C124). CUPED together with post-trimming is not covered.",
 "C75": "Proved for the lognormal sampler against the real lognormal distribution. For the beta sampler the mean is right, but the standard deviation is not the requested one (false by a witness with the default click-through rate); it is right exactly if sqrt(mean(1-mean)) is the golden ratio times the requested one.",
 "C86": "Proved for every crossover design and every regular design without pretest weeks, with any trimming. For regular designs with pretest weeks (CUPED), also if the estimated effect is nan: it returns or raises ZeroDivisionError (average adjusted control value exactly zero); C86_cuped_false shows that the error does occur on positive data. The primary metric must have an ordinary name: if it contains a double underscore or starts or ends with an underscore, validation never returns (C86_metric_name_never); on usable data it raises KeyError (C86_metric_name_error, also for the empty name), although estimating succeeds (C86_metric_name_false); for crossover designs the ordinary names are exactly those that work (C86_metric_name_iff).",
 "C77": "The drawing rule, the finite bounds and the geometry are proved for the metrics that are drawn, and that results with significantly positive control averages are always drawn. The property fails when the primary metric has an infinite bound (counterexamples proved, one of them reached by the t-test), and when no metric of the table has a relative effect (C77_no_relative_effect_false).",
 "C80": "Proved for every p-value that is a number. A missing p-value (all differences equal to zero, 0/0 statistic) is shown as p>0.99: C80_nan_p_value_false.",
 "C89": "The code violates the property: the date column is read through a fixed name. Counterexample proved.",
 "C90": "Proved for every table with different metric names and with a relative effect (or without the relative columns). The code raises TypeError with the default options when no metric has a relative effect (C90_no_relative_effect_false), and KeyError when two results have the same name (C90_same_name_false). The `+,.kg` texts of the absolute columns are a parameter.",
 "C91": "Levels that are not whole percents are rounded away (0.995 and 0.999 are both shown as 100%): counterexample proved, and the property for whole percents.",
 "C81": "The code does not list crossover_washout_weeks, although it is a design attribute, so a constant washout stays a column (counterexample proved). Proved for all the attributes the code lists, with the exact return condition.",
 "C94": "The code violates the property: a table none of whose analyses has been validated raises TypeError when displayed with the default options (None % formatting), and a table with two analyses of the same design raises KeyError (C94_same_design_false). Proved the counterexamples, the exact condition under which a table can be displayed, and all texts and colours of every table that can.",
 "C95": "Proved: every design can be printed and starts with its id; all printed settings, counts and washout weeks are those of the design. The last part is violated: a requested top (bottom) trim of less than one item is described as items left out if items are left out at the other end (counterexample); the exact condition is proved. The salt, id and fraction texts use the printing contracts of DESIGN.md section 2.",
 "C96": "Proved: usable raw data is accepted with exactly the stated columns, weeks, items and totals; negative totals and unknown metrics raise ValueError. The last sentence is violated by another metric whose column is called \"week_id\": its values are silently replaced by the week numbers (counterexample); it is proved for all other metrics.",
 "C98": "Proved: the refusal, the shown values and the zero-simulation error, for all histories. The line at the planted effect is proved when no estimate follows the validation, and for all histories on usable data when the design trims no items before the experiment. It is violated by a later estimate with a first trimming: the line is then at the newer estimate (counterexample with a positive planted effect and a line at zero). Errors raised by matplotlib while binning are not modelled.",
 "C99": "Proved over the reals for the numbers handed to matplotlib. Assignments other than 0, 1 and missing, and columns given twice, are outside the model; values of a plotted metric are finite in the theorems on the points.",
 "C100": "Proved over the reals, for power and alpha strictly between 0 and 1. C100_formula covers every estimate that returns: numbers, or nan for everything when the regression is not defined for some start week (C100_cuped_constant).",
 "C101": "Proved for one start week and designs that cut no items; false for crossover designs with post trimming (C101_post_trim_false; C101_post_trim_partial gives the exact relation when no item is cut). Missing: designs that cut items, where trimming is done per group in the analysis and jointly in the estimate, so no exact relation can hold. C101_post_trim_partial assumes that the stored averages keep their fractions (see C38). C101_cuped is about estimates that are numbers (not nan, see C100_cuped_constant).",
 "C102": "Proved when nothing is trimmed or the cut is clean (different items with the same trimming key are all well inside or all cut). False otherwise: items with equal numerators (equal differences) at the cut are chosen by their position, so for every sorting routine two orders of the same items give different results (C102_ratio_false, C102_paired_false).",
 "C103": "The code violates the property: the prepared data has a column time_period, which the analysis refuses with ValueError (C103_prepared_refused_false). Proved for crossover designs once that column is dropped, for every metric list, also from the raw tables of a correctly run experiment (C103_correct_crossover_analysed). For regular designs: with the binomial test of C105 the groups are always large enough, and the analysis returns or raises ZeroDivisionError (C34); without pretest weeks it always returns if the control items have positive totals.",
 "C104": "Proved for every created design and every table; the p-value of the binomial test is a parameter and assumed to be above the threshold of the check.",
 "C105": "Proved for the binomial test as SciPy computes it, in exact arithmetic. The bound 10^15 of the last claim comes from SciPy's relative tolerance of 1e-7 for equally likely outcomes.",
 "C106": "Proved for the one-sided binomial tests as SciPy computes them, in exact arithmetic. The first two claims are proved for alpha up to 1/2 and power from 1/2, as the property says.",
 "C107": "Proved for the one-sample t-test as SciPy computes it, in exact arithmetic, for every t distribution meeting TDist. A check with identical estimates fails even if they are exactly right.",
 "C108": "The code violates the property: missing ids become an item (C108_missing_ids_false, for every usable table with missing ids) and ids with the same text are merged (C108_same_text_false). Proved when every id is a text.",
 "C109": "The result of the exchanged table is compared when both analyses return (a regular analysis raises for a control mean of zero, see C34); the intervals when both are numbers (C30). A constant pretest is included: both results then have no numbers (C124).",
 "C110": "The code violates the property when the groups differ in size and nothing is trimmed (C110_unequal_groups_false: -4/7 becomes 1): the periods are demeaned and then moved back to the mean of the control values, which a ratio does not cancel. It also violates it when items with equal differences of the numerators, but other values, meet the cut of a trimmed crossover (C110_ties_false, stable sorting: 1 becomes -1/3). C110_estimate_partial gives the exact estimate of every untrimmed crossover in which no fraction is lost (see C38; the same is assumed in the other partial theorems); C110_mirrored_partial proves that everything reported is mirrored in all other cases: trimming with a clean cut, or equally large groups without trimming (C110_equal_groups_partial states the estimate alone).",
 "C111": "Proved for the exact null distribution of the Kolmogorov-Smirnov statistic (SciPy's kstwo.sf without rounding), as a Lebesgue measure on the cube.",
 "C112": "Proved for the tests of C106, C107 and C111.",
 "C113": "Proved without post-trimming for regular experiments without pretest data (C113_regular_partial for fixed group sizes, C113_coin_flips_partial for any set of group sizes) and crossovers with equal groups (C113_crossover_partial). The code violates the property with pretest data (C113_cuped_false: with a constant effect e the average is e (n-2)/(n-1)) and for crossovers with unequal groups (C113_crossover_false); C113_cuped_partial (pretest values that are not all equal) and C113_crossover_partial give the exact averages. With post-trimming the average is the effect if all items have the same effect and each assignment's exchange is possible too (C113_trimmed_partial, C113_trimmed_crossover_partial); an effect on a single item is never seen (C113_trimmed_false: reported difference 0 for all assignments). For a treatment without effect the average is 0 and gains and losses are equally often significant, for every design (C113_no_effect_partial; with pretest data, unless the pretest is constant and untrimmed, see C124). Missing: ratio metrics, pretest data together with trimming.",
 "C114": "Proved without post-trimming for regular experiments without pretest data (C114_regular_partial, with the exact excess). With pretest data it is proved, with equality, if there is no effect on any item (C114_cuped_no_effect_partial). The code violates the property for crossovers (C114_crossover_false); C114_crossover_partial gives the exact average for equal groups. Missing: post-trimming, pretest data with an effect, ratio metrics, crossovers with unequal groups.",
 "C115": "C115_regular: the tests of every accepted regular analysis, from the rows of the analysed table; C115_raw_regular: the same from the rows of the performance data and the assignment table, for concluded experiments prepared without skipped checks. For crossovers the property is false for at-least-one metrics whose fractions are lost (C115_crossover_false): C115_crossover_stored and C115_raw_crossover_stored say what is reported for every metric, C115_crossover_partial and C115_raw_crossover_partial that it is the documented test for every metric that loses no fraction. C115_regular_totals, C115_regular_pretest_totals and C115_crossover_totals_partial: the untrimmed report in closed form; C115_crossover_difference: the untrimmed plain difference, which is right for every metric; C115_raw_totals and C115_raw_difference: from the raw tables. For crossovers with groups of different size the reported difference is smaller than the average change (see C113).",
 "C38": "The code violates the property for integer metrics (at-least-one metrics): when all period-1 averages are whole, period-2 averages lose their fractions while the arrays are rearranged (C38_crossover_pairs_false). C38_crossover_pairs_stored and C38_crossover_pairs_ratio_stored say what is paired in every case, C38_crossover_pairs_partial and C38_crossover_pairs_ratio_partial that these are the items' own values unless fractions are lost. C38_period_effects_cancel holds as stated.",
 "C116": "C116_every_design_estimated_partial: all candidates are estimated, with the stated statistics, from all admissible start weeks (nan if the pretest averages are all equal for a start week, see C100). Assumed beyond the English: at most 2^51 items. The full statement (C116_full) is false: accepted data whose metric column is called \"time_period\" cannot be used with any design (C116_time_period_false; C116_time_period for every such table).",
 "C117": "C117_history, C117_validated_kept, C117_all_validated: any sequence of cells; C117_export: what is exported; C117_same_export: exporting again; C117_shown: the summary tables. Texts typed into the form are taken as already split into lists; the data of the study is that of the opening cell.",
 "C118": "C118_validation_returns_partial: crossover designs, and regular designs without pretest weeks on positive values, with two items left in each group. C118_any_validation_partial: with designs of any kind it returns with all results, or raises ZeroDivisionError, the latter only if some validated design is regular with pretest weeks. The full statement is false: on accepted history without any value of the metric the validation of a regular design without pretest weeks always raises ZeroDivisionError (C118_zero_metric_false, with a study of sixty items in C118_idle_items_false); with pretest weeks it also occurs for positive values (C86_cuped_false). C118_every_design_exported: every design that passes its checks, with or without items cut before the assignment, gets a table of as many items as it counts; the sample ratio test is only assumed for the kept items and the salt that is used (C118_export_returns states it for all items when none are cut).",
 "C119": "C119_data_accepted: the file loads as a generated design with a salt and the data is accepted; C119_crossover_analysed; C119_regular_analysed_partial: one result per metric or ZeroDivisionError, with the exact binomial test. C119_crossover_report, C119_regular_report: what the results are. C119_tables: the projection is always shown, the table of results exactly if some result has relative effects. Assumed beyond the English: at most 2^51 rows of historical data, names in the form that differ from each other and from the columns of the prepared data, more than 50 items left after an overridden trimming. The code violates the property for regular designs: a metric that is zero for all the control items makes the analysis raise (C119_division_false).",
 "C120": "C120_columns, C120_unknown_metric, C120_left_empty. The assignment table has its two columns only.",
 "C121": "C121_dates, C121_table_partial: all of the statement except that the last week may be incomplete. The full statement is false: a concluded experiment is accepted with daily data that ends with the first day of the last week (C121_last_days_missing_false: 22 days of 28).",
 "C122": "C122_experiment_data, C122_analysis, C122_report: the analyser, without restriction (the at-least-one metrics may not be called week_id or date, which the notebook's never are). C122_historical_data, C122_designer: the designer when all items are kept, for any cells run in any order; C122_daily_history, C122_designer_daily: daily data, whatever part of the items is kept. The full statement is false: the items kept of weekly data depend on the order of the rows (C122_weekly_sample_false).",
 "C123": "C123_experiment_data, C123_report: the analyser. C123_historical_data, C123_designer: the designer when all items are kept, for any cells run in any order; C123_daily_history, C123_designer_daily: daily data, whatever part of the items is kept. Proved in the direction that data accepted with the rows is accepted without them. For weekly data that is downsampled nothing is claimed: the order of the rows, on which the sample depends (C122), changes.",
 "C39": "The values are stated for metrics that are not constant in an untrimmed pretest; for those see C124.",
 "C124": "For the analysis of one metric, plain and ratio; C103 shows that the analysis returns or raises ZeroDivisionError, the latter only for a metric without denominator, and constant_returns and constant_returns_ratio that it returns for constant pretests.",
 "C125": "The names of columns that the assignment table has, too (item id and treatment), and of metrics that are not standard ones, are kept: they are also the names in the results. The named columns must be different ones.",
 "C126": "Designs without trimming; with trimming, C116 gives the estimates from the items' weekly averages in the prepared data and C126_averages gives these averages from the raw rows. Study on at most 2^51 items. The weeks are counted from the first date of the raw data; days after the last complete week are not used.",
 "C127": "Designs without trimming (with trimming, equal averages may be ordered differently by the unstable sort). All items asked for (fraction 1), no rows skipped. Real arithmetic: rounding of the values is not modelled.",
 "C128": "Real arithmetic: rounding of the values is not modelled. The sort is a parameter with the contract that it gives the same order for numbers in other units. Crossovers: the column is not held as integers in either table (C115_crossover_false shows what happens then). The bounds of the relative difference are compared for regular experiments with a precise control average only (C33_false).",
 "C129": "Real arithmetic: rounding of the values is not modelled. The sort is a parameter with the contract that it gives the same order for numbers in other units, and the external test of means has the contract that it gives the same p-value for numbers in other units (shown for any p-value of the t statistic). The item and treatment columns are not called like a period. The random draws are the same in both studies.",
 "C130": "Real arithmetic: rounding of the values is not modelled. The sort and the external test of means have the contracts of C129. The column of the metric is not called week_id, week_start or time_period (names that the notebook uses for its own columns). The random draws are the same in both sessions. Strengthens C127 to designs that trim, to parts of the items, to skipped checks, and to the validation, the summary and the assignment.",
 "C131": "Real arithmetic: rounding of the values is not modelled. The metric is not called like a column that the notebook makes (week_id, week_start, time_period, treatment_assignment, at_least_one_click, at_least_one_impression, at_least_one_conversion), and its column is neither the item nor the date column. The bounds of relative differences can differ (C33_false); C131_tables has their equality as a hypothesis for the table of results. The texts of absolute effects are those of the new numbers and are not compared.",
 "C132": "The item and the date column are different, and at-least-one metrics are not called week_id or date (in the session theorem they have the notebook's names). Dates are unbounded integers of nanoseconds: the range of pandas timestamps, and the parsing of texts into dates (an external function; the theorem is about the dates it returns), are not modelled.",
 "C133": "Dates are unbounded integers of nanoseconds, and the parsing of texts into dates is an external function; the theorem is about the dates it returns. The random draws are the same in both sessions.",
 "C134": "Proved if the further columns have no missing cells; with one the data is refused (`C134_missing_cell`), so the full statement is false of the code (`C134_report_false`). Further columns called like a prepared one are in C135.",
 "C135": "Columns in both tables get the suffixes _x and _y. Suffixes that make two columns have the same name are outside the model (an error here, so `C135_refused_names` says such data is not accepted by the model, not which error pandas raises).",
 "C136": "For new names that sort like the old ones. Without that condition the rows of the pivoted table come in another order.",
 "C137": "A skipped check still runs, so it can raise; if the check of negative values is skipped, allowing further columns to be negative could have it read further columns.",
 "C138": "For metrics of which nothing is trimmed, and for metrics without a denominator in regular experiments without pretest weeks. With other trimming, items that tie at a cut are cut by their order, which the names decide: see C102_ratio_false and C102_paired_false.",
 "C139": "For generators that draw positions (as `Series.sample` does) and names that keep their order; the order decides ties at the cuts of the pretest trimming and which row a bootstrap position is.",
 "C140": "For an `argsort` that sorts. The errors of two refused sessions are not compared. Simulated validations are not covered: which item a bootstrap position is depends on the order of the names.",
 "C141": "The longest pretest has to be the same: it fixes the first start week of all designs, and `C141_longest_pretest_matters` has a history where a further candidate with a pretest changes the average of a design. Two different designs with the same id (a collision of the hash) are not excluded, therefore the comparison is by design."
}