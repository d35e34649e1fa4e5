# Formal model of feedx in Lean 4

Source: `/repo/feedx` (Python).  Model and proofs: `/verif/lean/Verif`.
Properties: `properties.jsonl`; status per property: `MANIFEST.json`.

## 1. Layout

* `Verif/Base/*`  – error values, extended floats, rounding contract, list helpers, data frames.
* `Verif/Model/*` – the code, function by function, each definition citing file and lines.
* `Verif/Spec/*`  – small specifications written from the English text only (textbook definitions,
  week ranges, grids, clipping, ...).  They import no `Model` file except for plain data types.
* `Verif/Proofs/*` – helper lemmas.
* `Verif/Props/*` – one file per area holding only the property theorems (named `Cxx_...`) and, beside
  each, an `example` showing a concrete non-trivial case that meets its hypotheses.
* `Verif/Conformance/*` – tests of the model, not proofs: the model run on the literal inputs of the repository's own unit tests and compared
  with the results those tests expect.

Naming: `Cxx_name` full statement of property Cxx; `Cxx_name_partial` a part of it; `Cxx_name_false` a proof
(by concrete witness) that the code does **not** have the property as users would read it.

## 2. Modelling decisions

* **Exceptions** are values: `Except PyErr α`, with one constructor per Python exception class that the
  modelled code can raise.  The extra constructor `outOfModel` marks inputs on which the code's behaviour is not
  modelled (for instance a column of mixed types).  A theorem that says "returns" never counts such an input as
  returning, and a theorem that says "raises X" names the exception.
* **Numbers.**  Integers are `ℤ`/`ℕ`.  Floats are elements of an arbitrary linearly ordered field `K`
  (with floor), or `ℝ` where square roots or the Student t distribution occur.  Rounding of individual
  floating point operations is not modelled, with these exceptions, where it is observable: products
  `fraction * count` that are floored or rounded into item counts, the sums of trim percentiles that
  are compared with a bound, and the numbers that are formatted as text.  These go through an arbitrary rounding
  function (`Rounding`), of which only this is assumed: it is monotone and it keeps whole and half numbers up to
  2^53.  Non-finite floats are explicit: `Fl K = nan | ±inf | fin x` with numpy's rules for `/`, comparisons,
  `clip`, etc.
* **Data frames** are a list of column names plus a list of rows (row = function from column name to cell).
  Cells: null, string, int, float, ±inf, timestamp (integer nanoseconds).  The row index is not modelled
  except where code uses it (`trim_outliers`, bootstrap).  In-place mutation is modelled by also returning
  the frame as it is left behind, on the failing path too.
* **Integer columns.**  Cells of at-least-one metrics are integers, all other prepared metrics are floats.  The type of a column
  matters in one place: in a crossover the period averages of an integer metric are written into a column that stays an integer
  column if all averages of the first period are whole, and then fractions are dropped.  This is modelled (`Pivoted.whole`,
  `storeFirst`); it follows pandas 2, where `.loc` assignment keeps the type of a column if the new values fit without loss, and
  numpy, where assigning floats to slices of an integer array truncates.  Tables made by simulations are taken to be floats.
* **Tables with several index or column levels** (`Wide`) carry their index values in each row and use tuples of
  strings as column labels.
* **Histories.**  Objects with state (`SimulationAnalysis`, a design that gets a salt) are a state plus a function
  per call; properties over histories are proved by induction over arbitrary lists of calls, including calls that raise.
* **MD5** is implemented in Lean and compared with the design id in the repository's own unit test.

### External calls and their contracts

Theorems hold for every value of these parameters that meets the contract.  For each contract a witness is
constructed in Lean, so that no contract is contradictory.

| parameter | stands for | assumed |
|---|---|---|
| `Rounding` | rounding of a float operation | monotone; keeps `n` and `n/2` for whole `n` up to 2^53 |
| `argsort` | `np.argsort` | returns a permutation that sorts (ties in any order) |
| `Shuffle` | `sample(frac=1)` in `trim_outliers` | any permutation |
| `Sampler` | `rng.choice(..., replace=False)` in `downsample_items` | a duplicate-free selection of the requested size |
| `SimDraw` | draws of one simulated experiment | any start week, any row positions, any coins (the theorems that need it say "a start week in the range", "as many positions as rows") |
| `SynthRng` | numpy draws for synthetic data | lognormal draws are positive, beta draws in [0,1], binomial draws at most `n` |
| `Calendar` | `strptime`/`strftime` | different days have different texts |
| `Ext` | `astype(str/float/int)`, `to_datetime`, `to_numeric` | strings stay as they are; otherwise arbitrary partial functions |
| `DateSorter`, `SummarySorter` | `sort_values` | a sorting permutation (not stable) |
| `TDist` | `scipy.stats.t` | strictly increasing symmetric positive cdf; `ppf` is its inverse on (0,1) |
| `NormalDist` | `scipy.stats.norm.ppf` | strictly increasing on (0,1), 0 at 1/2 |
| `Checker.binom` | `stats.binomtest(...).pvalue` | arbitrary; C105 and part of C103 use `binomTest`, a model of SciPy's computation in exact arithmetic |
| `RobustnessTests` | `kstest`, `binomtest`, `ttest_1samp` p-values | arbitrary; C106 uses `binomTail`, C107 `oneSampleT` and C111 `ksTest`, models of SciPy's computations in exact arithmetic (`kstwo.sf` is taken to be the probability that `n` uniform numbers have a statistic of at least `d`) |
| float `repr` | `repr(float)` in the design id | injective, contains no `,` or `)`, never the text of an int |
| YAML | `yaml.dump` then `yaml.safe_load` | identity on mappings of scalars |
| `lower` | `str.lower` in `plot_effects` | arbitrary |
| `general` | the format `+,.kg` | arbitrary |

## 3. What is modelled and what is not

Modelled, function by function (each definition cites its lines):

* `experiment_design.py`: constructor, validation, derived counts, YAML round trip, design id, washout list and description of
  `__str__`, `Coinflip`.
* `statistics.py`: `TrimmedArray`, `apply_cuped_adjustment`, both t-tests with all their helpers, both confidence intervals,
  minimum detectable effects.
* `experiment_analysis.py`: period labels, pivoting, preparation and analysis of a metric, `analyze_experiment`, the formatted results table.
* `data_preparation.py`: standardisation, filling, weeks, grouping, downsampling, all validation checks (with SciPy's binomial test) and the two validators,
  at-least-one metrics, both pipelines, trimming, treatment assignment, synthetic data and demo effects.
* `experiment_simulations.py`: design generation, start weeks, bootstrap, random assignment, synthetic effects, `SimulationAnalysis`
  (estimate, validate, all rates and checks, with SciPy's binomial and one-sample t-tests), the summary table and its display.
* `notebooks/01_experiment_designer.ipynb`: the order in which its cells call the functions above and the dict of analyses they share.
* `notebooks/02_experiment_analyzer.ipynb`: what its cells make of the names in the form, its list of metrics, and the order in which they call the functions above.
* `plotting.py`: the numbers handed to matplotlib by `plot_metric_history`, `plot_metric_over_time`, `plot_deep_dive` and `plot_effects`.

Not modelled:

* rendering (matplotlib itself, the HTML of the pandas Styler, coloured bars, default cell texts), printed output, warnings and error texts;
* file-system errors, YAML syntax, dtype corner cases (nullable and categorical types), time zones, integer overflow;
* IEEE rounding apart from the places named in section 2; in particular the literals 0.001, 0.01, 0.99 and 1e-8 are taken exactly and
  the sign of a negative zero is not shown;
* simulated crossovers on historical data whose metric is an integer column (`prepare_and_validate_historical_data` makes it a float column);
* arrays in which some but not all values are nan, and nan values that are trimmed (a simulated experiment with a nan effect is modelled where it can occur:
  for a regular design with pretest weeks and no second trimming);
* frames with duplicate column names, overlapping columns in the assignment merge (except in C135), a non-unique row index in `trim_outliers`;
* the forms, downloads and plots of the notebooks (the plotting functions themselves are modelled), tests and `setup.py`.

## 4. Plan per property

| id | model | proof idea |
|----|-------|-----------|
| C01 | `_validate_design`, `__post_init__` as a function `Params → Except PyErr Design` | case analysis; spec = conjunction of the English conditions |
| C02 | same | floor/rounding bounds |
| C03–C04 | `asdict`, `yaml` as key/value mapping, constructor from mapping | unfold; lookup lemmas; both directions |
| C05–C06 | `repr` as a string, MD5 as function | salt cleared before printing; unique readability of the encoding by an explicit parser/prefix argument |
| C07 | Coinflip with concrete MD5 | parity of the digest |
| C08 | `__str__` washout list + labels | linear arithmetic over ℤ |
| C09–C11 | labelling functions | linear arithmetic; interval lengths by counting |
| C12 | dates of `plot_metric_over_time` | linear arithmetic over ℤ days |
| C13–C15 | pivot functions, returning result and mutated frame | group-by sums; permutation invariance; counterexample for the failing path of C15 |
| C16–C21 | `TrimmedArray` over any ordered field, any argsort | sorting-permutation lemmas; clip specification; Cauchy–Schwarz |
| C22–C24 | `apply_cuped_adjustment` | algebra over sums; branch analysis; `C23_trimmed_adjustment` gives the adjusted values with trimming exactly |
| C25–C37 | t-tests on ℝ with Student t contract | monotonicity of cdf/ppf; quadratic inequalities for Fieller; counterexamples with rational witnesses |
| C38–C41 | `experiment_analysis` preparation and drivers | algebra over lists |
| C42–C48 | `fill_missing_rows_with_zeros`, week functions, grouping, downsampling | list lemmas |
| C49–C54 | validation checks | structural |
| C55–C60 | trimming and assignment | permutation/sort lemmas, invariants over call histories |
| C61–C63 | pipelines | composition of the above |
| C64–C66 | design generation, start weeks | list membership, arithmetic |
| C67–C71 | bootstrap, random assignment, synthetic effects | list algebra; string split/join lemmas |
| C72–C73 | `SimulationAnalysis` state machine | invariant by induction over call sequences |
| C74–C76 | synthetic data | order of binomial draws; real exponential/logarithm identities |
| C77–C81 | plotting/formatting decision logic | case analysis, finite sums |
| C82 | `__eq__`, `repr` of int and float parameters | counterexample; injectivity per numeric type |
| C83 | the t-tests | equality with the textbook Yuen formulas in `Spec/Yuen` |
| C84 | `analyze_single_metric` | case analysis on the periods present |
| C85 | experiment pipeline | grid from C42, dates from C53 |
| C86 | `validate_design` | totality of every step (crossover and regular, with all trimming; CUPED up to `ZeroDivisionError`, which can occur: `C86_cuped_false`, also with a nan effect), by induction over the simulations |
| C87–C88 | `plot_metric_history` | sorted lists, sums over groups |
| C89 | `plot_metric_over_time` | counterexample |
| C90–C91 | formatted results table | digits of a rounded number; half-unit bounds |
| C92–C94 | summaries | look-ups by name; sorting permutation; exact display condition |
| C95 | `str(design)` | the lines as a list of (fixed beginning, value); the beginnings are pairwise different, so each sentence determines its value; a printed whole number read back in the decimal system (`Spec.wholeNumber`, Spec/Numbers.lean) is that number |
| C96 | preparing historical data | `Spec.UsableRaw` describes the raw data and `Spec.weekTotal` the totals; the stages (standardize, fill, weeks, group, sample) are followed on usable data to show that each returns, then the verdict of the validation (C49) is evaluated; totals by following one item and week through the stages |
| C97 | histories of `SimulationAnalysis` | two frames with the same pivots give the same results; every call keeps the pivots of usable data (induction over calls); `C97_gap_blocks_later_calls` is the exception for data with gaps |
| C98 | `plot_deep_dive` after histories of `SimulationAnalysis` | induction over calls: results change only in a returned validation; the line of the planted effect is read from the object when plotting, so it is proved for histories without a later estimate and for designs without a first trimming (`_partial`), with a counterexample for the rest (`_false`); errors of matplotlib while binning are not modelled |
| C99 | `plot_metric_over_time` up to the numbers handed to matplotlib | pivot tables as filters on date and assignment; the mean, the population standard deviation and the CUPED adjustment are rewritten to sums over the rows of a date; row order by permutation invariance of each sum; `scipy.stats.norm.ppf` is a strictly increasing function with median 0 |
| C100 | `estimate_minimum_detectable_effect` | `Spec.WeekEstimate` describes average and variance of one start week by the rows of the table; the pivot, the first trimming and the trimmed statistics are followed through the model; textbook corollaries for designs without second trimming; when the pretest averages of one start week are all equal its statistics are nan, and so are their mean, its root and the effect (`C100_cuped_constant`) |
| C101 | `estimate_minimum_detectable_effect`, `analyze_single_metric` | the estimate of C100 and the reported standard errors of C83 are both sums of squared deviations of the same values; for one start week and no item cut the exact relation follows by algebra; `C101_post_trim_false` is the witness for crossover designs with post trimming |
| C102 | as C25–C33; items as tuples | count argument: with a clean cut (`Spec.CleanCut`) the kept multiset and the extreme samples are determined; counterexamples for every argsort |
| C103 | composition of `prepareExperiment` and `analyzeExperiment` | `Spec.ExperimentData` (data of an experiment run as designed) is what the preparation leaves once "time_period" is dropped; the analysis of such data returns, by the lemmas of C35–C40 per metric; refutation for the data as it is returned |
| C104 | `prepareExperiment` from raw tables; `Spec.CorrectPerformance`, `Spec.CorrectAssignment` describe a correct run in terms of the input tables only | every stage returns (columns, parsing, merge, weeks, calendar), then every check is shown to pass on the resulting table |
| C105 | `binomTest`: SciPy's two-sided binomial test in exact arithmetic, plugged into `checkRatio` | p-value as a function of the smaller group (reflection of binomial coefficients), monotone; exponential bound of the tail; false alarms by taking the most balanced refused split; used in C103 to show that both groups are large enough; the imbalance of four roots by Hoeffding's inequality over the reals |
| C106 | `binomTail`: SciPy's one-sided binomial tests, plugged into `false_positive_rate_robustness_check_pass` and `power_robustness_check_pass` | outcomes mirrored at the observed count: the far side is at least as likely (induction on the distance), so the p-value is at least 1/2; monotone tails; false alarms by taking the least extreme failing outcome; detection by Hoeffding's inequality (`coin_mgf` and Chernoff) |
| C107 | `oneSampleT`: SciPy's one-sample t-test, plugged into the two point estimate checks | p-value of finite estimates in closed form, compared with the critical value by `ppf`; non-finite estimates make the variance nan |
| C108 | `prepareHistorical`, as C96 | consequences of C96 for tables with text ids, missing ids and ids with the same text; the totals per text are regrouped per id |
| C109 | `analyzeSingleMetric`, `randomAssign`, `analyzeWide` | the prepared arrays of the exchanged table are the exchanged arrays (regular) or have the opposite differences (crossover); C28 and C20; the coin lists are paired with the flipped ones by an involution |
| C110 | as C109, `pairedTest` with denominators | exact estimate from the arrays of C38; counterexample with three items; negated keys reverse the sorted order, so clean cuts keep the same items and the delta-method variance is symmetric; counterexample with ties for stable sorts |
| C111 | `ksTest`: SciPy's exact two-sided one-sample Kolmogorov-Smirnov test against the uniform distribution, plugged into `null_p_value_robustness_check_pass` | the statistic on the sorted p-values is the least upper bound of the distances (counting in a sorted list); false alarms by the continuity of measures along the failing outcomes; detection by a grid of `m` points and Hoeffding's inequality |
| C112 | `validateSim`, `robustnessChecks`, `summaryDict` with the tests of C106, C107 and C111 | each p-value is a function of the multiset of results; the simulations are a map over the draws |
| C113 | `analyzeSingleMetric` without trimming; `Spec.Observed`: the pivoted data as a function of the set of treated items (potential outcomes) | the reported difference in terms of the treated set, averaged with the moments of a random subset of fixed size; counterexamples for pretest values and for crossovers with unequal groups, for all values of the items; with trimming (`Props/RandomisationTrimmed.lean`) by pairing each assignment with its exchange, and a counterexample for an effect on one item |
| C114 | as C113 | Neyman's decomposition of the average squared standard error; without any effect the pretest slope does not depend on the assignment; for crossovers with equal groups the exact factor `(n - 2) / (n - 1)`; counterexample for constant effects |
| C115 | `prepareExperiment` followed by `analyzeExperiment` | the cells of the prepared table are those of the performance data or 0 (C96, C104); the pivoted values are totals per week (C35, C38, C39); untrimmed tests have means of the values, and the means are regrouped into totals of the rows; for crossovers the arrays are computed with the values as they are stored (`DropsFractions`), which is the identity unless an integer column loses fractions |
| C116 | `openStudy`: the notebook's cells from the raw data to the estimates, over `prepareHistorical`, `generateDesigns`, `minStartWeek`, `mkSimulation`, `estimateMde` | accepted data is a full panel of items and weeks (C62), so it is usable history for every admissible start (C71, C100), with numbers or nan as in C100; counterexample for a metric column "time_period" |
| C117 | `validateStudy`, `exportStudy`, `runCells`: any sequence of validation and export cells on a Python dict of analyses | induction over the cells with a relation (`Spec.Later`) between an analysis before and after; the export from C03, C05, C57, C58, C73 |
| C118 | as C117 | data reached by the estimates stays usable (C86); induction over the ids; the assignment from C57: the items to keep can be computed for accepted data, and an assignment whose ratio test always passes shows which they are |
| C119 | `prepareStudy`, `analyseData`, `showResults`, `showProjection`: the cells of notebook 02 on what `exportStudy` of notebook 01 returned | the exported table and design are those of a correct assignment (C117 and the invariant of the dict of analyses); then C103, C104, C115 and C90; reports carried over from the groups in the table to the coinflips |
| C120 | `prepareExperiment`, `analyseData` | the columns of each step of the preparation; the pivot's check of its columns |
| C121 | `prepareExperiment`, `daysPerPeriod` (cell 23 of notebook 02) | the checks of spacing and range give an arithmetic progression of dates (C53, C85); counting the dates of each period of the timeline (C09, C10) |
| C122 | `prepareHistorical`, `prepareExperiment`, `openStudy`, `runCells`, `exportStudy`, `prepareStudy`, `analyseData` | two tables with the same columns and rows up to order, through every step: each step gives the same table up to order, each check the same verdict, the pivot the same table (its index is sorted), and the simulations the same numbers |
| C123 | `fillMissing`, `mergeMissing`, `prepareHistorical`, `prepareExperiment`, `openStudy`, `runCells`, `exportStudy`, `prepareStudy`, `analyseData` | the filled in table has the same rows up to order with and without the left out rows, since each of them comes back as a row of zeros (rows of unassigned items disappear in the join); from there C122's lemmas apply |
| C124 | `prepareRegular`, `onlyNan`, `indTestFl` | the adjustment of a constant pretest is nan for every item (C24); comparisons with nan are false, so every branch of the test gives nan; `constant_returns` and `constant_returns_ratio` show that such analyses do return, for all group sizes from two on |
| C125 | `openStudy`, `prepareStudy` (both notebooks) | two tables whose named columns agree cell by cell standardize to the same table (`standardize_congr`, by induction on the list of names); everything after that works on the standardized table only |
| C126 | `openStudy` (notebook 01, cells 20, 25, 27) | the total of an item over weeks of the prepared data is the total of its raw rows, by induction on the number of weeks (one prepared row per item and week, C96); every item has a row in every week, so the items of each start week are all items; then C100 for each entry of the study |
| C127 | `openStudy` on two raw tables (notebook 01, cells 20, 25, 27) | both studies are over the same items and weeks, so the same candidates are tried in the same order (induction over the designs and the dictionary); C126 for both, with totals times c, squared deviations times c²; the relative effect is the quotient |
| C128 | `analyzeExperiment` on two tables that differ by a factor in one column | every step of the analysis commutes with the factor: grouping and period sums (induction over rows), subsets and stored cells, trimming (contract of the sort: it gives the same order in other units), adjustment by pretest values, ratio and plain statistics; both calls fail alike; `Spec.SameOutcome` composes along the monad. Held integers in crossovers and wide relative intervals are excluded (C115_crossover_false, C33_false) |
| C129 | `mkSimulation`, `runCall`, `runSim` on two histories that differ by a factor in the primary metric | the factor commutes with the pivot, the bootstrap, the ranks of the trimming (comparisons of scaled floats), the statistics, the effect, the random assignment and the added effect; the analysis of a simulated table by the lemmas of C128; induction over the start weeks, the draws and the calls; p-values are equal, so rates and checks are (contract of the external test of means: it gives the same p-value in other units) |
| C130 | `openStudy`, `runCells`, `validateStudy`, `exportStudy`, `showStudy` on two raw tables whose readings of the primary metric differ by a factor | the relation between the tables goes through standardising, filling, weeks, sums, sampling and the checks (the cells of the metric are floats, zeros stay zeros, sums scale, missing and infinite stay so, the sign is kept); the analyses by C129; the trimming of the assignment by the ranks; the summary is sorted by the relative effect, which is the same; induction over the cells |
| C131 | `prepareExperiment`, `prepareStudy`, `daysPerPeriod`, `analyseData`, `showResults`, `showProjection` on two performance tables whose readings of one metric differ by a factor | the relation of C130 goes through standardising with all metrics of the form, the missing items, filling, weeks, periods, at-least-one metrics, the join with the assignment and all checks (which look at signs and finiteness only); the metric is a column of floats, so the analysis by C128 also for crossovers; the texts other than absolute effects depend on equal numbers only |
| C132 | `prepareExperiment`, `prepareStudy`, `daysPerPeriod`, `analyseData` on two performance tables whose readable dates differ by a constant | moving the dates (`laterFrame`) commutes with standardising, the missing items, the merge and its sort, filling, weeks counted from the moved start, periods and the join; the checks compare dates with each other or with the start only; the sort of the week check is determined because a date is in one week; the analysis does not read dates |
| C133 | `prepareHistorical`, `openStudy`, `runCells`, `validateStudy`, `exportStudy`, `showStudy` on two raw tables whose readable dates differ by a constant | moving the dates commutes with the preparation (weeks counted from the moved first date, weekly sums by moved group keys, sampling of items), and with every step of the session, by induction over start weeks, simulations, designs and cells; the state of the session differs only in the dates of the stored history |
| C134 | `prepareExperiment`, `prepareStudy`, `analyseData`, `daysPerPeriod` on an assignment table and the same table with further columns | the cleaned tables agree on items and assignments, so the merged data agrees on all prepared columns; every check, the pivot and the analysis only read named columns (congruence for tables that agree on them), except the check for missing values |
| C135 | `mergeSuffixed`, `prepareSuffixed`, `prepareStudySuffixed` (Model/Suffixes.lean): the merge of the assignments with pandas' suffixes for columns in both tables | accepted data has the columns the checks read, so these got no suffix and agree with the table without further columns; the analysis only reads columns that exist; a clash with a read column makes a check raise; for week_start the merged table is shown to be accepted |
| C136 | the preparation, the checks and the analysis as in C132; `Spec.RawNamed`, `Spec.TableNamed` (Spec/ItemNames.lean) | every step commutes with the renaming: an increasing map is injective (grouping, merging, counting) and keeps the order of the sorted tables and of the pivot's index; the analysis only reads the values and the groups; the salt check is the only one that reads the names |
| C137 | `validateHistorical`, `validateExperiment`, `prepareHistorical`, `prepareExperiment` | check by check: a check that ran gives the same verdict, and a failed one is in the longer list of skipped checks; the table is built before the checks |
| C138 | as C136; `Spec.BothReturn`, `Spec.TableRenamed`, `Spec.OrderFreeMetric` (Spec/AnyNames.lean) | every step of the preparation commutes with an injective renaming up to the order of the rows (C122); the index of the pivoted table is permuted; the covariate adjustment, the removal of the period means and the tests without trimming are invariant under a joint permutation of the items (C29, C102); the test of one column is invariant with trimming too (C29), and without pretest weeks there is no adjustment |
| C139 | the preparation of the history, the simulations and the session of the designer as in C133; `Spec.PicksPositions`, `Spec.SessionNamed`, `Spec.SameButRatio` (Spec/DesignNames.lean), `Spec.RawNamed` (Spec/ItemNames.lean) | every step commutes with the renaming; a bootstrap sample numbers its items anew, so the simulated experiments are equal; the estimates only read the values; the salt is chosen without looking at the items; the invariant is kept by every cell |
| C140 | as C139; `Spec.OrderFreeForm`, `Spec.SessionRenamed` (Spec/EstimateNames.lean), `Spec.BothReturn`, `Spec.TableRenamed` (Spec/AnyNames.lean) | the preparation commutes with an injective renaming up to the order of the rows; the pivoted history has the same values in another order; without trimming the covariate adjustment, the averages and the variances ignore that order, and with trimming the statistics of one sample do (C17) |
| C141 | `openStudy` for two forms; `Spec.SamePreparation`, `Spec.SameLongestPretest`, `Spec.AsksForLess` (Spec/OtherDesigns.lean) | an entry of a session is a function of the prepared data, the first start week, the design and the order of equal values; the first start week only depends on the longest pretest, and the order of equal values is not used without trimming; the designs of the smaller form are among the wanted designs of the larger one (C64); a history with a trend shows that the longest pretest matters (Props/OtherDesignsExample.lean) |

## 5. Known disagreements between code and expected properties

Each is proved with a concrete witness by the named theorem; the part of the property that does hold is proved next to it
(`_partial`), see `MANIFEST.json`.

| property | what the code does | theorem |
|---|---|---|
| C15 | a pivot that fails with `KeyError` leaves the period column in the caller's frame; a retry then raises `ValueError` | `C15_caller_frame_unchanged_false` |
| C26, C30 | the paired test's interval is `[nan, nan]` for a constant sample although its p-value is a number; for plain metrics this happens exactly when one winsorized sample is constant (`C30_two_sided_interval`) | `C26_paired_test_false`, `C30_constant_sample_false` |
| C31 | the relative interval need not contain the estimate (strong correlation, uncertain control mean) | `C31_contains_estimate_false` |
| C33 | an absolute tolerance of 1e-8 makes relative results depend on the units | `C33_false` |
| C34 | the independent test of a plain metric raises `ZeroDivisionError` for a zero control mean | `C34_independent_test_false` |
| C40 | the analysis ignores the design's alpha and always uses 0.05 | `C40_design_alpha_false` |
| C44 | missing metric values become zeros before validation can report them | `C44_nulls_reported_false` |
| C47 | weekly data with a single date is dropped as an incomplete week | `C47_single_date_false` |
| C49 | a skipped check that raises by itself still raises | `C49_skipped_check_raises_false` |
| C51 | dates with different sets of items of equal size pass the duplicate check | `C51_missing_rows_pass_false` |
| C55 | rows with a missing ordering value are dropped in addition to the trimmed ones | `C55_missing_values_false` |
| C59 | a failed randomisation keeps its salt, so that every retry fails in the same way | `C59_retry_repeats_false`, `C59_mismatch_is_permanent_false` |
| C65 | without washout weeks, design generation raises `TypeError` even if crossovers are not allowed | `C65_traditional_only_false`, `C65_type_error_false` |
| C68 | metric names with a double or an outer underscore are changed by the random assignment | `C68_false` |
| C70 | an untrimmed crossover with groups of different sizes does not recover the planted effect exactly | `C70_false` |
| C75 | the beta sampler does not have the requested standard deviation | `C75_beta_false` |
| C77 | an infinite bound of the primary metric cannot be drawn | `C77_infinite_primary_bound_false`, `C77_reachable_result_false` |
| C77 | a table in which no metric has a relative effect cannot be drawn (`TypeError`) | `C77_no_relative_effect_false` |
| C80 | a missing p-value is shown as `p>0.99` | `C80_nan_p_value_false` |
| C81 | a constant washout is not moved to the caption | `C81_washout_stays_false` |
| C82 | designs that compare equal (1 and 1.0) have different ids | `C82_equal_designs_same_id_false` |
| C68, C86 | a primary metric called like `_clicks`, `clicks_` or `ad__clicks` can be estimated but never validated: `KeyError` in the first simulation | `C86_metric_name_false`, `C86_metric_name_never`, `C86_metric_name_error` |
| C86 | validating a regular design with pretest weeks can raise `ZeroDivisionError` on positive data: the adjusted values of a simulated control group may have the average zero | `C86_cuped_false` |
| C89 | the time plot reads the columns `date` and `time_period` whatever names are given | `C89_column_names_false` |
| C90 | a table without any relative effect cannot be displayed with the default options | `C90_no_relative_effect_false` |
| C90 | two results of the same name cannot be displayed (`KeyError`: pandas does not style tables with a repeated index) | `C90_same_name_false` |
| C91 | confidence levels are rounded to whole percents, 99.5% is shown as 100% | `C91_level_rounded_away_false` |
| C94 | the table of unvalidated analyses cannot be displayed with the default options | `C94_unvalidated_false` |
| C94 | the table of two analyses of the same design cannot be displayed (`KeyError`, as for C90) | `C94_same_design_false` |
| C95 | a top (bottom) trim of less than one item is described as a trim if items are trimmed at the other end | `C95_top_mentioned_false` |
| C96 | another metric whose column is called "week_id" is accepted and its values are replaced by the week numbers | `C96_week_id_false` |
| C98 | the line of the planted effect in the deep dive is at the newest estimate, not at the effect the validation planted; random tie-breaking in the first trimming can move it (to zero in the witness) | `C98_effect_line_false` |
| C99 | with the CUPED adjustment the plot over time raises `KeyError` when all items have the same pretest total, for example none at all | `C99_equal_pretest` |
| C101 | for a crossover design with post trimming the estimate adds a quarter of the squared difference of the period means to the variance, but the analysis has the whole square: the assumed standard error is too small by up to a factor of two | `C101_post_trim_false` |
| C102 | with trimming, ratio and paired tests depend on the order of the items: ties of the numerator (of the difference) at the cut are broken by position, but the tied items have different denominators (levels) | `C102_ratio_false`, `C102_paired_false` |
| C103 | `analyze_experiment` refuses the data returned by `prepare_and_validate_experiment_data` (column "time_period"); the notebook drops the column first | `C103_prepared_refused_false` |
| C108 | rows of the history without an item id are not reported but become one item, named by the text of a missing value; ids of different types with the same text become one item | `C108_missing_ids_false`, `C108_same_text_false` |
| C110 | in a crossover with groups of different size and no trimming, exchanging the groups does not negate the estimate of a ratio metric (-4/7 becomes 1) | `C110_unequal_groups_false` |
| C110 | in a trimmed crossover, items with equal differences of the numerators but other values at the cut: exchanging the groups keeps other items, and the estimate 1 becomes -1/3 | `C110_ties_false` |
| C38, C115 | in a crossover, if all period-1 averages of an at-least-one metric are whole numbers, the averages of treated items of period 2 are written into an integer array and lose their fractions. With trimming the reported difference is wrong (0 although the groups differ); without trimming only the level is wrong, and with it relative and ratio results | `C38_crossover_pairs_false`, `C115_crossover_false` |
| C113 | with pretest data the estimate is biased towards 0: with the same effect `e` for all items its average over all assignments is `e (n - 2) / (n - 1)`, because the slope of the adjustment is estimated from all items, treated ones included | `C113_cuped_false` |
| C113 | in a crossover with groups of size `k` and `n - k` the average of the estimate is `4 k (n - k) / n²` times the average effect | `C113_crossover_false` |
| C113 | with trimming after the experiment an effect on a single item is cut off: every assignment reports the difference 0 | `C113_trimmed_false` |
| C114 | in a crossover with equal groups and constant effects the squared standard error is on average `(n - 2) / (n - 1)` of the squared error: the paired test counts `n - 1` degrees of freedom, though the means of both periods were subtracted | `C114_crossover_false` |
| C116 | data accepted by `prepare_and_validate_historical_data` whose metric is in a column called "time_period" is refused by every analysis: the period labels are written into a column of that name | `C116_time_period_false` |
| C118 | history in which the metric is zero in all rows is accepted by the designer, but validating any regular design without pretest weeks then raises `ZeroDivisionError`, for all random choices | `C118_zero_metric_false`, `C118_idle_items_false` |
| C120 | the analyser's form allows the column of a standard metric to be left empty, but the notebook's list of metrics then makes the whole analysis raise `ValueError`; the user has to edit the list | `C120_left_empty` |
| C121 | a concluded experiment is accepted although the last six days of its daily data are missing: only the first day of the last week is required. The analysis counts the incomplete week as a whole one | `C121_last_days_missing_false` |
| C119 | in a regular experiment without pretest weeks, a metric without denominator that is zero for all the control items (and not negative for the others) makes the whole analysis raise `ZeroDivisionError`, also for every other metric | `C119_division_false` |
| C122 | which items of weekly data are kept when the historical data is downsampled depends on the order of the rows, with the same seed: the items are sampled in order of appearance. (Daily data is sorted by the grouping into weeks before that.) | `C122_weekly_sample_false` |
| C134 | data that is otherwise accepted is refused if a further column of the assignment table, which is used for nothing, has a missing cell: the check for missing values looks at all columns | `C134_report_false`, `C134_missing_cell` |

Limits of single theorems: C29's independence of the sample order is for plain metrics (see C102 for the others); C55 and C56 assume up to 2^51 rows (exactness of
the rounded counts); validation with `n_simulations=0` succeeds but all later reads raise `KeyError` (`C92_without_simulations_raises`,
and C73 assumes at least one simulation).

## 6. Trusted base

* Lean's kernel (4.33.0) and the Mathlib modules imported.
* Axioms: every theorem depends on a subset of `propext`, `Classical.choice`, `Quot.sound`; no theorem uses `sorry`, `native_decide`
  or `bv_decide`, and no axiom is added.
* The faithfulness of the definitions in `Verif/Model` to the code, as described in sections 2 and 3, and of the contracts in the table of
  section 2 to numpy, pandas and scipy.
* The reading of the English properties in `Verif/Spec` and in the statements in `Verif/Props`.

## 7. Testing the theorems

`seeded/LOG.jsonl` lists edits of the model that imitate programming errors, the theorems that then failed and, where none did, what was tightened.

## 8. Testing the model

`Verif/Conformance` runs the model on the inputs of the repository's unit tests (data_preparation_test.py, experiment_design_test.py and the
parts of experiment_simulations_test.py, experiment_analysis_test.py and statistics_test.py that involve neither random numbers nor distributions)
and compares the results with the expected ones, among them the six descriptions of designs with their hexadecimal ids, which depend on every
character of the representation of a design and on the model of MD5.  No claim in `MANIFEST.json` rests on these modules.
