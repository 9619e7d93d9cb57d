# Formal model of lxai2019 (spta) in Lean 4 — design

The source under study is `/repo/spta` (read as text, never executed). This
document says what is modelled, what is trusted, and how each property of
`properties.jsonl` is proved. `MANIFEST.json` maps properties to theorem names;
`seeded/LOG.jsonl` records the mutation tests of the theorems.

## Layout

* `lean/Verif/Model/*.lean` — definitions mirroring the python functions; every
  definition has a comment citing the file and lines it models, and where it is
  a simplification.
* `lean/Verif/Spec/*.lean` — small specifications that do not use the helpers
  of the model (what a nearest medoid is, what a warping path is, ...).
* `lean/Verif/Lemmas/*.lean` — helper lemmas (no property statements).
* `lean/Verif/Props/*.lean` — the theorems of the properties, each with an
  `example` that meets its hypotheses. Theorems about properties which the code
  violates come in pairs: `..._refuted` (a concrete witness against the full
  claim) and `..._partial` (what does hold).
* `lean/Verif/Conformance/*.lean` — the inputs and expected results of the
  project's own unit tests (`/repo/spta/tests`), evaluated on the model. These
  are examples that tie the definitions to the code, not proofs of properties.

## Trusted base

* Lean 4.33.0 kernel; Mathlib (same version) for algebra and list lemmas.
* Axioms: at most `propext`, `Classical.choice`, `Quot.sound`; the section
  "Axioms per theorem" lists them. No own axioms, no `sorry`, no
  `native_decide`, no `bv_decide`.
* The reading of the python source. The tie between model and code is the line
  citations, and agreement with the expectations written in the unit tests of
  the project (`Conformance`); the code is not executed.

## Modelling conventions

* Exceptions are values: functions that may raise return `Except PyErr α`.
  `PyErr` distinguishes `ValueError`, `AssertionError`, `IndexError`, ...
  `diverges` stands for a loop that never ends.
* Floats: series and distances are elements of an arbitrary linear ordered
  field `K` (exact arithmetic); NaN is `none` in `Option K` where the code treats
  NaN specially, infinity is `⊤` where it can occur and matters (fuzzy
  memberships, extrema, forecast errors). Rounding, overflow and signed zeros
  are not modelled. `int(sqrt(n))` is `Nat.sqrt n`, `int(a / b)` is `a / b` on
  `Nat` (python goes through a float; exact below 2^52). Square roots and powers
  are parameters with their defining property as hypothesis, and an example
  shows that the real functions meet it.
* numpy arrays: a 2d array of shape `(x_len, y_len)` is its shape plus a
  row-major flat list of length `x_len*y_len` (`Grid`), a 3d array is a grid of
  series (`Cube`). Indices are natural numbers; negative indices are modelled
  only where a property depends on them.
* Region decorators (scaled regions, clusters, error regions) are the inductive
  types `Stack` (series) and `SpStack` (values).
* Mutable objects become state passed through functions (iteration cursor of a
  region, distance matrix of a measure, cached partitions and files, histogram
  of medoid choices, saved forecasts). Methods that mutate return the result
  together with the new state, also when they raise.
* Random choices and choices of numpy (argpartition) are parameters; the
  theorems quantify over every outcome that the documentation allows.
* Third-party models (ARIMA training and forecasts, keras, tslearn distances)
  are parameters: arbitrary functions that may raise.
* Strings are lists of characters; text formatting of floats is a parameter.
* Logging, plotting, printing, timing are dropped.

## What is modelled

| source | modelled | not modelled |
|--------|----------|--------------|
| util/maths.py | divisors, balanced divisors, random integers with blacklist, discrete second derivative | distances in 2d (only inside spatial distance) |
| util/arrays.py | copies as matrix elements, sliding windows, list helpers | `ndarray` strides of the windows (content only), minimum_value_and_index |
| util/error.py | MASE, sMAPE, MSE with NaN and infinite results | rounding |
| util/parallel.py | pool of workers as interleaving of atomic steps | processes, pickling of tasks |
| util/parallel_old.py | queue of tasks consumed by processes, as interleaving of atomic steps | `compute_distance_matrix_sptr_old` in distance/dtw_parallel.py (dead code: it refers to an attribute that parallel.py does not have) |
| region/base.py, spatial.py, temporal.py | iteration cursor, value_at/series_at, subsets, apply_function_*, repeat_*, find_minimum/maximum, centroid, descale | plotting, save/load except the cached partition |
| region/partition.py, mask.py | crisp and regular partitions, merges, intersections, membership, fuzzy masks, intra-cluster cost | plots |
| region/scaling.py | scale, descale, scaled regions and subsets, save | — |
| region/metadata.py, dataset/temp_brazil.py | absolute coordinates, year intervals, dataset retrieval with its cache, daily means, file names, create_instance, save | HDF5 format (the field `real` is an array), different spellings of one path |
| distance/*.py | distance matrices, DTW with spatial weights, loading, caching | tslearn's DTW itself (except the squared DTW of dba) |
| dba/dba.py | squared DTW, barycenter update, medoid candidates | random initial series (parameter) |
| kmedoids/kmedoids.py, kmedoids_fuzzy.py | build, swap loop, memberships | verbose output |
| kmedoids/kmedoids_bad.py | all of it | NaN distances |
| kmedoids/iris_kmedoid.py | distances, labels, update, loop, count of matches | the data, its scaling and PCA, plots; NaN |
| kmedoids/silhouette.py, clustering/silhouette.py, util/plot.py (plot_clustering_silhouette, plot_2d_clusters) | Model/Suite: the search for the best silhouette score; Model/Silhouette: the score (sklearn, from its documentation), the bands, colours and line of the plot, do_silhouette_analysis, show_distances | the drawing itself, elapsed times |
| clustering/*.py | metadata representation, factories, cached partitioning, partition_impl with medoids, CSV report, suites and their file names, elbows, dbscan on the labels of scikit-learn | plots, the DBSCAN algorithm of scikit-learn (parameter) |
| model/train.py, knn.py, mean.py, base.py | split, training at medoids, kNN forecasts, mean of the past | time measurement |
| model/error.py, error_parallel.py, forecast.py | error regions, overall errors, forecast analysis with its state, sequences of calls (Model/ForecastHistory) | plot of distances vs errors |
| solver/train.py, model.py, result.py, metadata.py | training, prediction queries, results, summaries, saving and loading of solvers, names of pickle and CSV files | pickle format, file system errors, text formatting of numbers |
| classifier/train_input.py, sliding_window.py | medoid choice, training points, medoid series CSV, file names and texts (Model/ExtractionLstm) | failures of the file system |
| classifier/model.py, dnn.py | labels, cached solvers, models and forecasts by label | the network (parameter), loading of its file |
| distance/variance.py | random points, distances, statistics, axis limit and subplot positions of the histograms | the edges of bins, colours, titles, the histogram of a whole region |
| arima/__init__.py, train.py, optimize.py | parameters, training over regions, refit, sweep; optimal models and cost factors | the library itself (parameter), CSV reading, plots |
| experiments/clustering/partition_analysis.py, medoid_distances.py | rows and files | argument parsing, logging, plots |
| experiments/auto_arima/solver.py, experiments/baseline/solver_mean_past.py, solver_knn_medoids.py, experiments/metadata/region.py | Model/SolverSession: metadata_from_args, train_request, predict_request up to the result object, sessions; the catalogue of regions | command line, printing |
| experiments/region/distance.py | Model/DistanceFiles: calculate_distances_with_args, the index of the center and the regions drawn by show_distances | command line, drawing |
| experiments/metadata/*.py | Model/Catalogue: suites, ARIMA experiments, clustering experiments, silhouette analyses, centroids; Model/SolverSession: predefined_regions | the prefix of the files of models, plotting names |
| experiments/clustering/find_elbows.py | Model/FindElbows: metadata_from_args, analyze_suite | command line, saved partitions |
| region/centroid.py, region/temporal.py (get_centroid, has_centroid), experiments/region/centroid.py | Model/Centroid: the search with the distance object and its matrix, the attribute of regions and decorators | logging |
| experiments/arima/forecast.py | Model/ArimaForecast: do_arima_forecast with its printed lines | the text of numbers, parallel workers |
| solver/result.py (save_as_csv, lines_for_point), clustering/suite.py (text of the file) | Model/CsvText: the csv module, the text of the files, the lines on the screen | the text of numbers and arrays |
| solver/model.py (plot_regions), util/plot.py (plot_partition) | Model/QueryFigure: the figure of a query as data | matplotlib, the colours of nipy_spectral |
| classifier/synthetic.py, dataset/synthetic_temporal.py (synthetic_temperature) | Model/Synthetic: the generator and the text of its file | the random generators (parameters), the text of a number |
| distance/rmse.py, util/arrays.py (extremes, distances to a point) | Model/Rmse: distance by RMSE, extremes of arrays | square root (parameter) |
| dataset/synthetic_temporal.py (delayed profiles), kmedoids/example1d.py, example2d.py (data) | Model/SyntheticProfiles | random outcomes (parameters) |
| kmedoids/example1d.py, example2d.py (programs), util/plot.py (series groups) | Model/Examples | matplotlib (the data given to it) |
| kmedoids/kmedoids_fuzzy.py (report) | Model/FuzzyReport | rounding of percentages |
| experiments/clustering/extraction_lstm.py; classifier/train_input.py (files) | Model/ExtractionLstm | failures of the file system; solvers are parameters |
| experiments/classifier/solver_dnn.py | Model/SolverDnn | argument parsing (C134), failures of the file system |
| experiments/auto_arima/error_between_medoids.py, distance_errors.py | Model/MedoidErrors, Model/ErrorSuites | argument parsing (C123), plots, failures of the file system |
| experiments/arima/training_error_analysis.py, experiments/auto_arima/training_error_analysis.py, experiments/clustering/partition_analysis.py, medoid_distances.py, find_elbows.py | Model/TrainingErrors, Model/PartitionAnalysis, Model/FindElbows, Model/StudySuites, Model/AnalysisOptions | argument parsing (C123), parallel workers, how plots are drawn, failures of the file system |
| experiments/baseline/solver_mean_past.py, solver_knn_medoids.py with spta/model/mean.py, knn.py | Model/BaselineSolvers | the world of the solver programs with the two baselines filled in; auto ARIMA, DTW and np.argpartition remain parameters; negative k not modelled |
| experiments/auto_arima/solver_each.py, experiments/baseline/solver_knn_each.py | Model/SolverEach: process_request up to the rows of the file | command line, printing |
| experiments/arima/training_error_analysis.py, experiments/auto_arima/training_error_analysis.py, spta/model/forecast.py:282-342 | Model/TrainingErrors: the rows, the data of the plots, and the paths | drawing of the plots, times (opaque text), command line |
| arima/performance.py, fuzzy_sensibility.py, the other experiments/* | — | marked as broken in the source; scripts |

## Plan per property

| id | model | proof |
|----|-------|-------|
| C01–C03 | Model/Region, Maths: `regular_partitioning` as the list of slice assignments on a label matrix | band arithmetic; C03 has a counterexample family, and the exact sizes of all bands |
| C04–C05 | Model/Maths: `divisors`, `find_two_balanced_divisors` | divisor theory on `Nat`, `Nat.sqrt` |
| C06 | Model/Region: index formulas | `Nat.div/mod` laws |
| C07–C08 | iteration as a state machine on the cursor `point_index` | induction on remaining points; C08 refuted |
| C09–C11 | cluster iterator (skip loop), `value_at`, `apply_function_*` | iteration = filter of row-major points |
| C12–C14 | `merge_clusters_2d`, `merge_with_representatives_2d` | refinement to point-wise spec; C13 refuted for unsorted lists |
| C15–C17 | flat `take`, constructor check | index arithmetic; out-of-bounds wrap and missing labels refuted; accepted labels exactly |
| C18–C21 | Model/Scaling: scaling, decorator stack as an inductive type | field arithmetic, induction on stacks; combined subset and cluster descale refuted |
| C22–C25 | Model/Extrema: loops with strict comparison, slices, repeats | fold invariants |
| C26–C30 | Model/KMedoids: `_get_cost`, `run_kmedoids` as nested folds with fuel `max_iter+2` | loop invariants, decreasing cost |
| C31–C33 | Model/Fuzzy: memberships with any positive monotone power, masks | field arithmetic; unbound result and ties refuted |
| C34–C35 | Model/Parallel: pool steps as a transition relation | invariant over runs, progress and termination measure |
| C36–C37, C57 | Model/Distance: state machine for measure matrix, spatial weights and files | invariants over histories; refutations with two-step histories |
| C38, C50–C51 | Model/Clustering, Strings: file names, cache, CSV of medoids | injectivity of representations, digit round trip |
| C39–C40, C58–C60 | Model/Dba: DP table by rows, alignment and barycenter update | minimum over inductive warping paths; mean minimises squares; descent |
| C41–C44 | Model/Util: sliding windows, calendar, error measures, random integers | list induction, calendar arithmetic |
| C45–C47 | Model/Train: split, kNN, training at medoids | slices, selection by distance, corollaries of C14 |
| C48 | Model/Solver: in-sample and future prediction | slice laws on stacks |
| C49, C61 | Model/Result: result decorators and summaries | induction on decorators |
| C52–C53 | Model/Suite: parameter combinations, elbows | list lemmas; two seeds refuted |
| C54–C56, C62–C63 | Model/MedoidChoice: choice with histogram, CSV rows | fold invariants; offset bug refuted |
| C64–C68 | Model/Forecast, ForecastHistory: error regions, RMS, forecast analysis as a state machine, sequences of calls | point-wise characterisation through stacks; permutation of tasks; invariant of the calls since the last training; stale forecast refuted |
| C69–C73 | Model/Dataset: dataset files as a map from paths, retrieval with cache, regions from metadata, save | invariant of the cache over histories; injectivity of file names; composition with calendar and scaling; overwritten cache and failing save refuted |
| C74–C76 | Model/Train (mean of the past), Model/Cost: silhouette loops with scores as a parameter, intra-cluster cost over cluster iterators | suffix and mean lemmas; the strict search loop as a first maximum; sums over classes of a labelling regrouped into one sum over all points; composition with the k-medoids labels |
| C77–C79 | Model/SolverFiles: pickle files as a map from paths to contents, save and load of solvers, names of pickle and CSV files | numbers cut at a non-digit, strings cut at the first double underscore, directories cut at slashes; invariants over histories of operations; concrete counterexample with a refitter that keeps the order |
| C80–C83 | Model/Classifier: state of the solver (regions, cached solvers, files), label, model and forecast per point; the network is a parameter | invariant that cached solvers are those that loading from the files gives; facts of C64, C77 per point; induction over queries; norms of lists |
| C84–C87 | Model/Variance: random points, distances, statistics, limit and subplots of the histograms | C44 for the draw; sorted permutations; induction over the two loops; cells of the regular partition (C01) |
| C88–C89 | Model/Query: the result objects of both solvers | C48 and C80 for the points, rows in row-major order as in C49 |
| C90–C91 | Model/SolverTrain: train and calculate_errors of spta/solver/train.py | C47 for the models, the error lemmas of C64 for the errors, C88 for the rows; existential statement over the trained solver |
| C92–C93 | Model/TaskQueue: transition system of the processes of spta/util/parallel_old.py, reachable states over any calls | invariant with the list of ended tasks; measure 2·|queue| + weights of the processes for termination; before a task is taken fewer tasks have failed than there are processes, which fixes the executed tasks for all schedules |
| C94–C95 | Model/KMedoidsBad: the loops of spta/kmedoids/kmedoids_bad.py with fuel | relation BadSteps (every change lowers the dissimilarity); potential: number of series with a smaller dissimilarity, summed over the medoids; limits that are not reached have no effect |
| C96–C99 | Model/Arima: trainers as functions of a region, library as parameter | cell-wise reduction to C24-style region functions; refit reads the orders from the int8 region; success of the training exactly |
| C100–C101 | Model/Pareto: rows of times and errors | 1/x reverses the order of positive numbers; every model has an optimal one at least as good (induction on the number of models with a smaller sum) |
| C102–C105 | Model/ClusterRun: partition_impl of both algorithms with medoids, the report, SolverTrainer.train | reuse C01/C02/C17 for rectangles and the centroid theorems for medoids; sums of counts; composition with C90/C91 |
| C106–C108 | Model/PartitionAnalysis: the experiments partition_analysis and medoid_distances | loops over clusters and suites by induction; sum over the classes of a partition; reading back with C51; composition with C26/C30 for k-medoids |
| C109–C111 | Model/MedoidErrors: the experiments error_between_medoids and distance_errors | composition of training (C90), repeated forecasts (C25) and files; the orders of the three sequences are reduced to the same filter of the row-major enumeration; injectivity of names |
| C112 | Model/SolverEach: process_request of solver_each and solver_knn_each | composition of C13, C64 and C49 on the subset region; uniqueness of the row compares with C91 |
| C113–C114 | Model/SuiteFiles: names of files of suites, training input, solver results | cutting at the last separator; digits delimit numbers; directories of different depth |
| C115–C117 | Model/Iris: k-medoids script, count of matches; Model/Dbscan | sum of the numbers of nearer points as termination measure; label counts; maximum of labels |
| C118, C119 | Model/TrainingErrors: the scripts training_error_analysis.py | composition of C64-C67 and C96 for cluster stacks; rows written before an exception |
| C120 | Model/SolverSession: the train and predict commands on a common store of files | invariant of the files over the session (each file is what training from scratch gives), composition of C77, C78, C38, C91 |
| C121 | Model/DistanceFiles: runs of the distance program as a relation between the files before and after, sessions of them | induction over the session with the invariant that the file holds the distances; C34, C35 and C37 for a single run |
| C122 | Model/Catalogue: the suites and regularPartitionOf, on top of Model/PartitionAnalysis | C02, C05 and C102 for one clustering, splitting the suite at the first number without room, the loop lemma of C106 |
| C123 | Model/Catalogue: the dictionaries of experiments/metadata and the metadata_from_args of the programs | exhaustive decision over the finite catalogues |
| C124 | Model/FindElbows on top of Model/Suite, Model/Cost and Model/PartitionAnalysis | congruence of calculateElbows, C53_suite with the cost of C76 for the partitions of C26 and C30; the refutation is computed by the kernel |
| C125 | Model/Silhouette with the documented sklearn functions; Spec/Silhouette with sums over finite sets | lists to finite sets; a = 0 in the nearest pair shows that not all silhouettes are -1; for DTW, distance 0 means that the series are equal after removing repeated values |
| C126 | Model/Silhouette on top of Model/Suite, Model/PartitionAnalysis and Model/Kmedoids | C28 and C30 give labels without gaps, C52 the suite, C51 the loop; refutation by the kernel |
| C127 | Model/Silhouette: silhouetteBands, clusterColours | induction over the clusters with the upper end as invariant |
| C128 | Model/Silhouette: showDistances | arithmetic of the index of the centre for even and odd sizes |
| C129 | Model/Centroid on top of Model/Distance and Model/Extrema | the first step loads the matrix, the others keep it: induction over the points, then C25; C121 for the files; uniqueness of the centroid for repeated calls |
| C130 | Model/Centroid: Holder, clusterHolders | induction over the chain of decorators |
| C131 | Model/ArimaForecast on top of Model/TrainingErrors, Model/Centroid and Model/Catalogue | C67 for the whole region, C96 for the models, C129 and C123 for the centroid, C121 for the files |
| C132 | Model/CsvText: writer, parser with its six states and line marks, files of a result | the parser after each field, induction over characters, fields and rows; C106 for the suite |
| C133 | Model/CsvText: lines and printed | induction over the decorators; C49 for the coordinates |
| C134 | Model/QueryFigure: map, marks, rectangle, title, file of the figure | case analysis; floor of a position for the rectangle; C79 for the files |
| C135 | Model/Synthetic: generator of labelled series and its CSV file | inversion of every choice; C132_round_trip for the file |
| C136 | Model/Rmse: extremes of arrays, distances in a region | indices are enumerated in lexicographic order; fold of min |
| C137 | Model/Rmse: distance by RMSE | inequality of Cauchy and Schwarz by induction; sums over concatenations |
| C138 | Model/SyntheticProfiles: delayed profiles, alternating functions in a group and in a region | positions in padded lists; cells of nested loops as row-major lists |
| C139 | Model/Examples: the two example programs, with their plots | composition of C138, C26, C28, C30, C35, C126; the matrix of a region equals the matrix of its series |
| C140 | Model/FuzzyReport: the logged lines as a list | invariant of the loops (finite memberships); composition of C32 and C33; double counting |
| C141 | Model/ExtractionLstm: the program as a function of the texts of files | invariant of the histogram over the loop; composition of C55, C56, C57, C58 and C132; pigeonhole for the exact condition |
| C142 | Model/SolverDnn: the program on pickle and CSV files, sessions of all programs | induction over sessions with the invariant of C120; composition of C80, C90, C120, C132, C133 |
| C143 | Model/ErrorSuites: both programs on pickle and CSV files, reports of clusterings, sessions of all programs | induction over the suite and over sessions; files of different clusterings have different paths; composition of C103, C109, C110, C111, C120, C132 |
| C144 | Model/StudySuites: five programs on pickle and CSV files, sessions of all programs | induction over the suite and over sessions; files of different clusterings have different paths; composition of C108, C118, C119, C120, C128, C132, C143 |
| C145 | Model/StudySuites and Model/ExtractionLstm, one after the other on the same files | prefixes of the loop over the points; composition of C54, C55, C56, C132, C141, C144 |
| C146 | Model/SilhouetteSession: store of files, raw dataset and matrix held by the measure; the four commands as state transformers | frame lemmas for each command over the names of files, induction over the session; composition of C126 and C128 |
| C147 | Model/AnalysisOptions: options, names of figures, store of figures beside the files; the loops with silhouettes and histograms | frame lemmas over injective names, induction over the suite for both loops; composition of C84-C87, C125, C127 and C144 |
| C148 | Model/RegionPickle: regions as layers with their own metadata, operations, store of pickled objects, sessions | refinement of the stacks of C107, invariant on the metadata of the layers, last writer of a path, injective names |
| C149 | Model/Iterators: regions as objects with cursors that refer to each other, events, loops and nested loops | refinement of a specification that counts calls per iterator; induction over the objects and over the loops |
| C150 | Model/BaselineSolvers: the world of the solver programs with the trainers and forecasts of the two baselines as in the code | C120 for the session, C91 for the rows (only the models of medoids have to forecast), C46 for the windows; failing forecasts make the training fail |

## Claims that the code violates

The full statement stays in `properties.jsonl`; the theorem named here is the witness against it, and the
manifest names what is proved instead.

* C03 (Regular partition clusters have approximately equal size): `C03_equal_size_refuted`. The code does not guarantee approximately equal sizes; the refutation gives a family of regions, the partial theorem the bound that does hold. C03_any_size_partial gives the sizes of all bands for all regions and k.
* C08 (Loops over a region are independent of earlier abandoned loops): `C08_abandoned_loop_refuted`, `C08_nested_loop_refuted`. False of the code: the cursor lives in the region, so an abandoned loop makes the next one start in the middle, and a nested loop never ends. The partial theorem describes what every loop yields for any cursor.
* C13 (Merging clusters does not depend on the order in which they are listed): `C13_merge_order_refuted`. False of the code: the result of sorted() is discarded, so any order other than 0..k-1 raises ValueError.
* C15 (Intersecting clusters are found exactly): `C15_outside_refuted`. Holds for rectangles inside the region; outside it flat indices wrap to other rows.
* C17 (A crisp partition with k clusters uses k labels): `C17_labels_present_refuted`. The constructor only checks the maximum label. All labels are present for regular partitions. C17_accepted_partial says exactly which labels are accepted.
* C20 (Descaling commutes with taking subsets): `C20_descale_commutes_with_subset_refuted`. Region and interval subsets proved; the combined subset() keeps the scaling data of the whole region, so the full claim is refuted.
* C21 (A descaled region is no longer scaled): `C21_descaled_cluster_still_scaled_refuted`, `C21_double_descale_refuted`. Descaling a cluster over a scaled region leaves the scaling decoration: refuted for clusters, proved for scaled regions over plain ones.
* C23 (Repeating a value or series fills the whole region): `C23_repeat_point_decorated_refuted`. repeat_point on a scaled region or spatio-temporal cluster always raises (method resolution order picks the spatial version): refuted there; everything else proved.
* C30 (Each k-medoids cluster contains its medoid): `C30_medoid_in_own_cluster_refuted`. Fails when two medoids are at distance zero (identical series): empty cluster, wrong medoid label, IndexError with the default verbose=True. Proved when each sample is strictly closest to itself.
* C32 (Fuzzy k-medoids always returns a result): `C32_returns_refuted`. The code violates the claim: with already optimal initial medoids it raises UnboundLocalError. The partial theorem characterises exactly when, and the result in all other cases.
* C33 (Fuzzy mask thresholds): `C33_threshold_zero_refuted`. Everything is proved except uniqueness with threshold 0, which is refuted for ties and proved without ties.
* C35 (Parallel and sequential distance matrices agree): `C35_nan_refuted`. Each matrix is characterised entry by entry; the two agree exactly when the DTW values are symmetric with a zero diagonal (no NaN), and a NaN distance makes them differ, which is the part of the claim that fails.
* C36 (Spatial weighting is applied exactly once): `C36_refuted`. weights are never added twice and one load gives temporal + weight * squared spatial distance; refuted in general: a matrix computed in place, or loaded again, is used without weights
* C37 (A loaded distance matrix fits the region and is read consistently): `C37_load_spatial_refuted`. base class proved; the spatial class changes the matrix on load
* C38 (The partition cache is transparent): `C38_rectangle_refuted`, `C38_medoids_refuted`, `C38_distance_refuted`, `C38_no_metadata_refuted`. transparent when equal settings mean equal results; refuted: the file name ignores rectangle, medoid option, distance
* C43 (Error measures behave like errors): `C43_smape_refuted`. sMAPE is no error measure when forecast + observation is negative somewhere (refuted); proved when the sums are positive C43_smape_signs_partial gives the value of sMAPE for all signs.
* C53 (The elbow maximises the discrete second derivative): `C53_two_seeds_refuted`. the elbow of one list is proved; per-seed part refuted for several seeds (metadata of equal k compare equal and the full cost dictionary is passed): every seed gets the elbow k of the last seed, proved in C53_suite C53_exactly_partial: each seed gets its own elbow exactly if the elbow of the last seed is an elbow of every seed.
* C54 (The chosen medoid has the globally smallest penalty): `C54_nan_refuted`. Claim holds when no penalty is NaN; with NaN, np.argmin picks the NaN and hides the other medoids of that clustering (refuted). C54_choice characterises the choice for all penalties.
* C56 (Randomly chosen training points are never medoids): `C56_offset_refuted`. Distinct points of the region for every offset; different from the medoids only for regions that start at the origin: with an offset the blacklist is in absolute coordinates (refuted). C56_exactly_partial says when: the random points avoid the medoids exactly if every medoid inside the region has a relative position that is the absolute position of some medoid.
* C57 (distances_to_point calculates the matrix when allowed to): `C57_missing_file_refuted`. holds when loading raises; refuted when the file is missing, as loading then returns nothing and the assertion fails
* C68 (Whole-region forecasts use the models trained last): `C68_retrained_refuted`, `C68_failed_training_refuted`. False in general: train_models does not reset forecast_region_each, so after a second training the old forecast is used (C68_retrained_refuted); after a failed second training the old models are used with the new region (C68_failed_training_refuted). Proved for the first training and, by C66, when forecast_at_each_point is called after training. For all sequences of calls: C68_history_partial proves the claim when only trainings came before the last one, or forecast_at_each_point was called since; C68_stale says which forecast is used otherwise.
* C70 (The cache of dataset intervals is never observable): `C70_overwritten_refuted`. False for all histories: saving an unscaled region called 'SouthAmerica' in the directory 'raw' overwrites the cache file (C70_overwritten_refuted). Proved for all other histories.
* C71 (Different numpy files of regions have different names): `C71_collision_refuted`. False in general: the dataset of a region called 'distances_x' and the distance matrix of region 'x' are the same file (C71_collision_refuted). Proved: this is the only collision, for names without slashes (a slash in a name moves the boundary between directory and name). The rectangle is not part of any name.
* C73 (A created region can be saved and loaded again): `C73_scaled_not_saved_refuted`. False for every scaled region (the default of the metadata): the decorated region has no metadata, so save() raises ValueError and writes nothing (C73_scaled_not_saved_refuted). Proved for regions without scaling.
* C78 (Solvers with different metadata do not share pickle files): `C78_test_len_refuted`, `C78_distance_refuted`. Refuted: the file of the whole models lacks the number of test samples, although auto ARIMA models depend on it; all distances share one name; the rectangle of the region is missing too (C38). C78_history_partial adds the hypothesis that solvers sharing a file have the same content in it; C78_origin holds for all histories.
* C81 (Queries to a classifier solver do not influence each other): `C81_region_refuted`. Refuted: only the first call prepares the regions, later calls ignore the out-of-sample region they name; after a failed preparation every call fails. C81_history_partial: the answer is the one for the region of the first call, for labels of the form k-seed-i.
* C82 (The classifier is given the last tp samples): `C82_refuted`. Refuted: if tp exceeds the length n the start of the slice is negative and counted from the end, so the last tp - n samples (at most n) are used. C82_given_partial gives the exact number for all tp.
* C86 (The common axis shows every distance): `C86_random_refuted`. Refuted: random points are drawn once for the end of the axis and again for the figure. Proved for the distances of clusters, without random points, and if all outside points are drawn.
* C93 (A raising task does not corrupt the other entries of the parallel result): `C93_failures_refuted`. The code violates it: the exception ends the process and is not reported, the entry is 0, and when as many tasks raise as there are processes the remaining tasks are not executed (refuted). Proved: with fewer failures than processes all other entries are right; an entry is always 0 or the right value. C93_left and C93_exactly_partial give all entries of the result and the tasks that are left, for all schedules: the tasks up to the one that ends the last process are executed, the entries after it are 0.
* C95 (kmedoids_bad does not increase the cost and returns the labels of its medoids): `C95_refuted`. The code violates it: candidates are judged by their distances to all series, so the cost can go up, and the labels are computed before the last update (refuted). Proved: with max_steps the labels are those of the medoids before the last update; for one medoid and combine = sum the result is the best medoid. C95_limit_partial: a limit above k times the number of series has no effect and the labels are right; with 0 steps the start and labels 0 are returned.
* C97 (Missing data, missing parameters and library failures give a missing model): `C97_no_data_refuted`, `C97_other_refuted`. The code violates it: auto ARIMA takes the length of the series before it checks that there is one (TypeError), and exceptions other than the expected ones end the training of the whole region (refuted). Proved: without data or parameters, training with a fixed order gives no model. C97_exactly_partial and C97_exactly_auto_partial: the training of a region succeeds exactly if no call of the library for one of its series raises another exception, and then the models are those of the library.
* C101 (The sweep of cost factors logs the models of least cost and that cost): `C101_cost_refuted`. The code violates the last part: the cost logged with the best models is the variable of the loop, that is the cost of the last model (refuted). Proved: the rest. C101_when_partial: the cost logged is the least one exactly if the last optimal model is among the best, and greater otherwise.
* C105 (Training a solver with k-medoids succeeds end to end): `C105_refuted`. The code violates it for equal series: two medoids on equal series leave a cluster empty and the training stops with AssertionError, or IndexError when verbose is set (refuted). Proved: when every series is strictly nearer to itself than to the other ones. For all data: it succeeds exactly when no medoid is nearer to another medoid than that one to itself, nor an earlier one as near.
* C107 (The analysis of a k-medoids suite succeeds): `C107_refuted`. The code violates it for equal series: an empty cluster makes the analysis stop with IndexError (refuted). Proved: when every series is strictly nearer to itself than to the other ones. For all data: it succeeds exactly when in every clustering the last cluster has a member (with verbose, all clusters).
* C111 (Different runs of the error experiments write different files): `C111_refuted`. The code violates it: the forecast length is not part of the names, so runs with different lengths replace each other (refuted). Proved: exact characterisation of the collisions; everything else distinguishes the files. Names without path separators, type of the error without underscore.
* C113 (Files of suites and of training input are not mixed up): `C113_refuted`, `C113_classifier_refuted`. The code violates it: the threshold is not part of the names of training input, so runs with different thresholds replace each other (refuted); the (unused) classifier file name ignores both of its arguments. Proved: exact characterisation of all collisions. Names without path separators, type of the error without underscore, name of the algorithm without hyphen. Settings of the region: name, years, samples per day and scaling, not the rectangle.
* C115 (The k-medoids script terminates with medoids it cannot improve): `C115_medoid_refuted`, `C115_cost_refuted`, `C115_labels_refuted`, `C115_data_refuted`. The code violates parts of it: candidates are compared by their distance to the whole data, so a medoid need not be the best point of its cluster and the cost of the clustering can increase; labels are stale if max_steps ends the loop; update_medoids uses a global variable instead of its argument. Proved: termination within k*n+1 rounds for every start among the data, independence of the iteration order, nearest labels, and optimality of each medoid among its cluster with respect to the distance to the whole data. Exact arithmetic, natural exponent p > 0. C115_limit_partial: result and labels for every limit of steps.
* C116 (Matches are counted up to a renaming of the labels): `C116_three_labels_refuted`. Holds for two labels; refuted for three labels, which the assertions allow and for which the script uses it. C116_any_labels_partial treats all label arrays: which are rejected, and otherwise the result is the larger of the agreement and the length minus the agreement.
* C117 (DBSCAN clusters are the groups and the noise): `C117_name_refuted`, `C117_spatial_refuted`, `C117_medoids_refuted`, `C117_empty_refuted`. The code violates parts of it: NameError unless the module is executed as a program, no medoids, ValueError for spatial regions, an empty cluster 0 without noise (exactly then), factory does not know the algorithm. Proved: the clusters are exactly the noise and the groups. The labels of scikit-learn are a parameter (numbered from 0 without gaps, -1 for noise).
* C119 (Plots of the error analysis do not change the table): `C119_missing_refuted`, `C119_missing_auto_refuted`. Holds if a model was found at every medoid; otherwise --plots ends the program with AttributeError and the remaining rows are missing (C119_missing_refuted). C119_lost_orders and C119_lost_auto say what is left then: the rows of the table without plots up to and including the first experiment without a model at its medoid.
* C120 (Predictions of the solver programs depend on their arguments only, not on what was run before): `C120_refuted`. Holds for in-sample predictions and, for mean of past and k-NN, for all predictions. Out-of-sample predictions of auto ARIMA change when the same solver is trained with another number of test samples (C120_refuted): the file of the models of the whole series is shared. Dataset and distance matrices do not change during the session; the parsing of the command line is not modelled.
* C123 (Every combination of names that the command lines accept is defined in the catalogues): `C123_suites_refuted`, `C123_arima_refuted`, `C123_silhouette_refuted`. The claim is false of the code in three places, each with a witness: the parsers accept suites of the other clustering type (kmedoids with part1 or part2, regular with large or all), the experiment arima_whole_brazil uses a suite that does not exist, and the regions named whole_real_brazil have no silhouette analysis. In all of them a KeyError is raised; all other combinations are defined. The proofs decide over all entries of the catalogues, which are finite.
* C124 (The elbow printed for a seed is the elbow of the costs of the clusterings of that seed): `C124_refuted`. False of the code with two or more seeds: metadata that differ in the seed only are the same key, so the costs of the last seed are used for all. C124_program_partial says what is printed, C124_single_seed_partial proves the claim for one seed, and C124_refuted runs the whole program on nine series where seed 0 gets the elbow of seed 1. Every series is nearer to itself than to the others (as in C107), because the report of the clustering fails otherwise. Saved partitions are not used.
* C126 (The silhouette analyses end with the first of the clusterings with the best score): `C126_refuted`. False of the code: with one cluster, with as many clusters as points (C126_degenerate), or when equal series leave only one cluster (C126_refuted) the whole analysis ends with a ValueError. Proved when no two series are at distance 0 and all numbers of clusters are between 2 and the number of points minus 1. C126_some needs neither: whenever the analysis ends without exception, it has a clustering. C126_when_partial says exactly when it ends without exception.
* C127 (The silhouette plot shows every point once in the band and the colour of its cluster): `C127_refuted`. False of the code for labels with gaps, which k-medoids produces for equal series: the number of clusters is the number of different labels, so that the last cluster is not drawn and the colours differ (C127_refuted). Proved for labels without gaps. C127_any_labels_partial says what is drawn for all labels.
* C129 (The centroid of a region is the first point with the least total distance, whatever was computed before): `C129_missing_refuted`, `C129_default_refuted`. False of the code: the matrix is never calculated (C129_missing_refuted: AssertionError or ValueError), and an object that has a matrix uses it for every region (C129_stale, C129_default_refuted). Proved with saved distances and a new object, or one used for the same region only.
* C130 (get_centroid returns the centroid of the object, of one of its points, or calculates it): `C130_calculate_refuted`, `C130_member_refuted`. False of the code: get_centroid(measure) without a centroid always ends with AttributeError, since find_centroid_and_cost does not exist (C130_calculate_refuted); clusters created without medoids report the centroid of the region, which may be in another cluster (C130_member_refuted).
* C138 (Synthetic series of the k-medoids examples): `C138_fill_refuted`. The equal shares are false of the code: point (x, y) has function x * y modulo the number of functions, which gives 39 of 64 points of the example the first function. Random outcomes are parameters; exact arithmetic. C138_shares_partial: for a prime number m of functions and sides that are multiples of m, 2m-1 of every m² points show the first function and m-1 each of the others.
* C146 (Sessions of the silhouette commands analyse the saved region): `C146_scaled_refuted`, `C146_shared_refuted`. Two parts are refuted: a scaled region can not be saved by the command save (the created region is not scaled and its metadata says it is), so no session analyses it (C146_scaled_refuted); and with one distance measure for two regions, kmedoids without a file of distances uses the matrix of the other region (C146_shared_refuted). The full property holds of sessions in which save and distances were run for an unscaled region. The __main__ block of the file is not modelled: it calls the constructor of the silhouette metadata without its last argument and always raises TypeError.
* C147 (The options of the analysis of a suite add figures and change nothing else): `C147_refuted`. Refuted as stated (C147_refuted): if a cluster has one point, or there is one cluster, or --bins is a number, or --random is negative, --variance ends the analysis and the rows from that clustering on are missing in the table (C147_lost, C147_bins); with --silhouette a clustering with one cluster or with as many clusters as points ends the analysis before the table is written (C147_no_score). C147_figures_partial is the full property for suites in which every clustering has a score and can be drawn. matplotlib is not modelled: a figure is the data that is drawn and the path under which it is saved; numpy accepts eight names for bins.
* C148 (A pickled region is found again under the name of its metadata): `C148_interval_refuted`, `C148_cluster_refuted`, `C148_program_refuted`. Refuted as stated: an interval of a scaled region keeps the metadata and, pickled, replaces the whole region (C148_interval_refuted); so does a cluster (C148_cluster_refuted); the program of temporal.py ends with a ValueError, because save of a scaled region asks its inner region, which has no metadata, and without scaling it reads a file that no region has (C148_program_refuted). C148_session_partial is the property for sessions that pickle created regions and undecorated derived ones. pickle is modelled as storing the object under its path; creating the directory of the path is not modelled.
* C149 (Iterations over regions do not disturb each other): `C149_nested_refuted`. Refuted as stated: a scaled region and an error region have no cursor of their own, so a loop over one inside a loop over the other (or over the same region twice) takes the items of the outer loop, which never ends (C149_nested_refuted, for every bound on the steps). C149_nested_partial is the property of nested loops for regions with different iterators; C149_refines and C149_interleaved say exactly which calls share an iterator.

## Notes on proved claims

* C09: The crisp partition overrides cluster_len of the base class, which always gives 0 (C09_base_cluster_len).
* C11: C11_apply_resumed: if an iteration was abandoned before, only the points not yet visited are handled (see C08).
* C12: Assumes that no loop over the partition object was abandoned (cursor 0), see C08. The conversion to the dtype of the first cluster is not modelled.
* C18: Exact arithmetic over any linear ordered field, NaN as none; any stack of decorators meeting the numpy shape invariants.
* C19: Exact arithmetic; NaN positions are preserved.
* C22: Values in any bounded linear order plus NaN.
* C25: The distance matrix is given (already loaded); sums in any commutative monoid with a linear order and a top element.
* C26: Both branches of the cost function (precomputed matrix, measure on the fly); distances in any ordered additive group, NaN not modelled. The random initial choice is a parameter.
* C27: With a ghost history of accepted swaps.
* C29: Passes are counted by the model; termination is by a decreasing measure.
* C31: Exact arithmetic; inf and nan of the medoid rows are modelled. The power is any positive monotone function on positive numbers; powOK_real shows that x^(1/(m-1)) over the reals is one for every m > 1.
* C34: Nondeterministic worker pool (any chunk size, any number of workers, any interleaving): the collected results equal the sequential map, no run is infinite and an unfinished pool can always step.
* C44: negative n is not modelled
* C45: also: a test_len larger than the series raises nothing but gives fewer than test_len test samples
* C46: numpy argpartition enters as a parameter with its contract
* C47: the training function of the library is a parameter
* C48: plain and scaled domains, in-sample and future forecasts
* C49: Result coordinates, absolute coordinates and row layout for every nesting of result decorators; text formatting of the lines is not modelled.
* C50: for modes without underscore and no initial medoids, as stated
* C55: For every penalty function and every history, including runs that end with an exception.
* C61: Length for every result kind; content for the clustering result around an in-sample or out-of-sample result (formatting of numbers to text not modelled).
* C62: The solver error and the label of the point are parameters of the min_error strategy.
* C63: Suites of one clustering type (as the code assumes); text formatting of numbers not modelled.
* C64: Models and forecasts are parameters; the trainer is any function. Hypotheses: at most one scaling layer, MASE with more than one training sample.
* C65: The square root is any function meeting IsRoot.
* C66: The errors after forecast_at_each_point; C68 treats the other call orders. Parallel: any order of the tasks, each task being atomic (lock).
* C67: Holds for any previous state of the object, because analyze_errors refreshes the saved forecast.
* C72: Rectangle inside the raw dataset, which covers 1979-2015 with 4 samples per day; previous saves do not overwrite the cache (C70).
* C75: The silhouette score itself (sklearn) is a parameter.
* C76: The distance matrix is already loaded.
* C77: Region name, mode and error type without path separators.
* C79: Settings mean region name, years, samples per day and scaling; the rectangle of the region and the distance are not part of the names, so results that differ only there share their files.
* C80: tp at most the length of the series (see C82); region name without path separator. C80_predict is for a solver that answered queries before, C80_first for a new one.
* C83: Over an ordered field; the network is a parameter.
* C84: The random outcome is a permutation of the candidates.
* C85: Over an ordered field; the square root of the variance and the printing with two decimals are not modelled.
* C87: One cluster alone is rejected (C87_single); the code says that it assumes two or more.
* C88: Cells are values; the formatting of numbers and series as text is not modelled.
* C89: The labels must stand for saved models (as in C80). For an out-of-sample region forecast, error and test samples are those of the region of the solver, see AnswerAt.
* C90: The partition and its medoids are the outcome of the clustering algorithm (TrainingSetup). MASE needs at least two training samples or none (otherwise the code divides by zero). C90_mase: with exactly one training sample MASE raises ZeroDivisionError.
* C91: Composes C90 with C88.
* C92: Operations on the Manager queue and arrays are atomic steps.
* C94: NaN distances are not modelled; the random choice is any list of k positions.
* C96: The library is a parameter: any outcome per series among a model and the two exceptions that are caught; other exceptions are in C97. The orders are stored as int8.
* C98: The library never finds the order (-1, -1, -1), the mark of a missing model.
* C100: The Pareto library is a parameter with its documented result as hypothesis; division by zero and NaN are not modelled.
* C102: NaN or infinite distances are covered by C25 (centroid of a region) but excluded here.
* C103: Coverage before it is written with one decimal.
* C104: Trainer, refitter and forecaster are parameters that do not raise.
* C106: Number formatting is a parameter; exact arithmetic.
* C108: Number formatting is a parameter.
* C109: Training and forecasting of a single model are parameters; number formatting is a parameter; exact arithmetic.
* C110: As C109; the distance matrix is a parameter. Header for DTW.
* C112: Training and forecasting of a single model are parameters (k-NN is modelled, its argpartition and distance are parameters with the numpy contract). Training does not raise; missing models are allowed. Exact arithmetic.
* C114: Exact characterisation. Agreement in the region means name, years, samples per day and scaling (not the rectangle); k-NN parameters up to the distance, whose representation is constant. Names without path separators.
* C118: Fitting and forecasting are parameters: fitting gives a model or one of the caught errors, forecasts have the requested length. Times are opaque text. For k larger than the number of clusters, the rows of the existing clusters are written before IndexError.
* C121: The measure is a parameter; C121_dtw shows that the root of the least alignment cost is symmetric and zero on equal series. Series with NaN are excluded from C121_distances by the hypothesis that a series has distance zero to itself (see C35 for what happens with them). Drawing and the parsing of the command line are not modelled.
* C122: The distances of the matrix are numbers; a negative or zero number of clusters is excluded (the suites have none).
* C125: silhouette_score and silhouette_samples of sklearn are modelled from their documentation (Model/Silhouette: silhouetteSample, silhouetteSamples); the specification IsSilhouette is the definition of Rousseeuw over finite sets.
* C128: The region is nonempty and the matrix in the file fits it. The drawing itself is not modelled.
* C131: The text of a number is a parameter; without --parallel (C66 shows that workers make no difference). The libraries raise only the expected exceptions and forecast eight samples.
* C132: The reader and the writer of the csv module of python 3.7 are modelled; the text of numbers and arrays is a parameter.
* C133: The text of numbers and arrays is a parameter.
* C134: matplotlib and its colour map are parameters; the square of an element of an image is that of imshow.
* C135: The generators are parameters: a number per random.choice, a standard normal outcome per sample. Exact arithmetic, so np.arange has its 12 values; numbers below 10^100 so that the csv module can read the fields.
* C136: Arrays with at least one axis; the square root is a parameter with its defining property.
* C137: The square root is a parameter with its defining property; exact arithmetic.
* C139: Random outcomes and the distance function are parameters; the figure is the data given to matplotlib; exact arithmetic.
* C140: The power of the fuzzifier is a strictly increasing positive function; exact arithmetic; the rounding of the percentage is not modelled. Whether there is a result at all is C32.
* C141: The texts of the samples, the outcome of the random generator, and the errors and clusters found by solvers are parameters; --random and --tp are at least 0. For C141_files the keys of the suite are the representations of clusterings without initial medoids and all texts are short enough for a csv reader. Failures of the file system are not modelled.
* C142: The classifier, the models, the regions and partitions and the texts of numbers are parameters; labels have the form k-seed-i (which is what the training data contains, C141), and texts are short enough for a csv reader. Arguments are those that the catalogues accept (C134).
* C143: Partitions, models, distances, orders of models and texts of numbers are parameters; the clusterings of a suite are regular or k-medoids with a k and a seed, and the region has less than 10^9 points. Arguments are those that the catalogues accept (C123). Files of an earlier run with another forecast length are replaced (C111).
* C144: Partitions, models, distances, texts of numbers and timings are parameters; the clusterings of a suite are regular or k-medoids with a k and a seed, and the region has less than 10^9 points (for the analysis, coordinates below 10000). Without parallel workers and without the options --silhouette and --variance. What find_elbows prints for a suite is the subject of C124.
* C145: Partitions, distances, texts of numbers and the random permutation are parameters. Regular clusterings and k-medoids with a k and a seed; coordinates below 10000. Which points are left to draw from is the subject of C56: outside a region at the origin the code does not exclude the medoids.
* C150: Proved. The samples are numbers (no NaN) and np.argpartition is a parameter with its contract; for k nearest neighbours out of sample the forecast length and k together do not exceed the number of samples.

## Axioms per theorem

* propext: `C10_outside`, `C11_apply_shape`, `C120_arguments`, `C130_member_refuted`, `C37_load_spatial_refuted`, `C52_invalid_name`, `C57_missing_file_refuted`, `C57_spatial`, `C93_failures_refuted`
* (none): `C117_medoids_refuted`, `C117_name_refuted`, `C117_spatial_refuted`, `C130_calculate_refuted`, `C130_chain`, `C130_none`, `C130_set`, `C42_adjacent`, `C52_missing_k`, `C52_organise_regular`, `C52_seeds`
* Quot.sound, propext: all other theorems of the manifest (73)
* Classical.choice, Quot.sound, propext: all other theorems of the manifest (518)
