{"id": "C01", "title": "Regular partition covers the region with exactly k rectangles", "statement": "When a regular partition of an x_len by y_len region into k clusters succeeds, every point of the region gets exactly one label in 0..k-1, every label 0..k-1 is used by at least one point, and the points of each label form one solid axis-parallel rectangle; labels are numbered in row-major order of a div_x by div_y grid with div_x*div_y = k.", "quantifier": "every x_len, y_len and every k >= 1 for which the call does not raise", "why_tests_cant": "the residue handling (grow the bands and shrink the last one, or not) has several arithmetic regimes; tests only try a handful of (x_len, y_len, k) triples and an off-by-one in one regime leaves unlabelled lines or an empty cluster only for special sizes", "anchors": ["spta/util/arrays.py: regular_partitioning", "spta/region/partition.py: PartitionRegionCrisp.with_regular_partition"]}
{"id": "C02", "title": "Regular partition refuses exactly the regions that are too small", "statement": "Asking for a regular partition raises ValueError exactly when the region has fewer lines than the chosen number of bands in x or in y; in every other case with k >= 1 it returns a label matrix of the region's shape.", "quantifier": "every x_len, y_len >= 0 and every k >= 1", "why_tests_cant": "the boundary between accepted and rejected sizes is an infinite set of triples", "anchors": ["spta/util/arrays.py: regular_partitioning", "spta/util/maths.py: two_balanced_divisors_order_x_y"]}
{"id": "C03", "title": "Regular partition clusters have approximately equal size", "statement": "The clusters of a regular partition have approximately the same size: all bands except the last one of each axis have the same number of lines, and the last band differs from the others by less than one band.", "quantifier": "every x_len, y_len and k for which the partition succeeds", "why_tests_cant": "needs a bound over all residues; the bad residues appear only when the number of bands is large relative to the region", "anchors": ["spta/util/arrays.py: regular_partitioning", "spta/region/partition.py: with_regular_partition docstring"]}
{"id": "C04", "title": "divisors returns exactly the divisors, sorted", "statement": "divisors(n) lists every positive divisor of n, nothing else, without repetition and in increasing order.", "quantifier": "every n >= 1", "why_tests_cant": "the loop only goes up to the square root; perfect squares and n = 1 are corner cases and the claim is about all n", "anchors": ["spta/util/maths.py: divisors"]}
{"id": "C05", "title": "Balanced divisors multiply to n and are the closest pair, ordered by the region shape", "statement": "find_two_balanced_divisors(n) returns a <= b with a*b = n and no other factorisation of n is closer together; the x/y variant gives the larger factor to the longer axis (to x when the region is square).", "quantifier": "every n >= 1 and every x_len, y_len", "why_tests_cant": "optimality quantifies over all factorisations of all n", "anchors": ["spta/util/maths.py: find_two_balanced_divisors, two_balanced_divisors_order_x_y"]}
{"id": "C06", "title": "Point index and coordinates are inverse of each other", "statement": "The index of a point (x*y_len+y) and the recovered point (index // y_len, index % y_len) are mutually inverse between the points of an x_len by y_len region and the integers 0..x_len*y_len-1, and the list of 2d points holds at position i exactly the point of index i; adding the region offset and removing it again gives the point back.", "quantifier": "every x_len, y_len, every point and index in range, every region offset", "why_tests_cant": "needs division/modulo reasoning for all sizes; the same formula is repeated in a dozen places", "anchors": ["spta/region/base.py: BaseRegion.__next__", "spta/region/metadata.py: index_to_absolute_point, absolute_position_of_point", "spta/util/arrays.py: list_of_2d_points", "spta/clustering/kmedoids.py: partition_impl"]}
{"id": "C07", "title": "A full loop over a region visits each point once, in order, and can be repeated", "statement": "A for loop over a region that runs to the end yields each point of the region exactly once in row-major order together with that point's own value or series, and afterwards the region can be looped over again with the same result, any number of times.", "quantifier": "every region shape and contents, any number of consecutive loops", "why_tests_cant": "iteration keeps a mutable cursor inside the region object; the property is about every history of loops", "anchors": ["spta/region/base.py: BaseRegion.__iter__, __next__", "spta/region/spatial.py: SpatialRegion.__next__", "spta/region/temporal.py: SpatioTemporalRegion.__next__"]}
{"id": "C08", "title": "Loops over a region are independent of earlier abandoned loops", "statement": "A for loop over a region visits all points even if an earlier loop over the same region was abandoned (break or exception) or is still in progress.", "quantifier": "every region with at least two points and every history of abandoned loops", "why_tests_cant": "requires reasoning about all histories of the hidden cursor; ordinary tests always finish their loops", "anchors": ["spta/region/base.py: BaseRegion.__iter__, __next__"]}
{"id": "C09", "title": "Crisp clusters form a partition of the region", "statement": "The clusters created from a crisp partition are disjoint and together cover the region: every point is yielded by the iteration of exactly one cluster, each cluster yields its members in row-major order without repetition, its reported size is the number of points it yields, and the sizes add up to x_len*y_len.", "quantifier": "every membership matrix with labels in 0..k-1, every region contents", "why_tests_cant": "universal over label matrices and over the skipping iterator's cursor states", "anchors": ["spta/region/partition.py: PartitionRegionCrisp", "spta/region/spatial.py: SpatialCluster.__next__", "spta/region/temporal.py: SpatioTemporalCluster.__next__"]}
{"id": "C10", "title": "A cluster exposes exactly its members' data", "statement": "Reading a cluster at a member point gives the value of the underlying region there, reading at any other point of the region raises ValueError, and the point indices reported by a spatio-temporal cluster are exactly the indices of the points it iterates over, in the same order. Reading outside of the region raises IndexError.", "quantifier": "every partition, cluster index, point and region contents", "why_tests_cant": "quantifies over all points of all partitions including the error branch", "anchors": ["spta/region/spatial.py: SpatialCluster.value_at", "spta/region/temporal.py: SpatioTemporalCluster.series_at, all_point_indices"]}
{"id": "C11", "title": "Functions applied to a cluster act on members only", "statement": "Applying a function region to a region gives, at each point, the function of that point applied to the value there; applied to a cluster it does so at the member points and leaves 0 at every other point, keeping the shape of the whole region. If an iteration over the region or cluster was abandoned before, the points already visited get 0 instead, and the iteration starts anew afterwards.", "quantifier": "every function region, every region and every cluster", "why_tests_cant": "universal over functions and partitions", "anchors": ["spta/region/spatial.py: DomainRegion.apply_function_scalar, apply_function_series"]}
{"id": "C12", "title": "Splitting into clusters and merging gives the region back", "statement": "Creating all spatial clusters of a crisp partition and merging them in cluster order returns a region equal to the original; more generally, after applying any function to each cluster separately the merge equals applying, at each point, the function of the point's own cluster.", "quantifier": "every crisp partition, every region, every family of per-cluster functions", "why_tests_cant": "round trip law for all partitions and contents", "anchors": ["spta/region/partition.py: create_all_spatial_clusters, merge_clusters_2d"]}
{"id": "C13", "title": "Merging clusters does not depend on the order in which they are listed", "statement": "merge_clusters_2d accepts any list with exactly one cluster per index 0..k-1, in any order, with the same result, and raises ValueError for any other list of cluster indices.", "quantifier": "every permutation of the clusters of every partition", "why_tests_cant": "quantifies over permutations; tests pass the clusters in order", "anchors": ["spta/region/partition.py: merge_clusters_2d"]}
{"id": "C14", "title": "Merging with representatives copies each representative over its cluster", "statement": "merge_with_representatives_2d returns a region whose value at each point is the original value at the representative of the point's cluster; if some representative does not belong to its cluster the call raises ValueError. Another number of representatives than clusters is an AssertionError; otherwise the first representative that is not a point of its cluster decides, with IndexError outside of the region and ValueError in another cluster.", "quantifier": "every crisp partition, region and list of k representatives", "why_tests_cant": "this is what spreads the medoids' models over the whole region; universal over partitions and representatives", "anchors": ["spta/region/partition.py: merge_with_representatives_2d", "spta/region/spatial.py: SpatialRegion.repeat_point"]}
{"id": "C15", "title": "Intersecting clusters are found exactly", "statement": "For a sub-region contained in the partitioned region, find_indices_of_clusters_intersecting_with returns exactly the labels of clusters with at least one point inside the sub-region, each once; for a sub-region that sticks out of the region it does not silently report clusters that do not intersect.", "quantifier": "every partition and every sub-region rectangle", "why_tests_cant": "soundness and completeness over all rectangles; flat indices wrap around silently outside the bounds", "anchors": ["spta/region/partition.py: find_indices_of_clusters_intersecting_with, membership_of_point_indices"]}
{"id": "C16", "title": "Membership queries agree", "statement": "membership_of_points reports for each point in the region the unique cluster index for which is_member is true, in the order of the query. membership_of_point_indices reports the labels at row-major indices and raises IndexError if and only if an index is not that of a point of the region.", "quantifier": "every partition, every list of points inside the region, every list of indices", "why_tests_cant": "relates a flat take on the matrix with 2d indexing for all shapes", "anchors": ["spta/region/partition.py: membership_of_points, membership_of_point_indices, is_member"]}
{"id": "C17", "title": "A crisp partition with k clusters uses k labels", "statement": "When a crisp partition is created with k clusters, each of the labels 0..k-1 is present in its membership matrix (the constructor's sanity check rejects any other matrix).", "quantifier": "every membership matrix and every k", "why_tests_cant": "the check only looks at the maximum label; a counterexample is a special matrix", "anchors": ["spta/region/partition.py: PartitionRegionCrisp.__init__, from_membership_array"]}
{"id": "C18", "title": "Scaling maps each series into [0, 1] and keeps its order", "statement": "After scaling, every value of every non-NaN series lies in [0, 1], a non-constant series attains both 0 and 1, a constant series becomes all 0, and the order of the values within a series is preserved; scaling an already scaled series changes nothing. A region without samples is rejected with ValueError.", "quantifier": "every spatio-temporal region with real values", "why_tests_cant": "universal over series", "anchors": ["spta/region/scaling.py: ScaleFunction"]}
{"id": "C19", "title": "Descaling inverts scaling", "statement": "Scaling a spatio-temporal region and descaling the result gives the original data at every point and time, including constant series.", "quantifier": "every spatio-temporal region with real values", "why_tests_cant": "exact inverse law over all data", "anchors": ["spta/region/scaling.py: ScaleFunction.apply_to, SpatioTemporalScaled.descale"]}
{"id": "C20", "title": "Descaling commutes with taking subsets", "statement": "For a scaled region, descaling a subset gives the same data as taking the subset of the descaled region, for spatial subsets, time-interval subsets and combined subsets.", "quantifier": "every scaled region, every rectangle and interval inside it", "why_tests_cant": "three different subset operations treat the stored minima and maxima differently; the mismatch only shows for rectangles that do not start at the origin", "anchors": ["spta/region/scaling.py: SpatioTemporalScaled.region_subset, new_spatio_temporal_region, descale", "spta/region/temporal.py: SpatioTemporalRegion.subset, interval_subset"]}
{"id": "C21", "title": "A descaled region is no longer scaled", "statement": "After descale() the resulting region reports has_scaling() == False and holds data in original units, so that it cannot be descaled twice; this holds at any level of decoration (scaled region, cluster of a scaled region, scaling of a cluster).", "quantifier": "every stack of cluster and scaling decorators containing a scaling layer", "why_tests_cant": "an induction over arbitrary decorator stacks", "anchors": ["spta/region/scaling.py: SpatioTemporalScaled.descale", "spta/region/temporal.py: SpatioTemporalDecorator.descale, SpatioTemporalCluster.new_spatio_temporal_region"]}
{"id": "C22", "title": "find_minimum and find_maximum return the first extremum", "statement": "find_minimum returns the first point (row-major) whose value is smallest among the non-NaN values and that value, and find_maximum dually; they report no point exactly when no value is below +inf (above -inf). On a cluster only members are considered. If an iteration over a region was abandoned before, only the points not yet visited are considered.", "quantifier": "every spatial region or cluster contents including NaN", "why_tests_cant": "universal over contents with NaN and ties", "anchors": ["spta/region/spatial.py: find_minimum, find_maximum"]}
{"id": "C23", "title": "Repeating a value or series fills the whole region", "statement": "repeat_value, repeat_point and repeat_series produce a region of the same 2d shape where every point holds exactly the given value or series (in the right time order).", "quantifier": "every value, series, point and shape", "why_tests_cant": "relies on a flat repeat followed by a reshape; the index arithmetic must hold for all sizes", "anchors": ["spta/util/arrays.py: copy_array_as_matrix_elements, copy_value_as_matrix_elements", "spta/region/temporal.py: repeat_series, repeat_series_over_region"]}
{"id": "C24", "title": "Spatial subsets compose and shift coordinates", "statement": "region_subset of rectangle (x1,x2,y1,y2) has shape (x2-x1, y2-y1) and its point (i,j) holds the data of point (x1+i, y1+j); subsetting twice equals subsetting once with the composed rectangle, and spatial and temporal subsets commute.", "quantifier": "every region and all rectangles and intervals inside it", "why_tests_cant": "composition law over all rectangles", "anchors": ["spta/region/spatial.py: region_subset", "spta/region/temporal.py: region_subset, interval_subset, subset", "spta/region/metadata.py: absolute_coordinates_of_region"]}
{"id": "C25", "title": "The centroid minimises the total distance", "statement": "The centroid of a region or cluster is a point of it whose sum of distances to all its points is minimal, the first such point in row-major order; no centroid is reported only if no point has a finite sum. The returned distances are those from the centroid to every point.", "quantifier": "every region or cluster and every distance matrix", "why_tests_cant": "argmin over all points for all matrices", "anchors": ["spta/region/centroid.py: CalculateCentroid.find_centroid_and_distances", "spta/distance/__init__.py: distances_to_point_with_matrix"]}
{"id": "C26", "title": "k-medoids labels are nearest medoids and the cost adds up", "statement": "The labels returned by k-medoids assign each sample to a medoid at minimal distance among the returned medoids (the first one on ties), the cost of each cluster is the sum of its members' distances to its medoid, and the total cost is the sum over all samples of the distance to the nearest medoid.", "quantifier": "every distance matrix, k, initial medoids, mode, max_iter and tol", "why_tests_cant": "must hold for the final state of an iterative algorithm on every input", "anchors": ["spta/kmedoids/kmedoids.py: _get_cost, run_kmedoids"]}
{"id": "C27", "title": "k-medoids never increases the cost", "statement": "The total cost of the returned clustering is at most the cost of the initial medoids, and it is smaller by more than tol for each swap that was made.", "quantifier": "every distance matrix, initial medoids, mode and max_iter", "why_tests_cant": "monotonicity over all executions", "anchors": ["spta/kmedoids/kmedoids.py: run_kmedoids"]}
{"id": "C28", "title": "k-medoids returns k distinct valid medoids", "statement": "If the initial medoids are k distinct sample indices then so are the returned medoids.", "quantifier": "every distance matrix, mode, max_iter and tol", "why_tests_cant": "invariant over every sequence of swaps", "anchors": ["spta/kmedoids/kmedoids.py: choose_initial_medoids, run_kmedoids"]}
{"id": "C29", "title": "k-medoids stops and is swap-optimal unless it ran out of iterations", "statement": "k-medoids performs at most max_iter+2 passes; if it stops earlier, replacing any single medoid by any admissible non-medoid candidate (any sample in robust mode, a member of the same cluster in lite mode) improves the total cost by at most tol.", "quantifier": "every distance matrix, initial medoids, mode, max_iter and tol", "why_tests_cant": "termination and local optimality over all inputs", "anchors": ["spta/kmedoids/kmedoids.py: run_kmedoids, candidate_generator_for_lite_kmedoids, candidate_generator_for_robust_kmedoids"]}
{"id": "C30", "title": "Each k-medoids cluster contains its medoid", "statement": "Every medoid returned by k-medoids is labelled with its own cluster, so that no cluster is empty, the resulting partition has exactly k clusters and the medoids can be used as representatives.", "quantifier": "every distance matrix with zero diagonal", "why_tests_cant": "fails only for degenerate data (two identical series chosen as medoids); tests use generic data", "anchors": ["spta/kmedoids/kmedoids.py: _get_cost", "spta/clustering/kmedoids.py: partition_impl", "spta/region/partition.py: from_membership_array"]}
{"id": "C31", "title": "Fuzzy memberships are a probability distribution", "statement": "For every sample the fuzzy memberships are in [0, 1] and add up to 1, a medoid has membership 1 in its own cluster and 0 in the others, and a nearer medoid never gets a smaller membership than a farther one.", "quantifier": "every distance matrix that is zero exactly between a sample and itself, every list of distinct medoids", "why_tests_cant": "universal over real distances; the special case of medoids involves inf/inf", "anchors": ["spta/kmedoids/kmedoids_fuzzy.py: compute_membership_fcm"]}
{"id": "C32", "title": "Fuzzy k-medoids always returns a result", "statement": "run_kmedoids_fuzzy returns medoids with their membership matrix for every valid input, also when the initial medoids are already optimal.", "quantifier": "every distance matrix, initial medoids, tol and max_iter", "why_tests_cant": "the failing branch (no swap ever accepted) depends on the data and the seed", "anchors": ["spta/kmedoids/kmedoids_fuzzy.py: run_kmedoids_fuzzy"]}
{"id": "C33", "title": "Fuzzy mask thresholds", "statement": "With a fuzzy mask, raising the threshold never removes members, every point belongs at least to a cluster of maximal membership, threshold 1 makes every point a member of every cluster, and with threshold 0 each point belongs to exactly one cluster.", "quantifier": "every membership array with values in [0,1], every threshold in [0,1]", "why_tests_cant": "the last part depends on ties, which random tests never produce", "anchors": ["spta/region/mask.py: MaskRegionFuzzy.is_member"]}
{"id": "C34", "title": "Parallel all-pairs operation is schedule independent", "statement": "The parallel inter-point operation returns a matrix whose entry (i,j) is the task's result for points i and j, whatever the number of workers, the chunk size and the interleaving of the workers' writes; each entry is written exactly once.", "quantifier": "every region size, worker count, chunk size and every interleaving", "why_tests_cant": "schedules cannot be enumerated by tests", "anchors": ["spta/util/parallel.py: inter_points_task_wrapper, InterPointsOperation.operate"]}
{"id": "C35", "title": "Parallel and sequential distance matrices agree", "statement": "The distance matrix computed in parallel equals the one computed sequentially: both hold at (i,j) the distance between series i and j.", "quantifier": "every region and every distance measure between series", "why_tests_cant": "the parallel version computes one triangle and mirrors it, which is only right for symmetric measures with zero self-distance; NaN series break it", "anchors": ["spta/distance/dtw_parallel.py: compute_distance_matrix_sptr, dtw_i_j", "spta/distance/dtw.py: compute_distance_matrix_sptr"]}
{"id": "C36", "title": "Spatial weighting is applied exactly once", "statement": "Whatever sequence of load, compute and weight requests is made on a spatial-DTW distance, its current matrix is the plain matrix plus weight times the Euclidean distance between the points (never unweighted, never weighted twice); with weight 0 it equals the plain matrix.", "quantifier": "every sequence of load/weight operations, every weight and matrix", "why_tests_cant": "a history property: the defect appears on the second load only", "anchors": ["spta/distance/dtw.py: DistanceBySpatialDTW.weight_distance_matrix, load_distance_matrix_2d"]}
{"id": "C37", "title": "A loaded distance matrix fits the region and is read consistently", "statement": "Loading a distance matrix either leaves a matrix with one row and column per point of the region, or raises ValueError, or reports None when the file cannot be read; distances_to_point returns, for the requested point indices in order, the matrix entries of the point's row.", "quantifier": "every file content, region and list of point indices", "why_tests_cant": "all shapes and all query lists", "anchors": ["spta/distance/__init__.py: load_distance_matrix_2d, distances_to_point, distances_to_point_with_matrix"]}
{"id": "C38", "title": "The partition cache is transparent", "statement": "Asking a clustering algorithm for a partition of a region with caching enabled gives the same result as computing it without the cache, for every history of earlier requests.", "quantifier": "every sequence of partition requests with different regions, clustering parameters and options", "why_tests_cant": "a history property over the files left by earlier runs", "anchors": ["spta/clustering/__init__.py: ClusteringAlgorithm.partition, pickle path construction", "spta/region/metadata.py: __repr__"]}
{"id": "C39", "title": "Squared DTW is the minimum over all warping paths", "statement": "The squared DTW computed by the dynamic program equals the minimum, over all warping paths from the first pair to the last pair moving by one step in either or both series, of the sum of squared differences along the path. An empty first series is not rejected: the value is what the cost matrix contained before in a cell of its last row.", "quantifier": "all pairs of non-empty series", "why_tests_cant": "minimum over exponentially many paths for all series", "anchors": ["spta/dba/dba.py: squared_DTW"]}
{"id": "C40", "title": "Squared DTW is symmetric, non-negative and zero on equal series", "statement": "squared_DTW(s,t) = squared_DTW(t,s) >= 0, it is 0 for identical series, and for series of equal length it is at most the sum of squared pointwise differences.", "quantifier": "all pairs of non-empty series", "why_tests_cant": "universal over series", "anchors": ["spta/dba/dba.py: squared_DTW"]}
{"id": "C41", "title": "Sliding windows are exactly the contiguous sub-series", "statement": "sliding_window returns, for a series of length n, the windows starting at 0, stride, 2*stride, ... that fit, each a contiguous slice of the requested length, in order; with stride 1 there are n - window_len + 1 of them and none if the window is longer than the series. The labelled variant yields the same windows with the label and offsets 0,1,2,... attached.", "quantifier": "every series, window length and stride >= 1", "why_tests_cant": "count and content for all lengths", "anchors": ["spta/util/arrays.py: sliding_window", "spta/classifier/sliding_window.py: extract_windows_from_one_tuple"]}
{"id": "C42", "title": "Year intervals follow the calendar", "statement": "years_to_series_interval gives intervals whose length is samples_per_day times the number of days (leap years included) of the years asked for; consecutive year ranges give adjacent intervals and the first year of the sample starts at 0.", "quantifier": "every first year, start year, end year and samples per day", "why_tests_cant": "leap year rules over all years", "anchors": ["spta/util/maths.py: years_to_series_interval"]}
{"id": "C43", "title": "Error measures behave like errors", "statement": "MSE, sMAPE and MASE are 0 exactly when forecast and observation coincide and positive otherwise; MSE and MASE are non-negative; MASE does not change when all series are multiplied by the same positive factor; sMAPE lies between 0 and 200 for non-negative data and is symmetric in forecast and observation. A forecast or an observation of one sample is compared with all samples of the other series; any other difference of the lengths is a ValueError.", "quantifier": "all forecasts, observations and training series for which the measure is defined", "why_tests_cant": "universal real-arithmetic laws", "anchors": ["spta/util/error.py: mse, smape, mase"]}
{"id": "C44", "title": "Random integers with a blacklist", "statement": "random_integers_with_blacklist returns n pairwise different integers in [min_value, max_value], none of them blacklisted, for every random outcome, and fails exactly when fewer than n admissible integers exist.", "quantifier": "every n, range, blacklist and random outcome", "why_tests_cant": "all random outcomes", "anchors": ["spta/util/maths.py: random_integers_with_blacklist"]}
{"id": "C45", "title": "Train/test split is a partition of time", "statement": "Splitting with test_len samples at the end gives a training region and a test region whose concatenation in time is the original region, the test region having exactly test_len samples.", "quantifier": "every region and every test_len from 0 to the series length", "why_tests_cant": "slice arithmetic for all lengths", "anchors": ["spta/model/train.py: SplitTrainingAndTestLast.split"]}
{"id": "C46", "title": "Nearest neighbours are the k smallest distances", "statement": "find_k_nearest_neighbors returns k distinct indices such that no other index has a smaller distance than a returned one, raising ValueError when fewer than k candidates exist; the kNN forecast at each time lies between the smallest and largest value of the neighbours at that time. More precisely each forecast value is the mean of the k values of the nearest windows at that time.", "quantifier": "every distance list and every k", "why_tests_cant": "selection correctness for all inputs", "anchors": ["spta/model/knn.py: find_k_nearest_neighbors, predict_future_values_with_knn"]}
{"id": "C47", "title": "Every point forecasts with its own medoid's model", "statement": "After training with medoids, the model used at each point of the domain is the model trained at the medoid of the cluster that contains the point, trained on the medoid's own series.", "quantifier": "every partition with medoids, every trainer and region", "why_tests_cant": "composition of partition, training at representatives and merging for all inputs", "anchors": ["spta/solver/train.py: train_models_at_medoids, replicate_representative_models", "spta/model/train.py: TrainAtRepresentatives"]}
{"id": "C48", "title": "Predictions do not depend on the shape of the query", "statement": "The forecast produced for a point is the same whatever prediction region containing the point is requested, and is the forecast of that point's own model descaled with that point's own scaling data.", "quantifier": "every trained solver and every pair of prediction regions containing the point", "why_tests_cant": "relates coordinates of nested sub-regions for all rectangles", "anchors": ["spta/solver/model.py: SolverWithMedoids.predict, prepare_for_predictions"]}
{"id": "C49", "title": "Result coordinates are converted consistently", "statement": "In a prediction result, converting a point from result to domain coordinates and back is the identity, absolute coordinates are domain coordinates plus the region offset, and each output tuple has as many columns as the header, for every kind of result.", "quantifier": "every prediction region, point and result kind", "why_tests_cant": "offset arithmetic over all rectangles and all result variants", "anchors": ["spta/solver/result.py"]}
{"id": "C50", "title": "Clustering representations round-trip", "statement": "from_repr(repr(m)) gives back a clustering metadata with the same type, k, seed and mode, for regular and k-medoids metadata without initial medoids; a classifier label 'k-seed-i' leads to the metadata with that k and seed.", "quantifier": "every k, seed and mode without underscore", "why_tests_cant": "string round trip for all integers", "anchors": ["spta/clustering/kmedoids.py: __repr__, from_repr, from_classifier_label", "spta/clustering/regular.py: from_repr", "spta/clustering/factory.py: from_repr"]}
{"id": "C51", "title": "Medoid lists survive the CSV", "statement": "Writing the absolute medoid coordinates of a clustering to the result CSV column and reading the suite result back gives the same list of points in the same order. Of several rows with the same representation the last one counts; a missing or empty file and a row of less than three columns are errors.", "quantifier": "every list of medoid indices and every region offset", "why_tests_cant": "string round trip for all lists", "anchors": ["spta/kmedoids/__init__.py: medoids_to_absolute_coordinates", "spta/clustering/suite.py: retrieve_suite_result_csv"]}
{"id": "C52", "title": "Suites enumerate all parameter combinations and organise by seed", "statement": "A clustering suite contains exactly one clustering per pair (k, seed), k varying slowest; organising it by seed yields for each seed exactly the suite's clusterings with that seed, sorted by k. A suite without values of k is a KeyError, an unknown name a ValueError.", "quantifier": "all lists of ks and seeds", "why_tests_cant": "product and grouping laws for all lists", "anchors": ["spta/clustering/suite.py: ClusteringSuite, OrganizeClusteringSuite", "spta/kmedoids/kmedoids.py: kmedoids_suite_metadata"]}
{"id": "C53", "title": "The elbow maximises the discrete second derivative", "statement": "The elbow chosen among at least three clusterings with increasing k is an interior one whose discrete second derivative of the cost is maximal (the first such), and calculating the elbows of a suite gives such an elbow for each seed from that seed's own costs.", "quantifier": "all cost tables and suites", "why_tests_cant": "universal over cost tables; the per-seed part involves dictionary keys that compare equal for different seeds", "anchors": ["spta/clustering/suite.py: find_cost_elbow_given_order, find_cost_elbow_for_each_kmedoids_seed", "spta/clustering/__init__.py: ClusteringMetadata.__eq__, __hash__"]}
{"id": "C54", "title": "The chosen medoid has the globally smallest penalty", "statement": "When choosing a medoid for a point among all medoids of a suite, the chosen one has minimal penalty over all clusterings and medoids (first on ties), and an error is raised exactly when every penalty is infinite.", "quantifier": "every suite result and every penalty function", "why_tests_cant": "nested argmin over all suites", "anchors": ["spta/classifier/train_input.py: MedoidsChoiceStrategy.choose_medoid"]}
{"id": "C55", "title": "No medoid is chosen more often than the threshold", "statement": "With a positive threshold, no medoid is ever chosen more than threshold times, over any sequence of choices, and the histogram counts exactly the choices made. With finite scores and distinct clusterings with medoids, the choices for a sequence of points all succeed if and only if the threshold is 0 or the number of points is at most the number of medoids times the threshold.", "quantifier": "every sequence of points, penalties and thresholds", "why_tests_cant": "invariant over all histories", "anchors": ["spta/classifier/train_input.py: choose_medoid, supress_medoids_that_reached_threshold"]}
{"id": "C56", "title": "Randomly chosen training points are never medoids", "statement": "The random points used as classifier training input are pairwise different points of the region and none of them is a medoid of the suite.", "quantifier": "every suite result, region (with any offset) and random outcome", "why_tests_cant": "the blacklist is built from coordinates in another frame of reference; the error shows only for regions that do not start at the origin", "anchors": ["spta/classifier/train_input.py: get_random_points_different_to_medoids, extract_all_medoid_indices_from_suite_result"]}
{"id": "C57", "title": "distances_to_point calculates the matrix when allowed to", "statement": "Asking for the distances from a point to the points of a region with only_if_precalculated=False gives the row of the freshly calculated distance matrix whenever no saved matrix is available.", "quantifier": "every region, point, calculation and state of the distance object", "why_tests_cant": "tests always have a saved matrix; the fallback depends on which kind of failure loading reports", "anchors": ["spta/distance/__init__.py: distances_to_point, load_distance_matrix_2d", "spta/distance/dtw.py: DistanceBySpatialDTW"]}
{"id": "C58", "title": "A DBA update averages the optimally aligned values", "statement": "DBA_update succeeds for every non-empty centre and non-empty list of non-empty series that fit the matrices, whatever the matrices contain; each element of the new centre is the mean of the values which optimal warping paths (one per series) align with that element, and every element has at least one such value.", "quantifier": "all centres, lists of series and contents of the matrices", "why_tests_cant": "universal over series; optimality of the backtracked path and absence of division by zero hold for all inputs", "anchors": ["spta/dba/dba.py: DBA_update"]}
{"id": "C59", "title": "A DBA update never increases the sum of squared DTW distances", "statement": "The sum over the series of the squared DTW to the updated centre is at most the sum for the centre before the update.", "quantifier": "all centres and lists of series", "why_tests_cant": "a convergence law over all inputs", "anchors": ["spta/dba/dba.py: DBA_update, sum_of_squares"]}
{"id": "C60", "title": "DBA is at least as good as every candidate series", "statement": "performDBA succeeds on every non-empty list of non-empty series for every number of iterations, and the sum of squared DTW distances of its result is at most that of every candidate series (all series if at most 50, otherwise the sampled ones).", "quantifier": "all lists of series, samples and numbers of iterations", "why_tests_cant": "induction over iterations and minimum over candidates", "anchors": ["spta/dba/dba.py: performDBA, approximate_medoid_index"]}
{"id": "C61", "title": "The summary of a query describes exactly the prediction region", "statement": "The summary row of a query has one column per header name. For a clustering solver, the cluster count is the number of different clusters of the points in the prediction region, the MSE is the mean of the squares of the errors that are numbers, and dtw_r_m is the root of the mean of squares, over the medoids of exactly those clusters, of the combined distances between the test series of the medoid and the test series of every point of the region. In a summary of any kind of result, what stands under each name of the header is what the name says.", "quantifier": "all domains, partitions, medoids, prediction regions and distance measures", "why_tests_cant": "selection of medoids and frames of reference over all rectangles and partitions", "anchors": ["spta/solver/result.py: summary_header, summary_tuple, summary_unique_clusters, summary_distances_between_region_and_medoids, summary_generalization_mse"]}
{"id": "C62", "title": "The two choice strategies look at the right medoid", "statement": "With criterion min_error the chosen medoid is always the medoid of the cluster that contains the point, in the first clustering with the smallest numeric error at the point whose medoid has not reached the threshold. With criterion min_distance the penalties are the entries of the distance matrix for the point and each medoid, with the medoid coordinates taken relative to the region.", "quantifier": "all suites, partitions, errors, histograms, regions with any offset", "why_tests_cant": "nested minimum over all clusterings with NaN and infinite values; index arithmetic with offsets", "anchors": ["spta/classifier/train_input.py: MedoidsChoiceMinPredictionError.get_medoid_penalties, MedoidsChoiceMinDistance.get_medoid_penalties"]}
{"id": "C63", "title": "The medoid series CSV has one complete row per medoid", "statement": "For a suite whose result file was written for the same region, the CSV of medoid series has one row for each medoid of each clustering, in order, with the absolute coordinates of the medoid and the series of the region at the medoid, and as many columns as the header.", "quantifier": "all suites of one type, regions with any offset and series", "why_tests_cant": "composition of file parsing, two coordinate systems and string round trips over all suites", "anchors": ["spta/classifier/train_input.py: MedoidSeriesFormatter.retrieve_medoid_data, produce_csv, calculate_csv_header_given_suite_result"]}
{"id": "C64", "title": "Forecast errors at each point are the error function in original units", "statement": "After train_models(region, n), forecast_at_each_point holds at every point what the model of that point forecasts (NaN where there is no model), and the error region holds at every point the requested error function of the forecast, the last n samples and the earlier samples of that same point, all three descaled with that point's own minimum and maximum when the region is scaled; for numbers the error functions are the textbook MSE, sMAPE and MASE. MASE without training samples is a TypeError; the other error functions do not need them.", "quantifier": "every region (plain, scaled, cluster), split length, model region, forecast function and error type", "why_tests_cant": "the property ties together splitting, forecasting, descaling and error measure at every point of arbitrary regions", "anchors": ["spta/model/forecast.py: train_models, forecast_at_each_point", "spta/model/error.py: MeasureForecastingError, get_error_func"]}
{"id": "C65", "title": "Overall error is the RMS of the valid point errors", "statement": "ErrorRegion.overall_error is the square root of the mean of the squares of the errors that are not NaN; it is NaN exactly when all are NaN, infinite exactly when one is, and otherwise lies between the least and the greatest error.", "quantifier": "every error region, including clusters and NaN/infinite values", "why_tests_cant": "quantifies over all error regions and NaN patterns", "anchors": ["spta/model/error.py: ErrorRegion.overall_error, error_rms"]}
{"id": "C66", "title": "Whole-region errors of single models, serial and parallel", "statement": "forecast_whole_region_with_single_model gives at every point the error of the one forecast against that point's own data; forecast_whole_region_with_all_models gives for every point the overall error obtained with the forecast of that point everywhere; computing it with parallel workers gives the same region whatever the order in which the tasks finish.", "quantifier": "every region, model, error type and schedule of the tasks", "why_tests_cant": "all schedules of the workers and all regions", "anchors": ["spta/model/forecast.py: forecast_whole_region_with_single_model, forecast_whole_region_with_all_models", "spta/model/error.py: with_repeated_forecast, OverallErrorForEachForecast", "spta/model/error_parallel.py"]}
{"id": "C67", "title": "analyze_errors reports consistent extremes", "statement": "analyze_errors reports the overall error of the models at their own points; the minimum and the maximum over all points of the whole-region error of a single model; this error for the (first) point whose model has the least error at its own point; and this error for the centroid (NaN without a centroid). Hence min_local and centroid lie between minimum and maximum when they are numbers.", "quantifier": "every region, trainer, centroid and previous state of the analysis object", "why_tests_cant": "relates five results of a composite computation for all inputs", "anchors": ["spta/model/forecast.py: analyze_errors", "spta/region/spatial.py: find_minimum, find_maximum, value_at"]}
{"id": "C68", "title": "Whole-region forecasts use the models trained last", "statement": "forecast_whole_region_with_single_model and forecast_whole_region_with_all_models use forecasts of the models that were trained by the last call of train_models, and are rejected before any training or for a forecast length different from the test length.", "quantifier": "every sequence of calls on an analysis object", "why_tests_cant": "depends on call histories of a stateful object", "anchors": ["spta/model/forecast.py: train_models, check_forecast_request, forecast_region_each"]}
{"id": "C69", "title": "Daily averages are the means of the samples of each day", "statement": "average_4spd_to_1spd keeps the spatial shape and gives, at every point and for every day, the mean of the four samples of that day at that point (NaN if one is NaN), so the overall mean of a series does not change; a number of samples that is not a multiple of four is rejected with ValueError.", "quantifier": "every dataset of any shape and length, including NaN", "why_tests_cant": "arbitrary shapes, lengths and values", "anchors": ["spta/dataset/temp_brazil.py: average_4spd_to_1spd"]}
{"id": "C70", "title": "The cache of dataset intervals is never observable", "statement": "Starting without cached files, after any history of retrievals, created regions and saved regions, retrieve_dataset_interval gives what it gives without a cache: an array with the shape of the raw dataset and, at each point, exactly the samples (or daily means) of the requested years, leap years included; invalid years, samples per day or a missing raw file are rejected and change no file.", "quantifier": "every history of operations, years, samples per day and raw dataset", "why_tests_cant": "depends on file-system histories of unbounded length", "anchors": ["spta/dataset/temp_brazil.py: retrieve_dataset_interval, try_load_dataset_interval, save_dataset_interval, read_hdf5_dataset_by_year", "spta/region/metadata.py: create_instance", "spta/region/temporal.py: save"]}
{"id": "C71", "title": "Different numpy files of regions have different names", "statement": "The dataset, distance, minimum and maximum files of regions have the same path only if they are files of the same kind in the same directory for the same region name, years, samples per day and scaling.", "quantifier": "all pairs of metadata and file kinds", "why_tests_cant": "injectivity over all strings and integers", "anchors": ["spta/region/metadata.py: dataset_filename, distances_filename, scaled_min_filename, scaled_max_filename, __repr__"]}
{"id": "C72", "title": "A region created from metadata holds the raw series of its absolute positions", "statement": "create_instance gives a region of the size of the metadata's rectangle whose series at each point are the samples (daily means) of the requested years of the raw series at absolute_position_of_point; with scaling, that series scaled into [0, 1], and descaling recovers it; whatever was retrieved, created or saved (elsewhere) before.", "quantifier": "every raw dataset, rectangle, years, samples per day, scaling and history", "why_tests_cant": "composes caching, calendar, averaging, subsetting and scaling for all inputs", "anchors": ["spta/region/metadata.py: create_instance, absolute_position_of_point", "spta/dataset/temp_brazil.py", "spta/region/scaling.py: ScaleFunction"]}
{"id": "C73", "title": "A created region can be saved and loaded again", "statement": "Saving a region created from metadata stores its dataset under dataset_filename, so that loading that file gives the same dataset, and touches no other file.", "quantifier": "every metadata and disk", "why_tests_cant": "all regions and disks", "anchors": ["spta/region/temporal.py: save", "spta/region/scaling.py: SpatioTemporalScaled.save", "spta/kmedoids/silhouette.py: save_sptr, __load_saved_spt_region"]}
{"id": "C74", "title": "The mean model forecasts the mean of the last samples", "statement": "TrainerMeanOfPast gives at each point the mean of the last `past` samples of the training series (of the whole series if past is 0 or exceeds its length), a number within the bounds of the samples; a NaN among those samples makes the model NaN, an earlier one has no influence; the forecast repeats the mean for the requested length.", "quantifier": "every series, every past and forecast length", "why_tests_cant": "python slicing with negative bounds has special cases for 0 and large values", "anchors": ["spta/model/mean.py: TrainerMeanOfPast.training_function, ModelRegionMeanOfPast.forecast_from_model"]}
{"id": "C75", "title": "Silhouette analyses return the first clustering with the best score", "statement": "perform_analysis returns the highest silhouette score of the suite with the first algorithm that reaches it, do_silhouette_analysis the first (seed, k) pair in seed-major order, with the medoids and labels of that clustering and the first k initial medoids used for k clusters; nothing is returned exactly when no score is a number above -1; NaN scores never win; the first failing clustering raises.", "quantifier": "every suite, list of seeds and ks, and every score function", "why_tests_cant": "all score assignments, ties and NaN patterns", "anchors": ["spta/clustering/silhouette.py: perform_analysis", "spta/kmedoids/silhouette.py: do_silhouette_analysis, kmedoids_metadata_from_silhouette_metadata"]}
{"id": "C76", "title": "The intra-cluster cost is the sum of squared distances to the medoids", "statement": "intra_cluster_cost equals the sum over all points of the region of the squared distance between the point and the medoid of its cluster (NaN iff one of them is NaN); partitions into nearest medoids have the least cost among those with the same medoids, and for k-medoids it is the sum of squared distances to the nearest medoid; missing or too few medoids and other shapes are rejected.", "quantifier": "every partition, region shape, medoids and distance matrix", "why_tests_cant": "sums over arbitrary partitions and matrices", "anchors": ["spta/region/partition.py: intra_cluster_cost, create_all_spt_clusters", "spta/distance/__init__.py: distances_to_point_with_matrix"]}
{"id": "C77", "title": "A saved solver is loaded back", "statement": "Whatever files exist, loading a solver right after saving it gives the saved training models, whole models and errors, with the partition that was cached for its metadata (recomputed if its file is missing); a solver trained for its metadata is loaded exactly, loading then changes no file, and the loaded solver answers every prediction query as the saved one.", "quantifier": "every metadata with proper names, every solver and every previous content of the files", "why_tests_cant": "depends on all file names never colliding with each other", "anchors": ["spta/solver/model.py: SolverPickler.save_solver, load_solver, load_partition"]}
{"id": "C78", "title": "Solvers with different metadata do not share pickle files", "statement": "After any history of training, saving and loading solvers, a saved solver is loaded with its own models and errors: solvers that differ in region, clustering, distance, model parameters, number of test samples or error type use different files where their content differs.", "quantifier": "every history of operations and every pair of metadata", "why_tests_cant": "requires all pairs of file names and all interleavings", "anchors": ["spta/solver/metadata.py: trained_model_region_filename, pickle_dir", "spta/solver/model.py: SolverPickler path methods"]}
{"id": "C79", "title": "Every prediction result has its own CSV files", "statement": "Two results or summaries are written to the same CSV file exactly if they are of the same kind and agree in region settings, clustering, model parameters, prediction region, number of test samples, forecast length (in-sample being different from every positive length) and error type.", "quantifier": "every pair of results", "why_tests_cant": "injectivity of a formatted name over all values", "anchors": ["spta/solver/metadata.py: csv_dir, csv_filename, output_dir, prediction_region_as_str", "spta/solver/result.py: write_prediction_results, write_prediction_summary, result_prefix"]}
{"id": "C80", "title": "The classifier solver forecasts with the model its label names", "statement": "For every point of the prediction region, the label is the classifier's for the last tp samples of the point in the out-of-sample region (or the solver's own region); the forecast is that of the training model saved at medoid i of the solver for k and seed, where the label is k-seed-i, in original units; test data and error are those of the point in the solver's own region; a label that names no medoid or has not three parts is rejected.", "quantifier": "every prediction region, data (scaled or not), classifier, saved files, cached solvers and label assignment", "why_tests_cant": "composition of labels, files, cache, subregions and descaling over all inputs", "anchors": ["spta/classifier/model.py: SolverFromClassifier.predict, get_labels_from_classifier, retrieve_model_for_solver, build_model_region_for_models, create_prediction_query_result"]}
{"id": "C81", "title": "Queries to a classifier solver do not influence each other", "statement": "The answer to a query is the answer a newly created solver would give for the region that the query names, whatever queries were made before.", "quantifier": "every history of queries, including different out-of-sample regions and failed calls", "why_tests_cant": "quantifies over all histories", "anchors": ["spta/classifier/model.py: SolverFromClassifier.prepare, predict, retrieve_model_for_solver"]}
{"id": "C82", "title": "The classifier is given the last tp samples", "statement": "For every point the classifier gets exactly the last tp samples of the series, or the query is rejected if there are fewer; with the network of the code labels exist only if the number of samples given is the window of the network.", "quantifier": "every series length and tp", "why_tests_cant": "wrap-around of negative slice bounds depends on the relation of tp and length", "anchors": ["spta/classifier/model.py: get_labels_from_classifier", "spta/classifier/dnn.py: label_for_series"]}
{"id": "C83", "title": "The label of the network depends on the shape of the series only", "statement": "A series gets a label if and only if it has as many samples as the window of the network and no NaN (the network having one output per row of the label table): the label in the row of the first largest output of the network for the series divided by the sum of its absolute values, and it does not change when the series is multiplied by a positive number.", "quantifier": "every network, label table and series", "why_tests_cant": "all real series and scale factors", "anchors": ["spta/classifier/dnn.py: label_for_series"]}
{"id": "C84", "title": "Random points of a histogram lie outside of the cluster", "statement": "Whatever the random outcome, the random points compared with a cluster are different points of the region, none of them in the cluster; their number is the requested one (the size of the cluster if zero was requested), but not more than there are points outside; later accesses find as many points; every such choice is possible; a cluster that covers the region is rejected.", "quantifier": "every partition, cluster, requested number and random outcome", "why_tests_cant": "random outcomes and all partitions", "anchors": ["spta/distance/variance.py: DistanceHistogramWithRandomPointsOtherClusters.point_indices", "spta/util/maths.py: random_integers_with_blacklist"]}
{"id": "C85", "title": "The statistics of a histogram are those of the cluster", "statement": "The numbers shown are size, maximum, mean, variance, median of the distances and, if the centroid belongs to the cluster, the smallest distance of the other points; with random points, how many there are and how many are nearer than the farthest member; they exist if and only if the cluster has at least two points, otherwise ValueError.", "quantifier": "every list of distances", "why_tests_cant": "ties, even and odd sizes, all values", "anchors": ["spta/distance/variance.py: DistanceHistogram.statistics, DistanceHistogramWithRandomPointsOtherClusters.statistics"]}
{"id": "C86", "title": "The common axis shows every distance", "statement": "All histograms of a figure have the same end of the x axis, and no distance shown in any of them exceeds it.", "quantifier": "every list of clusters, distance matrix, number of random points and random outcome", "why_tests_cant": "the two random draws are independent", "anchors": ["spta/distance/variance.py: DistanceHistogramClusters.max_distance, plot"]}
{"id": "C87", "title": "Every cluster has its place in the figure", "statement": "For two or more clusters with two or more points each the figure is drawn; its subplots form a grid whose sides are the most balanced divisors of the number of clusters, each place is taken by one cluster in row-major order with its own distances to its centroid, and for a regular partition the place of a cluster in the grid is its place in the region.", "quantifier": "every number of clusters, region shape and partition", "why_tests_cant": "all numbers of clusters and region shapes", "anchors": ["spta/distance/variance.py: DistanceHistogramClusters.plot", "spta/util/maths.py: two_balanced_divisors_order_x_y"]}
{"id": "C88", "title": "The file of a query has the right row for every point", "statement": "For every solver with medoids, every prediction region inside the domain and every forecast length, the file written has the columns of the kind of query (test series only in sample) and exactly one row per point in row-major order: absolute coordinates, cluster of the point, its generalization error, the forecast of its own model in original units and, in sample, its last test_len samples in original units.", "quantifier": "every solver, plain or scaled, every prediction region, forecast length, partition", "why_tests_cant": "all regions and offsets; three coordinate systems", "anchors": ["spta/solver/model.py: predict", "spta/solver/result.py: write_prediction_results, result_tuple_for_point, PredictionQueryResultBuilder"]}
{"id": "C89", "title": "The file of a classifier query has the right row for every point", "statement": "For a solver with a classifier in every reachable state the file has one row per point of the prediction region in row-major order: absolute coordinates, the label of its last tp samples, the error, the forecast of the model the label stands for and the test samples, in original units.", "quantifier": "every state after earlier queries, every prediction region, tp and out-of-sample region", "why_tests_cant": "all histories of queries and all regions", "anchors": ["spta/classifier/model.py: predict, create_prediction_query_result", "spta/solver/result.py: ResultFromClassifier"]}
{"id": "C90", "title": "Complete training of a solver gives the right models and errors", "statement": "For every region as create_instance gives it (plain or scaled), every partition with one medoid in each cluster and every error function, training succeeds and yields a solver in which every point has the models of the medoid of its cluster (training part and whole series) and an error that is the chosen error of the forecast of its training model against its own last test_len samples, with the samples before them as training data, all in the original units. MASE with a single training sample is the exception: it divides by zero.", "quantifier": "every region, partition, medoids, trainer, refitter, error function, test length", "why_tests_cant": "all regions and trainers; composes clustering, splitting, replication, scaling and error measurement", "anchors": ["spta/solver/train.py: train, calculate_errors, train_models_at_medoids, replicate_representative_models", "spta/model/base.py: apply_to", "spta/model/error.py: MeasureForecastingError"]}
{"id": "C91", "title": "Rows of queries of a trained solver are self-consistent", "statement": "From the data to the file: an in-sample query of a solver after training has one row per point of the prediction region with the cluster of the point, the forecast of the model of the medoid of that cluster, the last test_len samples of the point, and an error equal to the chosen error of exactly the forecast and test series in the row. Out of sample the forecast has the requested length and comes from the model of the whole series of the medoid, while the error is still the one measured on the test samples.", "quantifier": "every region, partition, trainer, error function, prediction region and forecast length", "why_tests_cant": "end-to-end over all data; tests check single examples", "anchors": ["spta/solver/train.py: train", "spta/solver/model.py: predict", "spta/solver/result.py: write_prediction_results"]}
{"id": "C92", "title": "The queue of tasks computes the function for all index pairs under every schedule", "statement": "For every number of processes of at least one, every shape, every interleaving of the processes and every history of earlier calls (also failed ones), execute_func_on_2D with a function that does not raise returns the matrix with task_func(i, j) at (i, j); the function is called exactly once for every pair, the queue is left empty, every execution has a bounded number of steps and none gets stuck.", "quantifier": "every schedule, number of processes, shape, function and history of calls", "why_tests_cant": "exponentially many interleavings; a test sees one schedule", "anchors": ["spta/util/parallel_old.py: Parallel2DQueue, Parallel2DTask, process_one_task"]}
{"id": "C93", "title": "A raising task does not corrupt the other entries of the parallel result", "statement": "If task_func raises for some index pairs, all other entries of the result are still right and the failure is visible to the caller.", "quantifier": "every schedule, number of processes, set of raising tasks", "why_tests_cant": "failures interleave with the other processes in all possible ways", "anchors": ["spta/util/parallel_old.py: process_one_task, execute_func_on_2D"]}
{"id": "C94", "title": "kmedoids_bad always ends, at a local optimum", "statement": "For every data set, distance, combination of distances and non-empty list of starting medoids of the data, kmedoids of kmedoids_bad without max_steps ends after at most k*len(X)+1 iterations; the medoids returned are series of the data, every label is the position of the nearest medoid (the first of several), no series of a cluster has a smaller dissimilarity than its medoid, and the dissimilarity of no medoid has increased. Distinct starting medoids stay distinct when a series is strictly nearer to itself than to others.", "quantifier": "every data set, distance, combine, start, number of medoids", "why_tests_cant": "termination and optimality over an unbounded number of iterations with in-place changes of the medoids and labels inside the loops", "anchors": ["spta/kmedoids/kmedoids_bad.py: kmedoids, update_medoids, assign_labels, has_converged, init_medoids"]}
{"id": "C95", "title": "kmedoids_bad does not increase the cost and returns the labels of its medoids", "statement": "The sum of the distances of the series to their medoids is not greater for the result of kmedoids_bad than for its start, and the labels returned are those of the nearest returned medoids, for every max_steps.", "quantifier": "every data set, start and max_steps", "why_tests_cant": "the cost of a clustering is not what the algorithm minimises; random data rarely show it", "anchors": ["spta/kmedoids/kmedoids_bad.py: kmedoids, update_medoids"]}
{"id": "C96", "title": "ARIMA training gives every point the model of its own series", "statement": "For every region of series (plain, scaled or cluster), every order (p, d, q) and every library whose calls succeed or raise one of the two exceptions that are caught, applying the ARIMA trainer puts at each point of the region the model that the library fits to the series of that point, or None after an exception; the region reports the number of missing models and the AIC point by point. Likewise for auto ARIMA, which also reports the order of each model (orders that fit in 8 bits).", "quantifier": "every region, library outcome, order and training split", "why_tests_cant": "failures of the library at any subset of the points, nested decorators", "anchors": ["spta/arima/train.py: TrainerArimaPDQ, TrainerAutoArima, extract_aic, extract_pdq", "spta/model/train.py: ModelTrainer"]}
{"id": "C97", "title": "Missing data, missing parameters and library failures give a missing model", "statement": "ARIMA training at a point without series data or without parameters gives no model, and any failure of the library at a point gives no model there without affecting the other points.", "quantifier": "every library, series and parameter", "why_tests_cant": "exceptional paths of a third-party library", "anchors": ["spta/arima/train.py: TrainerArimaPDQ.training_function, TrainerAutoArima.training_function"]}
{"id": "C98", "title": "Refitting keeps the order that auto ARIMA found", "statement": "Refitting a trained ARIMA region with other series fits, at each point with a model, an ARIMA of the same order as the model found before; points without a model stay without one; the solver trained with auto ARIMA uses this end to end.", "quantifier": "every region, library outcome and partition", "why_tests_cant": "composition of two trainings over regions with missing models", "anchors": ["spta/arima/train.py: TrainerAutoArima.create_refitter, TrainerRefitArima", "spta/solver/train.py: SolverTrainer.train"]}
{"id": "C99", "title": "The ARIMA parameter sweep enumerates each combination exactly once, in order", "statement": "arima_params_gen yields every (p, d, q) with p in the p values, d in the d values and q in the q values, exactly once for lists without repetition, in lexicographic order of positions.", "quantifier": "every list of parameter values", "why_tests_cant": "unbounded parameter lists", "anchors": ["spta/arima/__init__.py: ArimaSuiteParams.arima_params_gen"]}
{"id": "C100", "title": "The best models are exactly the Pareto-optimal ones", "statement": "For positive times and errors and a Pareto library meeting its documentation (maximisation), find_best_models returns exactly the rows to which no row is better in time and error, each once.", "quantifier": "every table of positive times and errors", "why_tests_cant": "the set of optimal points depends on all pairs of rows", "anchors": ["spta/arima/optimize.py: find_best_models"]}
{"id": "C101", "title": "The sweep of cost factors logs the models of least cost and that cost", "statement": "For every step gamma the sweep logs alpha*time+beta*error for each optimal model, where alpha and beta weigh the scaled values with gamma and 1-gamma; the best models logged are exactly the optimal ones with the least cost among all models (also those that are not optimal), and the cost logged for them is that least cost.", "quantifier": "every table of positive times and errors, every gamma", "why_tests_cant": "optimality over all models", "anchors": ["spta/arima/optimize.py: sweep_cost_factors"]}
{"id": "C102", "title": "Regular clustering gives k rectangles, each with its medoid", "statement": "For every region that is not too small for k >= 1 and all finite distances, the regular clustering algorithm gives a partition of the region into k rectangles and, when asked for medoids, for each rectangle the point of the rectangle with the least sum of distances to the points of that rectangle (the first of several).", "quantifier": "every region, k and finite distance matrix", "why_tests_cant": "k, region shape and distance matrix are unbounded; medoid of each cluster depends on all its pairs", "anchors": ["spta/clustering/regular.py: partition_impl", "spta/clustering/__init__.py: find_medoids_for_partition", "spta/region/centroid.py"]}
{"id": "C103", "title": "The clustering report accounts for every point exactly once", "statement": "The CSV report of a partition has one row per cluster with the number of its points and the coverage; the points of the rows add up to the points of the region and the coverages to 100 per cent, for the partition of every regular clustering and every k-medoids run (also with empty clusters).", "quantifier": "every partition with labels below k; every run of both algorithms", "why_tests_cant": "sum over all clusters of arbitrary partitions", "anchors": ["spta/clustering/__init__.py: save_to_csv"]}
{"id": "C104", "title": "Training a solver with regular clustering succeeds end to end", "statement": "For every created region (scaled or not), every k that fits, all finite distances and trainers that do not raise, training a solver with regular clustering succeeds, and every point gets the models obtained from the medoid of its own rectangle and the error of the forecasts of that model.", "quantifier": "every region, k, distance matrix, trainer, forecaster and error measure", "why_tests_cant": "composition of clustering, medoids, training and error analysis over arbitrary regions", "anchors": ["spta/solver/train.py: SolverTrainer.train", "spta/clustering/regular.py"]}
{"id": "C105", "title": "Training a solver with k-medoids succeeds end to end", "statement": "For every created region, all initial medoids and modes, training a solver with k-medoids succeeds, and every point gets the models obtained from the medoid nearest to it and the error of the forecasts of that model.", "quantifier": "every region, k, distance matrix, initial medoids, mode, trainer and error measure", "why_tests_cant": "composition over arbitrary runs of the clustering, including degenerate distances", "anchors": ["spta/solver/train.py: SolverTrainer.train", "spta/clustering/kmedoids.py", "spta/kmedoids/kmedoids.py"]}
{"id": "C106", "title": "The file of a suite analysis can be read back", "statement": "For every suite of clusterings with different representations whose partitions have as many clusters and medoids as asked for, the file of the suite analysis gives back, for every clustering and in order, the coordinates of its medoids in the dataset; each line has the sum of the distances of all points from the medoids of their clusters. If a clustering raises an error, the file is readable and has exactly the clusterings before it.", "quantifier": "every region, offset, distance matrix, suite and partition", "why_tests_cant": "suites, partitions and matrices are unbounded; round trip through text", "anchors": ["experiments/clustering/partition_analysis.py: analyze_suite, analyze_partition", "spta/clustering/suite.py: retrieve_suite_result_csv"]}
{"id": "C107", "title": "The analysis of a k-medoids suite succeeds", "statement": "For every list of numbers of clusters and every list of seeds (without repetitions), the analysis of the k-medoids suite succeeds and has a line for every pair, with the medoids and the total distance of the points from their nearest medoid.", "quantifier": "every region, distance matrix, lists of k and seeds, random outcomes", "why_tests_cant": "composition of arbitrary k-medoids runs with the analysis and the file", "anchors": ["experiments/clustering/partition_analysis.py", "spta/clustering/kmedoids.py: partition_impl", "spta/clustering/suite.py"]}
{"id": "C108", "title": "The file of medoid distances has the distance of every pair", "statement": "The file with the distances between the medoids has a header with the numbers of the clusters and a line for each cluster with the distances of its medoid from all medoids, in order; it is symmetric with zeros on the diagonal if the distances are; it is written for every k-medoids run and never for another number of medoids than clusters.", "quantifier": "every k, list of medoids and distance matrix", "why_tests_cant": "k and the matrix are unbounded; numpy broadcasting of single values", "anchors": ["experiments/clustering/medoid_distances.py: compute_and_save_medoid_distances"]}
{"id": "C109", "title": "The errors between medoids are those of the forecasts of the medoids", "statement": "The file of the errors between medoids has a header with the numbers of the clusters and, for every pair (i, j), in line i and column j, the error at medoid j of the forecast made with the training data of medoid i, in the units of medoid j. The entry (i, i) is the generalization error that the solver trained on the same data has at this medoid.", "quantifier": "every region, trainer, list of medoids, error type and forecast length", "why_tests_cant": "training, scaling, repetition of forecasts and file output composed for unbounded data", "anchors": ["experiments/auto_arima/error_between_medoids.py: do_auto_arima_errors_for_clustering, find_auto_arima_errors_for_medoid", "spta/model/error.py: with_repeated_forecast"]}
{"id": "C110", "title": "Distances and errors of a cluster are aligned", "statement": "The file of a cluster has exactly one line for every point of the cluster, with the position of the point in the dataset, its distance from the medoid and the error at this point of the forecast of the medoid; over all clusters every point of the region appears.", "quantifier": "every region, partition, distance matrix, medoids, trainer", "why_tests_cant": "the code pairs three independently computed sequences by index; only an argument on their orders relates them", "anchors": ["experiments/auto_arima/distance_errors.py: distance_vs_errors_for_cluster", "spta/region/partition.py: all_point_indices", "spta/distance/dtw.py: distances_to_point_with_matrix"]}
{"id": "C111", "title": "Different runs of the error experiments write different files", "statement": "Two runs of the error experiments write to the same file only if they agree in the region, the clustering, the parameters of the models, the type of the error and the forecast length (and the cluster and the order of the model of its medoid).", "quantifier": "every pair of metadata objects", "why_tests_cant": "injectivity of a naming scheme over unbounded names and numbers", "anchors": ["experiments/auto_arima/error_between_medoids.py:121-127", "experiments/auto_arima/distance_errors.py:182-193"]}
{"id": "C112", "title": "The solver with a model at each point forecasts each point from its own past", "statement": "The file written by the solver with a model at each point has exactly one row for every point of the prediction region, with the position of the point in the dataset, the forecast of the model trained with the samples of this point before the last tf, in the original units, the last tf samples and the chosen error of exactly these two. At a medoid, error, forecast and test samples are those that the solver with one model per cluster writes. With k nearest neighbours the forecast combines the k windows nearest to the last training samples of the point, if there are enough samples.", "quantifier": "every region (scaled or not), prediction region, trainer, error type and forecast length", "why_tests_cant": "subsetting, training, forecasting, descaling and file layout composed for unbounded data; agreement of two programs", "anchors": ["experiments/auto_arima/solver_each.py: process_request, descale_subregion", "experiments/baseline/solver_knn_each.py: process_request", "spta/model/knn.py: TrainerKNN, ModelRegionKNN"]}
{"id": "C113", "title": "Files of suites and of training input are not mixed up", "statement": "The analysis of a suite, the list of its medoids and the two files of a run that creates training input have different paths; two analyses, lists or runs share a path only if they agree in the region, the suite and all settings of the run.", "quantifier": "every pair of suites, regions, criteria, counts, seeds and thresholds", "why_tests_cant": "injectivity of naming schemes over unbounded names and numbers", "anchors": ["spta/clustering/suite.py: csv_dir, analysis_csv_filepath, medoid_series_csv_filepath, classifier_csv_filename", "spta/classifier/train_input.py: csv_filepaths"]}
{"id": "C114", "title": "Results of different solvers never share a file", "statement": "The result or summary files of two queries, answered by solvers with a model at each point, with a suite or with a clustering, coincide exactly if both are results or both summaries and they agree in the kind of solver, the region, suite or clustering, model parameters, prediction region, test and forecast lengths and error type.", "quantifier": "every pair of results of the three kinds of solver metadata", "why_tests_cant": "injectivity of naming schemes across three classes over unbounded names and numbers", "anchors": ["spta/solver/metadata.py: SolverMetadataBasic, MetadataForClusteringSuite, MetadataWithClustering", "spta/solver/result.py: write_prediction_results, write_prediction_summary"]}
{"id": "C115", "title": "The k-medoids script terminates with medoids it cannot improve", "statement": "Started with data points, the loop ends after finitely many rounds, independently of the order in which python iterates the set of labels. It returns as many medoids as it was given, all data points; every point has the label of its nearest medoid, and every medoid is the point of its cluster with the least cost, so that the clustering is not worse than at the start.", "quantifier": "every data set, start, exponent and iteration order", "why_tests_cant": "termination and fixpoint properties over all data sets; examples show only single runs", "anchors": ["spta/kmedoids/iris_kmedoid.py: compute_d_p, assign_labels, update_medoids, has_converged, kmedoids, init_medoids"]}
{"id": "C116", "title": "Matches are counted up to a renaming of the labels", "statement": "The inexact number of matches of two labelings is the best agreement over all ways to rename the labels of one of them; the exact number is the number of positions with equal labels.", "quantifier": "every pair of label arrays", "why_tests_cant": "the number is right on examples with two labels, the quantifier is over all arrays and renamings", "anchors": ["spta/kmedoids/iris_kmedoid.py: mark_matches, count_matches"]}
{"id": "C117", "title": "DBSCAN clusters are the groups and the noise", "statement": "The partition of the DBSCAN algorithm has exactly one cluster for each group found, and one for the noise, all non-empty; the medoids are stored if requested; the algorithm can be used for any region with its distance measure, and its metadata is recovered from its representation.", "quantifier": "every outcome of DBSCAN and every region", "why_tests_cant": "quantifies over all outcomes of the clustering library", "anchors": ["spta/clustering/dbscan.py: DbscanClusteringAlgorithm, DbscanClusteringMetadata"]}
{"id": "C118", "title": "Tables of training errors have the right row for each cluster and order", "statement": "The error analysis writes one row for each of the first k clusters and each ARIMA order of the suite (one row per cluster for auto ARIMA), in order. The row has the number of points of the cluster, the number of its points for which no model could be fitted, the errors of the forecasts of the last 8 samples (each, minimum, local minimum, medoid, maximum) of exactly the points of the cluster, and for auto ARIMA the order and the AIC of the medoid. The errors of the medoid and of the local minimum lie between the minimum and the maximum; every cell is under its column; different runs write different files.", "quantifier": "every region, partition, medoids, suite, error type and fitting outcome", "why_tests_cant": "quantifies over all regions, partitions and outcomes of the fitting library; needs minutes of ARIMA training per example", "anchors": ["experiments/arima/training_error_analysis.py: do_arima_error_analysis_for_clustering", "experiments/auto_arima/training_error_analysis.py: do_auto_arima_error_analysis_for_clustering, analyze_auto_arima_for_cluster", "spta/model/forecast.py: ForecastAnalysis"]}
{"id": "C119", "title": "Plots of the error analysis do not change the table", "statement": "With plots, each experiment of the error analysis has a plot with one mark per point of the cluster, at its distance to the medoid and its error for the forecast of the model of the medoid, and the table is the same as without plots.", "quantifier": "every region, partition, distance matrix and fitting outcome", "why_tests_cant": "alignment of two lists over all partitions; failure only shows when a model cannot be fitted at a medoid", "anchors": ["experiments/arima/training_error_analysis.py: do_arima_error_analysis_for_clustering, plot_name_distances_vs_errors", "experiments/auto_arima/training_error_analysis.py: analyze_auto_arima_for_cluster, plot_name_distances_vs_errors", "spta/model/forecast.py: plot_distances_vs_errors"]}
{"id": "C120", "title": "Predictions of the solver programs depend on their arguments only, not on what was run before", "statement": "In any session of train and predict commands of the three solver programs (auto ARIMA, mean of past, k-NN at medoids) that starts without pickle files, a train command succeeds exactly if training from scratch does. A predict command whose arguments were trained successfully gives the answer of the solver trained from scratch with these arguments, whatever other commands were run in between, and fails with a missing file (or the exception of the clustering) if they were not. In particular each row of an in-sample prediction has the forecast of the model of the medoid of the point's cluster and its error.", "quantifier": "every sequence of commands with accepted arguments, every dataset, clustering outcome and trainer", "why_tests_cant": "quantifies over all histories of program runs that share a directory of files; each run takes minutes of clustering and ARIMA training", "anchors": ["experiments/auto_arima/solver.py: train_request, predict_request, metadata_from_args", "experiments/baseline/solver_mean_past.py", "experiments/baseline/solver_knn_medoids.py", "spta/solver/train.py: SolverTrainer", "spta/solver/model.py: SolverPickler", "experiments/metadata/region.py: predefined_regions"]}
{"id": "C121", "title": "The saved distance matrix of a region holds the distances of its series, however it was computed", "statement": "After any sequence of runs of the distance program for the predefined regions, starting from arbitrary files, if one run was for a region and did not fail for a negative number of workers, then loading the distances of that region succeeds and the matrix has, for every two points, the distance between their series; runs for other regions leave the file alone. Distances to a point that are read from the matrix are the distances of the series. The plots show the distances to the first point and to the point (x_len // 2, y_len // 2).", "quantifier": "every sequence of runs, every number of workers and every interleaving of them, every region and every symmetric measure", "why_tests_cant": "the parallel runs have unboundedly many schedules, and the program keeps its files over runs; a real matrix has 64 million elements", "anchors": ["experiments/region/distance.py: calculate_distances_with_args, show_distances", "spta/distance/dtw_parallel.py: DistanceByDTWParallel.compute_distance_matrix_sptr", "spta/distance/dtw.py: compute_distance_matrix_sptr", "spta/distance/__init__.py: load_distance_matrix_2d, distances_to_point", "spta/region/metadata.py: distances_filename"]}
{"id": "C122", "title": "The analysis of a suite of regular clusterings stops at the first number of clusters without room, and its file has what was before", "statement": "Analysing a suite of regular clusterings of a region with a complete distance matrix succeeds exactly if the most balanced factors of every number of clusters fit in the sides of the region; otherwise it raises a ValueError at the first that does not. The file can be read and has exactly the clusterings before; the line of each has the coordinates in the dataset of the medoids of its rectangles and the total distance of the points from the medoids of their rectangles. Of the suites of the catalogue, quick can be analysed on all predefined regions, part1 only on the regions named whole_real_brazil and part2 only on these and the ones named whole_brazil.", "quantifier": "every region, every distance matrix, every list of different numbers of clusters", "why_tests_cant": "a test of one suite on one region does not show at which number of clusters other suites stop; the catalogue has 15 regions and clusterings of up to 8100 points", "anchors": ["experiments/clustering/partition_analysis.py: do_analysis, analyze_suite, analyze_partition", "experiments/metadata/clustering.py: regular_suites, get_suite", "experiments/metadata/region.py: predefined_regions", "spta/clustering/regular.py: RegularClusteringAlgorithm", "spta/region/partition.py: PartitionRegionCrisp.with_regular_partition"]}
{"id": "C123", "title": "Every combination of names that the command lines accept is defined in the catalogues", "statement": "For every region, clustering type, suite and experiment that the parsers accept, the metadata of the program are found. The centroid of a predefined region is calculated from its metadata. The options for suites are the identifiers of the suites of some type, and the two precalculated centroids are point (4, 6).", "quantifier": "every combination of accepted arguments", "why_tests_cant": "the combinations are many and a test of a program takes hours", "anchors": ["experiments/metadata/clustering.py: get_suite, suite_options, kmedoids_suites, regular_suites", "experiments/metadata/arima.py: arima_suite_by_name, predefined_auto_arima", "experiments/metadata/arima_clustering.py: get_experiment, experiments_for_arima_with_clusters, auto_arima_clustering_experiments", "experiments/metadata/silhouette.py: silhouettes_metadata, silhouette_metadata_by_region", "experiments/metadata/centroid.py: centroid_by_region_and_distance", "experiments/arima/training_error_analysis.py: metadata_from_args"]}
{"id": "C124", "title": "The elbow printed for a seed is the elbow of the costs of the clusterings of that seed", "statement": "For a region with a complete distance matrix and a suite of k-medoids clusterings with at least three numbers of clusters, the program that finds elbows succeeds and prints for every seed the values of k in increasing order and the clustering with the first largest second derivative of the cost, where the cost of a clustering is the sum of the squared distances of the points from their nearest medoids.", "quantifier": "every region, distance matrix, suite and random choice of initial medoids", "why_tests_cant": "a test sees one region and one suite; the costs of different seeds are often equal, so that a mix-up does not show", "anchors": ["experiments/clustering/find_elbows.py: analyze_suite, metadata_from_args", "spta/clustering/suite.py: FindSuiteElbow, OrganizeClusteringSuite", "spta/region/partition.py: intra_cluster_cost", "spta/clustering/kmedoids.py: KmedoidsClusteringAlgorithm.partition_impl"]}
{"id": "C125", "title": "The silhouette score of a clustering is the mean of the silhouettes of its points and is above the start value of the search", "statement": "The score used by both silhouette analyses is the mean over the points of (b - a) / max(a, b), where a is the mean distance to the other points of the same cluster and b the least mean distance to another cluster. It exists exactly for clusterings with at least two clusters and fewer clusters than points, it lies between -1 and 1, and for DTW distances it is strictly above the -1 with which the search for the best clustering starts.", "quantifier": "every distance matrix, set of series and list of labels", "why_tests_cant": "the value -1 would silently leave the search without result; that no clustering reaches it is a statement about all matrices, and DTW is not a metric", "anchors": ["spta/clustering/silhouette.py: SilhouetteAnalysis.do_single_silhouette", "spta/util/plot.py: plot_clustering_silhouette", "spta/kmedoids/silhouette.py: KmedoidsWithSilhouette"]}
{"id": "C126", "title": "The silhouette analyses end with the first of the clusterings with the best score", "statement": "For every suite of k-medoids clusterings and for every set of parameters of the command for silhouettes, the analysis ends with the first clustering with the greatest silhouette score, and the score is that of the partition of this clustering.", "quantifier": "every region, distance matrix, suite and random choice of initial medoids", "why_tests_cant": "the scores depend on the partitions found by k-medoids; equal series and extreme numbers of clusters are rare in tests", "anchors": ["spta/clustering/silhouette.py: SilhouetteAnalysis.perform_analysis", "spta/kmedoids/silhouette.py: KmedoidsWithSilhouette, do_silhouette_analysis", "spta/kmedoids/kmedoids.py: run_kmedoids"]}
{"id": "C127", "title": "The silhouette plot shows every point once in the band and the colour of its cluster", "statement": "The plot has one band for each cluster, the bands are disjoint and below the upper limit, the band of a cluster contains the silhouettes of the points of this cluster in ascending order, its colour is the colour of these points on the map, and the vertical line is at the mean.", "quantifier": "every distance matrix and list of labels", "why_tests_cant": "figures are not compared in tests", "anchors": ["spta/util/plot.py: plot_clustering_silhouette, plot_2d_clusters"]}
{"id": "C128", "title": "The figures of distances show the distances from the corner and from the centre", "statement": "For every region with a matrix of distances that fits, the command shows for every point its distance from the point (0, 0) and from the central point of the region.", "quantifier": "every shape of the region and matrix of distances", "why_tests_cant": "the index of the centre is calculated by two formulas for odd and even sizes; a figure with the distances of a neighbour of the centre looks right", "anchors": ["spta/kmedoids/silhouette.py: show_distances"]}
{"id": "C129", "title": "The centroid of a region is the first point with the least total distance, whatever was computed before", "statement": "CalculateCentroid.for_sptr_metadata returns for every region the first point, in row order, whose summed distance to all series of the region is least. A distance matrix that is not saved is calculated first, and earlier calls, in particular with the default distance object, make no difference.", "quantifier": "every region, distance measure, content of the files and sequence of calls", "why_tests_cant": "the default argument is shared by all calls of a process, and tests run one call; the tie break and NaN distances are rare", "anchors": ["spta/region/centroid.py: CalculateCentroid.find_centroid_and_distances, CalculateCentroid.for_sptr_metadata", "spta/distance/__init__.py: distances_to_point", "experiments/region/centroid.py: calculate_centroid_with_args"]}
{"id": "C130", "title": "get_centroid returns the centroid of the object, of one of its points, or calculates it", "statement": "has_centroid and get_centroid of a region, a scaled region or a cluster give the centroid that was set on the object, or else that of the region it decorates; without one, get_centroid calculates it with the given measure, and raises ValueError without a measure. The clusters of create_all_spt_clusters get the medoid or the point of the index that was given for them; the centroid of a cluster is one of its points.", "quantifier": "every chain of decorators, every list of medoids or indices", "why_tests_cant": "depends on the attributes of each object in a chain of decorators", "anchors": ["spta/region/temporal.py: SpatioTemporalRegion.get_centroid, has_centroid; SpatioTemporalDecorator.get_centroid, has_centroid", "spta/region/partition.py: create_all_spt_clusters"]}
{"id": "C131", "title": "The ARIMA forecast program prints one line of errors per order of the suite", "statement": "For every region and suite of the catalogues whose distances were saved before by the distance program, do_arima_forecast prints one line per order (p, d, q) of the suite, in the order of the suite, with the error of all models at their own points, of the model with the least own error and of the model at the centroid, over the whole region, in the original units; models are trained without the last eight samples. Without saved distances it fails before anything is printed.", "quantifier": "every region, suite, library of models and distance measure; every history of the distance program", "why_tests_cant": "runs for hours on real data; composes training, forecasts, descaling, errors and the search of the centroid", "anchors": ["experiments/arima/forecast.py: do_arima_forecast", "spta/model/forecast.py: ForecastAnalysis.analyze_errors", "experiments/metadata/centroid.py: centroid_by_region_and_distance"]}
{"id": "C132", "title": "The CSV files are read back exactly as they were written", "statement": "Whatever rows the programs write with the csv module (delimiter blank, quote character |), with fields of at most 131072 characters without NUL, csv.reader with the same parameters gives the same rows, also for fields with blanks, quotes and line breaks (the text of a numpy array is broken into lines), for empty fields and empty rows; a longer field makes the reader fail at its row. Any other text of lines that end outside of quotes is read line by line, an empty line as an empty row. save_as_csv writes the two files of a result and no other; the first has the header and one record per point, the second the header and the summary. If the row of a point cannot be calculated, the file keeps the rows before. The file of the analysis of a suite gives the medoids back also as text.", "quantifier": "every list of rows; every result and text of numbers; every suite", "why_tests_cant": "an incidental line break, quote or empty field is rarely in a test; the quoting rules of the reader and the writer have to agree for all of them", "anchors": ["spta/solver/result.py: save_as_csv, write_prediction_results, write_prediction_summary", "spta/clustering/suite.py: retrieve_suite_result_csv", "experiments/clustering/partition_analysis.py: analyze_suite"]}
{"id": "C133", "title": "The lines on the screen show what the CSV file shows", "statement": "For every result, with or without partition or classifier, and every point, lines_for_point shows the absolute coordinates, the cluster or the label, the forecast, the test series and the error of the row of the point in the CSV file, and fails if and only if the row cannot be calculated. The programs print one block per row, in the same order.", "quantifier": "every result, point and text of numbers", "why_tests_cant": "the two outputs are produced by different chains of decorators, with different coordinates", "anchors": ["spta/solver/result.py: lines_for_point, text_intro_for_domain_point, text_forecast_for_relative_point, text_test_for_relative_point, text_error_for_relative_point", "experiments/auto_arima/solver.py: predict_request"]}
{"id": "C134", "title": "The figure of a query shows its region, clusters and medoids", "statement": "For every query with plot, the figure colours two points alike exactly if they belong to the same cluster (for a colour map that distinguishes the values from 0 to 1), marks every medoid in its own square with a symbol of another colour than the square, draws a rectangle that consists of the squares of exactly the points of the prediction region, and has the four corners in the coordinates of the whole data in its title. It is drawn unless the partition is empty (ValueError) or a medoid is outside of it (IndexError); the result of the query is the same as without plot. Two figures have the same file exactly if settings, model parameters and prediction region agree, and no figure has the file of a result.", "quantifier": "every partition, list of medoids, prediction region, colour map and metadata", "why_tests_cant": "the axes of figure and region are swapped and the pixels are shifted by a half; a test would have to look at the picture", "anchors": ["spta/solver/model.py: predict, plot_regions, get_plot_filename", "spta/util/plot.py: plot_partition, plot_discrete_spatial_region", "spta/clustering/kmedoids.py: KmedoidsClusteringMetadata.__str__"]}
{"id": "C135", "title": "The synthetic training data has consistent labels and the columns of the real data", "statement": "For all parameters and whatever the random generators draw, generate_synthetic_series yields num_entries entries whose number of clusters and seed are among those given, whose index is that of one of the clusters, whose medoid is one of num_medoids ones within the region, and whose series of series_len samples lies (up to the noise) on a line with b_min <= b < b_max that rises for odd seeds and falls for even ones, by (k - index) * a_weight per sample. For positive numbers of clusters it succeeds exactly if there is something to choose from, the bounds differ and the noise is not negative. Two labels have the same slope exactly if k - index agrees and the seeds have the same parity. The CSV file is read back as a header and one row per entry, all of the same width, and the header is that of the training data of a k-medoids suite.", "quantifier": "all parameters, draws, noise values and texts of numbers", "why_tests_cant": "The tests do not run the generator; labels, widths and errors depend on all draws.", "anchors": ["spta/classifier/synthetic.py:8-96", "spta/dataset/synthetic_temporal.py:68-85"]}
{"id": "C136", "title": "Extremes of arrays with their first index, and distances to a point", "statement": "For every array of any number of axes, minimum_value_and_index (maximum_value_and_index) returns the least (greatest) number of the array, NaN ignored, together with the first index in row-major order at which it stands; an empty array is a ValueError, an array of NaN only an IndexError, and there is no other failure. distances_to_point_in_2d_region has at position x * y_len + y the Euclidean distance of (x, y) to the point, zero at the point itself and nowhere else.", "quantifier": "all arrays of any shape with at least one axis, all regions and points", "why_tests_cant": "ties, NaN positions and numbers of axes are unbounded", "anchors": ["spta/util/arrays.py:52-83", "spta/util/arrays.py:128-135"]}
{"id": "C137", "title": "The root mean squared error is a distance between series", "statement": "For series of numbers with the same positive length, DistanceByRMSE.measure is a metric: its square is the mean of the squares of the differences, it is zero exactly for equal series, symmetric, and satisfies the triangle inequality. It is NaN exactly if one of the series has a NaN or both are empty; other lengths are a ValueError, except for a single sample. Combining the distances of pairs of series of the same length gives the distance of the pairs without NaN put one after another, NaN if there is no such pair.", "quantifier": "all series and lists of pairs, and every square root", "why_tests_cant": "the triangle inequality and the combination hold for all lengths and values", "anchors": ["spta/distance/rmse.py:16-31", "spta/util/arrays.py:98-110"]}
{"id": "C138", "title": "Synthetic series of the k-medoids examples", "statement": "delayed_function_with_noise returns, from 7 samples on, a series of the wanted length that shows the profile once after a delay: the padding is the largest number of samples up to 30 and 15 percent of the series, the delay is less than the padding (so that the last sample never shows the profile), and noise of 2 percent is added to every sample; less than 7 samples are a ValueError. alternating_functions_1d gives series i the function at position i modulo the number of functions. alternating_functions_2d gives each of the functions to about the same number of points and records in the mask which function each point has; no functions at all are a ZeroDivisionError.", "quantifier": "all profiles, lengths, delays, noises, numbers of series, region sizes and functions", "why_tests_cant": "random delays and noise, and unbounded sizes", "anchors": ["spta/dataset/synthetic_temporal.py:12-47", "spta/kmedoids/example1d.py:14-36", "spta/kmedoids/example2d.py:19-61"]}
{"id": "C139", "title": "The k-medoids example programs", "statement": "plot_series_group_by_color draws series i in the colour of its label out of b, g, r, c, m, y, k, with different colours for different labels; more than 7 different labels are a ValueError, and else a series without label or with a label from 7 on is an IndexError. If no two of the generated series are at distance 0, example1d ends with one medoid for each function (at most 7), every series labelled with its nearest medoid, and one line for each series in the colour of its cluster; example2d ends with the first of the numbers of clusters (2 to 7, less than the number of points) with the best silhouette score, with the medoids of that clustering, and draws every series in the colour of its cluster. plot_series_group draws every series if all have the given length, and else fails with ValueError.", "quantifier": "all functions, region sizes, series lengths from 7 on, numbers of clusters, distance functions, delays, noises and initial medoids", "why_tests_cant": "random series and initial medoids; figures are not inspected by tests", "anchors": ["spta/util/plot.py:12-43", "spta/util/plot.py:301-303", "spta/kmedoids/example1d.py:39-66", "spta/kmedoids/example2d.py:64-104", "spta/distance/dtw.py:60-79"]}
{"id": "C140", "title": "The report of fuzzy k-medoids counts the samples nearest to each medoid", "statement": "All memberships of a result of fuzzy k-medoids are numbers. If no two samples are at distance 0, the report of the result has a line for each of the k clusters: its medoid, the number of samples of which this is a nearest medoid (that is, the clusters with threshold 0 are those of crisp k-medoids, with ties in every cluster), and the percentage of all samples. The numbers sum up to at least the number of samples, and to exactly this number if no sample has two nearest medoids.", "quantifier": "all samples, distance measures, fuzzifiers, initial medoids, tolerances and numbers of iterations", "why_tests_cant": "all matrices of distances; the report is only logged", "anchors": ["spta/kmedoids/kmedoids_fuzzy.py:235-258", "spta/region/mask.py:117-169"]}
{"id": "C141", "title": "The files of the extraction of LSTM training data fit together", "statement": "When the program extraction_lstm succeeds, a csv reader finds in its three files a row for each of the requested random points, a row for each medoid, and a histogram. The points are distinct points of the region, and the row of a point has its series. Each of these rows names a medoid by its clustering and its index, and exactly one row of the file of medoids has this name, with the same coordinates. The histogram has one line for each medoid that was named, with the number of its rows; the sum is the number of points. No other file changes. With the strategy min_distance and a readable suite of valid clusterings with medoids in the region and a matrix of numbers, the program succeeds if and only if the suite is not empty, the points that are not medoids suffice and the medoids times the threshold suffice (or the threshold is 0). When the program fails, no other file changes, and either the histogram and the file of medoids are as before and the file of points is as before, empty, or a header with fewer rows, or the file of points and the histogram are complete.", "quantifier": "all suites, regions, strategies, seeds, numbers of points, thresholds and texts of the analysis file", "why_tests_cant": "all contents of the input files and outcomes of the random generator; failures in the middle of a run", "anchors": ["experiments/clustering/extraction_lstm.py:83-113", "spta/classifier/train_input.py:52-175", "spta/classifier/train_input.py:468-611"]}
{"id": "C142", "title": "The program that predicts with a classifier answers every point with the medoid of its label", "statement": "After any session of the solver programs and of this program, on the pickle files they left: if the label of each point of the prediction region names a medoid of a solver that was trained in the session, solver_dnn succeeds, and a csv reader finds in the file of the result a row for each point, in row-major order, with its coordinates in the dataset, the label of the last samples of the point in the region of the labels, the forecast of the model that was trained on the series of that medoid without its last samples, in the units of the point, the test samples of the point, and the error between the two. The summary has the suite, the number of test samples and the mean of the squares of these errors; the screen has a block of lines for each row; no other file changes. If the label of one point names a solver that was not trained in the session, or an index without a medoid, the program fails and writes no CSV file. The program trains nothing: its runs leave the pickle files as runs of the solver programs with the same trainings would. The two files are named after the region, the suite, the prediction region, the number of test samples and the type of the error.", "quantifier": "all sessions, regions, queries, classifiers, models and labels", "why_tests_cant": "all sessions of several programs with cached files, all classifiers and labels", "anchors": ["experiments/classifier/solver_dnn.py:83-131", "spta/classifier/model.py:23-283", "spta/solver/metadata.py:145-203"]}
{"id": "C143", "title": "The programs that measure errors write all files of a suite of clusterings", "statement": "After any session of the solver programs, of solver_dnn and of these two programs, on the pickle files they left: if every clustering of the suite can be computed on the region, error_between_medoids and distance_errors succeed. A csv reader then finds, for every clustering, the report of its partition (points and percentage of each cluster, adding up to 100), and either the file of the errors of the model of each medoid at all medoids, or one file per cluster, named after the order of the model of its medoid, with the position, the distance from the medoid and the error of each point of the cluster in row-major order. The other files are as before. If a clustering fails, for example a regular one with more clusters than there is room for, both programs end with its error; the files of the clusterings before it are complete and no other file is written. The programs train no solver: their runs leave the pickle files as runs of the solver programs with the same trainings would. If the models of the medoids of a clustering cannot be trained, or the work on a cluster fails, the program ends with that error after the files written so far. A run for two suites, one after the other, does the same as a run for the first followed by one for the second, and stops where the first would stop.", "quantifier": "all sessions, suites, regions, models, distances and types of error", "why_tests_cant": "all sessions of several programs with cached files, all suites", "anchors": ["experiments/auto_arima/error_between_medoids.py:70-147", "experiments/auto_arima/distance_errors.py:78-222", "spta/clustering/__init__.py:83-126", "spta/clustering/__init__.py:169-206"]}
{"id": "C144", "title": "The other programs that work on suites of clusterings write all their files", "statement": "After any session of all programs, on the pickle files they left, and if every clustering of the suite can be computed on the region: (1) the two programs that train ARIMA models in clusters succeed, and a csv reader then finds, for every clustering, the report of its partition and a table with one row for each cluster (and each order, for a suite of orders), in order, with the size of the cluster, the number of points without a model, the timings and the errors of the forecasts; with plots, a model is needed at every medoid, and without one at the first medoid the program ends with AttributeError after the header and one row. (2) partition_analysis succeeds, and its file has one row per clustering with the sum of distances of the points from the medoids of their clusters and the medoids in coordinates of the dataset, which the code that reads the file gets back. (3) medoid_distances writes, for every clustering, the table of the distances between the medoids. (4) find_elbows prints what it would print without pickle files. Other files are as before. If a clustering fails, the programs end with its error; the files of the clusterings before it are complete, the file of partition_analysis has exactly these clusterings, and no other file is written. None of the programs trains a solver: their runs leave the pickle files as runs of the solver programs with the same trainings would. A partition of another shape than the region is rejected with AssertionError and has no table. The tables are at paths that name the region, the distance, the clustering, the models and the error. The programs with tables and medoid_distances can work on a suite in parts, with the same result. With plots, at the first clustering, cluster and kind of model without a model at the medoid, the files of the clusterings before are complete, and the table of this clustering ends with the row of the missing model; up to there it is the complete table.", "quantifier": "all sessions, suites, regions, models, distances and types of error", "why_tests_cant": "all sessions of several programs with cached files, all suites", "anchors": ["experiments/arima/training_error_analysis.py:86-222", "experiments/auto_arima/training_error_analysis.py:93-177", "experiments/clustering/partition_analysis.py:78-186", "experiments/clustering/medoid_distances.py:48-84", "experiments/clustering/find_elbows.py:50-77"]}
{"id": "C145", "title": "The analysis of a suite and the extraction of training data fit together", "statement": "After any session of all programs, partition_analysis on a region and a suite of different clusterings, each with as many clusters as asked for and its medoids in them, is followed by extraction_lstm on the same region and suite with the smallest distance as the criterion. The extraction succeeds exactly if the suite is not empty, enough points are left to draw from, and there is no threshold or at most `threshold` points are drawn per cluster of the suite. Then the three files fit together, the points are different points of the region, and the n-th row of the choices has the series of the n-th point and names a medoid of the partitions, in coordinates of the dataset: the nearest to the point, by the distance matrix, among those named less than `threshold` times by the rows before, and the first of these in the order of the suite. Without a threshold and with a single clustering whose labels are the first nearest medoids, each row names the cluster of its point.", "quantifier": "all sessions, regions, suites, partitions, distance matrices, thresholds and outcomes of the random generator", "why_tests_cant": "two programs that communicate by a file, over all suites and draws", "anchors": ["experiments/clustering/partition_analysis.py:78-186", "experiments/clustering/extraction_lstm.py:83-113", "spta/classifier/train_input.py:65-347"]}
{"id": "C146", "title": "Sessions of the silhouette commands analyse the saved region", "statement": "The commands save, distances, kmedoids and show_distances of KmedoidsWithSilhouette communicate by files named after the region, and share one distance measure. After any session of commands for any number of regions with telling names, in which the region was saved and later its distances were calculated, both of these succeed, kmedoids shows the first clustering with the best silhouette for the distances of the series of the raw dataset, and show_distances shows the distances from the corner and the centre. Before the region was saved, the other commands fail and change nothing. A fresh kmedoids without a file of distances gives what it gives after distances. Every command analyses the region of its metadata with its own distances.", "quantifier": "all sessions of commands on all regions, all raw datasets, distance measures, parameters and outcomes of the random generator", "why_tests_cant": "sequences of programs on shared files and a shared object, over all datasets", "anchors": ["spta/kmedoids/silhouette.py:28-160", "spta/region/temporal.py:106-130", "spta/distance/__init__.py:29-90"]}
{"id": "C147", "title": "The options of the analysis of a suite add figures and change nothing else", "statement": "With --silhouette and --variance, after any session of programs, the analysis of a suite of clusterings writes the table and the reports that it writes without them, and for each clustering, in its own directory, the figure of its silhouettes and the histograms of the distances from its medoids: the silhouettes are those of the matrix of distances of the region, in a band for each cluster in the colour that the cluster has on the map, and the best clustering is the first one with the highest score; there is a histogram for each cluster, with the distances of all its points and their statistics, the number of random points of other clusters that was asked for, in a grid as square as possible and on one axis. No other figures are touched. Without --variance, --random is ignored, although the program says that it is an error.", "quantifier": "all regions, suites, partitions, distances, options, random choices and earlier sessions", "why_tests_cant": "figures and files of a program over all suites and partitions, with failures half way", "anchors": ["experiments/clustering/partition_analysis.py:29-207", "spta/clustering/silhouette.py:12-97", "spta/distance/variance.py:429-617"]}
{"id": "C148", "title": "A pickled region is found again under the name of its metadata", "statement": "After any session in which regions are created from metadata, cut, transformed, scaled, split into clusters and pickled, from_pickle with the name of the metadata of a region gives back the region that these metadata create: the same values, metadata, and, if it is scaled, the same minima and maxima, so that it can be descaled. A region that is derived from it has no metadata and cannot be saved or pickled in its place; two metadata have the same pickle file exactly if they agree in name, years, samples per day and scaling; no pickle file of a region is the file of a partition, a solver, a dataset or distances; files that are not written keep their content. The program of temporal.py saves a scaled region, pickles it and reads it again.", "quantifier": "all catalogues of metadata, sequences of operations, partitions, sessions and earlier files", "why_tests_cant": "names and contents of files over all sequences of operations and programs, including overwritten files", "anchors": ["spta/region/base.py:68-74", "spta/region/base.py:113-126", "spta/region/temporal.py:67-81", "spta/region/temporal.py:132-144", "spta/region/temporal.py:340-355", "spta/region/temporal.py:480-496", "spta/region/scaling.py:120-151", "spta/region/metadata.py:174-185", "spta/region/partition.py:146-157", "spta/region/partition.py:200-226"]}
{"id": "C149", "title": "Iterations over regions do not disturb each other", "statement": "In a program that creates regions, scales them, takes clusters of them at any depth and iterates over any of them in any order, each step of an iteration gives the next point of that region with its value, whatever other regions are iterated over in between; a loop that was left early goes on where it was and then starts again; a loop inside a loop sees all items of the inner region for each item of the outer one.", "quantifier": "all programs of creations and calls, all depths of decoration, shapes, partitions and values", "why_tests_cant": "interleavings of calls on objects that share a cursor, over all programs and depths of decoration", "anchors": ["spta/region/base.py:76-101", "spta/region/spatial.py:39-65", "spta/region/spatial.py:107-117", "spta/region/spatial.py:366-397", "spta/region/temporal.py:30-51", "spta/region/temporal.py:393-420", "spta/region/scaling.py:221-226", "spta/model/error.py:70-75", "spta/region/partition.py:121-157"]}
{"id": "C150", "title": "The baseline solvers answer with the means of the medoids", "statement": "After any session of the programs in which it was trained, the mean-of-past solver answers each point of the prediction region with its cluster, the mean of the last `past` samples of the medoid of that cluster (all of them if there are fewer) repeated at every step and brought to the units of the point, and the error of this forecast against the last samples of the point; in sample the test samples of the medoid are left out, out of sample they are used. The solver with k nearest neighbours answers with the mean of the k windows of the medoid that are nearest to its last window. It can be trained only if there are at least k samples besides twice the test samples; otherwise training fails and no prediction is answered.", "quantifier": "all sessions, regions, partitions, values, parameters past and k > 0, numbers of test samples, prediction regions and forecast lengths", "why_tests_cant": "end-to-end statement over all sessions of commands, all data and all windows of the series", "anchors": ["spta/model/mean.py:8-65", "spta/model/knn.py:14-95", "experiments/baseline/solver_mean_past.py:140-190", "experiments/baseline/solver_knn_medoids.py:135-185", "spta/model/train.py:118-130", "spta/solver/train.py:66-192"]}
