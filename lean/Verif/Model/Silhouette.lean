import Verif.Model.Cost
import Verif.Model.Distance
import Verif.Model.PartitionAnalysis
import Mathlib.Data.List.Sort

/-!
# Model of the silhouette scores and of the figures of a silhouette analysis

`plot_clustering_silhouette`, `plot_2d_clusters` and `plot_discrete_spatial_region` in spta/util/plot.py,
`single_silhouette` in spta/clustering/silhouette.py and the commands of `KmedoidsWithSilhouette` in
spta/kmedoids/silhouette.py. A figure is the data given to the drawing functions of matplotlib; those do not
fail. `silhouette_score` and `silhouette_samples` are functions of sklearn; they are modelled after
sklearn/metrics/cluster/_unsupervised.py. Distances are numbers (no NaN) and labels natural numbers.
-/

namespace Spta

section

variable {K : Type} [Field K] [LinearOrder K]

/-- The samples with a label. -/
def samplesWith (labels : List Nat) (c : Nat) : List Nat :=
  (List.range labels.length).filter fun j => labels[j]? = some c

/-- The sum of the distances of sample `i` to the samples with label `c` (`np.bincount` with the distances as
weights in `_silhouette_reduce` of sklearn). -/
def clusterDistance (d : Nat → Nat → K) (labels : List Nat) (i c : Nat) : K :=
  ((samplesWith labels c).map (d i)).sum

/-- The value of `silhouette_samples(...)` of sklearn for sample `i`: the mean distance within its cluster
(the distance to itself is in the sum, but not counted), the least mean distance to another cluster (there is
one, see `silhouetteScore`), and NaN (0 / 0) replaced by 0; NaN arises in a cluster of one sample too. -/
def silhouetteSample (d : Nat → Nat → K) (labels : List Nat) (i : Nat) : K :=
  match labels[i]? with
  | none => 0
  | some c =>
    if (samplesWith labels c).length = 1 then 0
    else
      let a := clusterDistance d labels i c / (((samplesWith labels c).length - 1 : Nat) : K)
      let b := (((labels.dedup.filter (· ≠ c)).map fun c' =>
        clusterDistance d labels i c' / ((samplesWith labels c').length : K)).min?).getD 0
      if max a b = 0 then 0 else (b - a) / max a b

/-- The distances of a matrix. -/
def Grid.dist (m : Grid K) (i j : Nat) : K :=
  match m.get ⟨i, j⟩ with
  | .ok v => v
  | .error _ => 0

/-- `silhouette_samples(X=distance_matrix, labels=cluster_labels, metric='precomputed')` of sklearn: the
matrix must be square with one row per label, and there must be at least two clusters and fewer clusters than
samples. -/
def silhouetteSamples (m : Grid K) (labels : List Nat) : Except PyErr (List K) :=
  if m.xLen ≠ labels.length ∨ m.yLen ≠ m.xLen then .error .valueError
  else if ¬ (1 < labels.dedup.length ∧ labels.dedup.length < labels.length) then .error .valueError
  else .ok ((List.range labels.length).map (silhouetteSample m.dist labels))

/-- `silhouette_score(...)` of sklearn: the mean. -/
def silhouetteScore (m : Grid K) (labels : List Nat) : Except PyErr K :=
  match silhouetteSamples m labels with
  | .error e => .error e
  | .ok vs => .ok (vs.sum / (labels.length : K))

/-- One band of the silhouette plot: the cluster, the vertical range, the lengths of the bars, the colour
(the argument of the colour map). -/
structure Band (K : Type) where
  cluster : Nat
  lower : Nat
  upper : Nat
  values : List K
  colour : K
  deriving DecidableEq

/-- The silhouette plot: the upper limit of the vertical axis, the bands, the position of the red line. -/
structure SilhouettePlot (K : Type) where
  yMax : Nat
  bands : List (Band K)
  line : K
  deriving DecidableEq

/-- `sample_silhouette_values[cluster_labels == i]` for lists of the same length — spta/util/plot.py:201-204. -/
def valuesOf (labels : List Nat) (values : List K) (i : Nat) : List K :=
  ((labels.zip values).filter (·.1 = i)).map (·.2)

/-- The loop over the clusters — spta/util/plot.py:199-218; `k` is the number of clusters, `todo` the clusters
to go. -/
def silhouetteBands (labels : List Nat) (values : List K) (k : Nat) : List Nat → Nat → List (Band K)
  | [], _ => []
  | i :: todo, yLower =>
    let vs := (valuesOf labels values i).insertionSort (· ≤ ·)
    let yUpper := yLower + vs.length
    ⟨i, yLower, yUpper, vs, (i : K) / (k : K)⟩ :: silhouetteBands labels values k todo (yUpper + 10)

/-- `plot_clustering_silhouette(distance_matrix, cluster_labels, subplot)` — spta/util/plot.py:159-235: the
average and the plot. -/
def plotClusteringSilhouette (m : Grid K) (labels : List Nat) : Except PyErr (K × SilhouettePlot K) :=
  let k := labels.dedup.length
  match silhouetteScore m labels with
  | .error e => .error e
  | .ok avg =>
    match silhouetteSamples m labels with
    | .error e => .error e
    | .ok values => .ok (avg, ⟨m.xLen + (k + 1) * 10, silhouetteBands labels values k (List.range k) 10, avg⟩)

/-- The map of the clusters: `plot_discrete_spatial_region(spatial_region, clusters=True)`
— spta/util/plot.py:58-82: the colour of each point (the argument of the colour map). The maximum of an
empty region raises ValueError. -/
def clusterColours (g : Grid Nat) : Except PyErr (Grid K) :=
  match g.data.max? with
  | none => .error .valueError
  | some top => .ok ⟨g.xLen, g.yLen, g.data.map fun (l : Nat) => (l : K) / ((top + 1 : Nat) : K)⟩

/-- `plot_2d_clusters(cluster_labels, shape_2d)` — spta/util/plot.py:113-123, spta/region/spatial.py:195-201:
a list of another length cannot be reshaped. -/
def plot2dClusters (labels : List Nat) (xLen yLen : Nat) : Except PyErr (Grid K) :=
  if labels.length ≠ xLen * yLen then .error .valueError
  else clusterColours ⟨xLen, yLen, labels⟩

/-- The two plots of one analysis. -/
structure SilhouetteFigure (K : Type) where
  map : Grid K
  plot : SilhouettePlot K
  deriving DecidableEq

/-- `single_silhouette(partition, clustering_algorithm, output_home)` — spta/clustering/silhouette.py:59-97;
`matrix` is the one that the distance object has, and `xLen`, `yLen` the shape of the region. -/
def singleSilhouette (matrix : Option (Grid K)) (xLen yLen : Nat) (pt : Partition) :
    Except PyErr (K × SilhouetteFigure K) :=
  match matrix with
  | none => .error .assertionError
  | some m =>
    if pt.labels.data.length ≠ xLen * yLen then .error .valueError
    else
      match plot2dClusters (K := K) pt.labels.data xLen yLen with
      | .error e => .error e
      | .ok map =>
        match plotClusteringSilhouette m pt.labels.data with
        | .error e => .error e
        | .ok (avg, plot) => .ok (avg, ⟨map, plot⟩)

/-- `single_silhouette` as the score of the loop in `perform_analysis` — spta/clustering/silhouette.py:47-48. -/
def silhouetteOf (matrix : Option (Grid K)) (xLen yLen : Nat) (q : Partition × List Point) :
    Except PyErr (Option K) :=
  match singleSilhouette matrix xLen yLen q.1 with
  | .error e => .error e
  | .ok (avg, _) => .ok (some avg)

/-- The score of `single_silhouette(kmedoids_result, silhouette_metadata, shape_2d)`
— spta/kmedoids/silhouette.py:233-270; the map is drawn only if the graphs are shown. -/
def silhouetteOfLabels (matrix : Option (Grid K)) (xLen yLen : Nat) (showGraphs : Bool) (labels : List Nat) :
    Except PyErr (Option K) :=
  match (if showGraphs then plot2dClusters (K := K) labels xLen yLen else .ok ⟨0, 0, []⟩) with
  | .error e => .error e
  | .ok _ =>
    match matrix with
    | none => .error .assertionError
    | some m =>
      match plotClusteringSilhouette m labels with
      | .error e => .error e
      | .ok (avg, _) => .ok (some avg)

end

/-! ### The command `kmedoids` -/

section

variable {K : Type} [Field K] [LinearOrder K] {S : Type}

/-- `single_kmedoids_for_silhouette(series_group, k, random_seed, silhouette_metadata)`
— spta/kmedoids/silhouette.py:218-229, 273-291: medoids and labels of a run with the distances `m`;
`outcome k seed` is the random choice of `k` initial medoids with that seed. -/
def kmedoidsForSilhouette (X : List S) (m : Grid K) (outcome : Nat → Int → List Nat) (md : SilhouetteMeta)
    (tol : K) (verbose : Bool) (k : Nat) (seed : Int) (initial : Option (List Nat)) :
    Except PyErr (List Nat × List Nat) :=
  match runKmedoids X k (.matrix m) initial (outcome k seed) md.mode md.maxIter tol verbose with
  | .error e => .error e
  | .ok r => .ok (r.medoids, r.labels)

/-- The distances of the analysis: those of the file, or else (without file) computed ones
— spta/kmedoids/silhouette.py:82-85, 186-189. -/
def analysisMatrix (file : MatrixFile K) (r : Region) (computed : Except PyErr (Grid K)) :
    Except PyErr (Grid K) :=
  match (loadMatrix2d file r none).1 with
  | .error e => .error e
  | .ok (some m) => .ok m
  | .ok none => computed

/-- `silhouette_analysis()` — spta/kmedoids/silhouette.py:74-109: the best number of clusters, its seed, medoids
and labels, and the figure of the best clustering. `file` is the file of distances and `r` the rectangle of the
metadata. The labels of no clustering
(None) cannot be drawn. -/
def silhouetteCommand (file : MatrixFile K) (r : Region) (computed : Except PyErr (Grid K)) (g : Grid S)
    (outcome : Nat → Int → List Nat) (md : SilhouetteMeta) (tol : K) (verbose showGraphs : Bool) :
    Except PyErr ((Nat × Option Int × Option (List Nat) × List Nat) × SilhouetteFigure K) :=
  match analysisMatrix file r computed with
  | .error e => .error e
  | .ok m =>
    match doSilhouetteAnalysis (kmedoidsForSilhouette g.data m outcome md tol verbose)
        (silhouetteOfLabels (some m) g.xLen g.yLen showGraphs) md with
    | .error e => .error e
    | .ok (_, _, _, none) => .error (if g.xLen * g.yLen = 1 then .typeError else .valueError)
    | .ok (k, seed, medoids, some labels) =>
      match plot2dClusters (K := K) labels g.xLen g.yLen with
      | .error e => .error e
      | .ok map =>
        match plotClusteringSilhouette m labels with
        | .error e => .error e
        | .ok (_, plot) => .ok ((k, seed, medoids, labels), ⟨map, plot⟩)

end

/-! ### The figures of distances -/

section

variable {K : Type}

/-- `SpatialRegion(distance_matrix[i].reshape((x_len, y_len)))` — spta/kmedoids/silhouette.py:133, 149. -/
def rowAsRegion (m : Grid K) (xLen yLen i : Nat) : Except PyErr (Grid K) :=
  if m.xLen ≤ i then .error .indexError
  else if m.yLen ≠ xLen * yLen then .error .valueError
  else .ok ⟨xLen, yLen, (m.data.drop (i * m.yLen)).take m.yLen⟩

/-- The index of the central point — spta/kmedoids/silhouette.py:142-146. -/
def plotCenterIndex (xLen yLen : Nat) : Nat :=
  let center := xLen * yLen / 2
  if xLen % 2 = 0 then center + yLen / 2 else center

/-- `show_distances()` — spta/kmedoids/silhouette.py:111-156: the two figures with their file names. `file` is
the file of distances and `r` the rectangle of the metadata, `name` its name; the region has the shape
`xLen`, `yLen`. Without file there is no matrix (TypeError). -/
def showDistances (file : MatrixFile K) (r : Region) (name : Str) (xLen yLen : Nat) :
    Except PyErr (List (Str × Grid K)) :=
  match (loadMatrix2d file r none).1 with
  | .error e => .error e
  | .ok none => .error .typeError
  | .ok (some m) =>
    match rowAsRegion m xLen yLen 0 with
    | .error e => .error e
    | .ok corner =>
      match rowAsRegion m xLen yLen (plotCenterIndex xLen yLen) with
      | .error e => .error e
      | .ok center =>
        .ok [("plots/distances_0_0_".toList ++ name ++ ".eps".toList, corner),
          ("plots/distances_center_".toList ++ name ++ ".eps".toList, center)]

end

end Spta
