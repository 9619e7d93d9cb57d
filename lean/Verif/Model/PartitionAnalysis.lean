import Verif.Model.Cost

/-!
# Model of the experiments that analyse the partitions of a suite

experiments/clustering/partition_analysis.py, experiments/clustering/medoid_distances.py. The distance matrix
is loaded before; the partition of a clustering is a parameter (its calculation is in Model/KMedoids and
Model/ClusterRun, its cache in Model/Clustering). Not modelled: silhouette and variance options (plots; see
Model/Cost and Model/Variance), logging, creation of directories. A file is the list of its lines.
-/

namespace Spta

variable {α K : Type} [Field K]

/-! ### Analysis of a suite -/

/-- `'({},{}) '.format(point.x, point.y)` — experiments/clustering/partition_analysis.py:165. -/
def pointColumn (p : Point) : Str := ['('] ++ natStr p.x ++ [','] ++ natStr p.y ++ [')', ' ']

/-- The loop over the clusters — experiments/clustering/partition_analysis.py:157-178; `text` is
`medoids_str`, `costs` is `intra_cluster_costs`. The centroid of a cluster is the medoid with its number; it
is None (AttributeError) if the partition has an empty list of medoids (spta/region/partition.py:191-193).
`combine` is `np.sum` (spta/distance/dtw.py:25-32). -/
def analyzeLoop (r : Region) (m : Grid (Option K)) (yLen : Nat) (medoids : List Point)
    (clusters : List (ClusterObj α)) :
    List Nat → Str → List (Option K) → Except PyErr (Str × List (Option K))
  | [], text, costs => .ok (text, costs)
  | i :: is, text, costs =>
    match clusters[i]? with
    | none => .error .indexError
    | some c =>
      match medoids[i]? with
      | none => .error .attributeError
      | some medoid =>
        match c.allPointIndices with
        | .error e => .error e
        | .ok indices =>
          match distancesToPointWithMatrix m yLen medoid indices with
          | .error e => .error e
          | .ok ds =>
            analyzeLoop r m yLen medoids clusters is (text ++ pointColumn (absolutePosition r medoid))
              (costs ++ [floatSum ds])

/-- `analyze_partition` — experiments/clustering/partition_analysis.py:137-186: description, total cost and
medoids. `showCost` is `'{:0.3f}'.format`, `r` the rectangle of the region metadata, `k` the one of the
algorithm. -/
def analyzePartition (showCost : Option K → Str) (r : Region) (g : Grid α) (m : Grid (Option K))
    (c : ClusterMeta) (pt : Partition) (medoids : List Point) : Except PyErr (List Str) :=
  match pt.createClustersWithMedoids g medoids with
  | .error e => .error e
  | .ok clusters =>
    match analyzeLoop r m g.yLen medoids clusters (List.range c.k.toNat) [] [] with
    | .error e => .error e
    | .ok (text, costs) => .ok [c.repr, showCost (floatSum costs), text]

/-- The header — experiments/clustering/partition_analysis.py:108. -/
def analysisHeader : Str :=
  csvRow [['c', 'l', 'u', 's', 't', 'e', 'r', 'i', 'n', 'g'],
    ['t', 'o', 't', 'a', 'l', '_', 'c', 'o', 's', 't'], ['m', 'e', 'd', 'o', 'i', 'd', 's']]

/-- The loop of `analyze_suite` — experiments/clustering/partition_analysis.py:110-127: each row is appended
to the file before the next clustering is calculated. -/
def analyzeSuiteLoop (partitionOf : ClusterMeta → Except PyErr (Partition × List Point))
    (showCost : Option K → Str) (r : Region) (g : Grid α) (m : Grid (Option K)) :
    List ClusterMeta → List Str → Except PyErr Unit × List Str
  | [], file => (.ok (), file)
  | c :: cs, file =>
    match partitionOf c with
    | .error e => (.error e, file)
    | .ok (pt, medoids) =>
      match analyzePartition showCost r g m c pt medoids with
      | .error e => (.error e, file)
      | .ok row => analyzeSuiteLoop partitionOf showCost r g m cs (file ++ [csvRow row])

/-- `analyze_suite` — experiments/clustering/partition_analysis.py:78-130, from line 103 on: the file
afterwards. -/
def analyzeSuite (partitionOf : ClusterMeta → Except PyErr (Partition × List Point))
    (showCost : Option K → Str) (r : Region) (g : Grid α) (m : Grid (Option K))
    (suite : List ClusterMeta) : Except PyErr Unit × List Str :=
  analyzeSuiteLoop partitionOf showCost r g m suite [analysisHeader]

/-- The mode of k-medoids with the given name — spta/kmedoids/kmedoids.py:135-139. -/
def kmModeOf (name : Str) : KmMode :=
  if name = ['r', 'o', 'b', 'u', 's', 't'] then .robust
  else if name = sLite then .lite
  else .other

/-- The partition of the algorithm of a k-medoids metadata — spta/clustering/factory.py:26-49,
spta/clustering/kmedoids.py:109-148; `outcome k seed` is the random choice of `k` initial medoids with that
seed. Other metadata are not considered here (NotImplementedError). -/
def kmedoidsPartitionOf [LinearOrder K] {S : Type} (g : Grid S) (dm : Measure S K)
    (outcome : Int → Int → List Nat) (tol : K) (verbose : Bool) :
    ClusterMeta → Except PyErr (Partition × List Point)
  | .regular _ => .error .notImplementedError
  | .kmedoids c => kmedoidsPartition g.data g.xLen g.yLen c.k.toNat dm (c.initial.map (·.map Int.toNat))
      (outcome c.k c.seed) (kmModeOf c.mode) c.maxIter tol verbose

/-! ### Distances between medoids -/

/-- `medoid_distances[i, :] = row` with a row of `n` values, for a matrix with `k` columns
— experiments/clustering/medoid_distances.py:107-109: numpy repeats a single value, any other length is a
ValueError. -/
def assignRow (k : Nat) (row : List (Option K)) : Except PyErr (List (Option K)) :=
  if row.length = k then .ok row
  else
    match row with
    | [v] => .ok (List.replicate k v)
    | _ => .error .valueError

/-- One iteration of the loop — experiments/clustering/medoid_distances.py:100-109. -/
def medoidDistanceRow (m : Grid (Option K)) (yLen k : Nat) (medoids : List Point) (i : Nat) :
    Except PyErr (List (Option K)) :=
  match medoids[i]? with
  | none => .error .indexError
  | some medoid =>
    match distancesToPointWithMatrix m yLen medoid (medoids.map fun p => p.x * yLen + p.y) with
    | .error e => .error e
    | .ok ds => assignRow k ds

/-- `compute_and_save_medoid_distances` — experiments/clustering/medoid_distances.py:87-134, with the indices
of the medoids (67-72): the lines of the file. `showDistance` is `'{:.3f}'.format`. -/
def medoidDistancesFile (showDistance : Option K → Str) (m : Grid (Option K)) (yLen k : Nat)
    (medoids : List Point) : Except PyErr (List Str) :=
  match (List.range k).mapM (medoidDistanceRow m yLen k medoids) with
  | .error e => .error e
  | .ok rows =>
    .ok (csvRow (['k'] :: (List.range k).map natStr) ::
      List.zipWith (fun i row => csvRow (natStr i :: row.map showDistance)) (List.range k) rows)

end Spta
