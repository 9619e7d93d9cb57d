import Verif.Model.Clustering
import Verif.Model.Extrema
import Verif.Model.KMedoids
import Verif.Model.Util

/-!
# Model of the intra-cluster cost and of the silhouette analyses

spta/region/partition.py, spta/clustering/silhouette.py, spta/kmedoids/silhouette.py
-/

namespace Spta

variable {α K : Type}

/-! ### Intra-cluster cost -/

/-- The body of the loop of `create_all_spt_clusters` — spta/region/partition.py:180-196, for a list of
medoids: setting the centroid of a cluster does not affect its iteration, but `medoids[i]` raises
IndexError when there are some medoids and not enough of them. -/
def Partition.clusterWithMedoid (pt : Partition) (g : Grid α) (medoids : List Point) (i : Nat) :
    Except PyErr (ClusterObj α) :=
  match pt.createCluster g i with
  | .error e => .error e
  | .ok c =>
    if medoids = [] then .ok c
    else
      match medoids[i]? with
      | none => .error .indexError
      | some _ => .ok c

/-- `create_all_spt_clusters(spt_region, medoids=medoids)` — spta/region/partition.py:159-198. -/
def Partition.createClustersWithMedoids (pt : Partition) (g : Grid α) (medoids : List Point) :
    Except PyErr (List (ClusterObj α)) :=
  (List.range pt.k).mapM (pt.clusterWithMedoid g medoids)

section

variable [Field K]

/-- The loop over the clusters — spta/region/partition.py:446-459, with the distance matrix already
loaded (`distances_to_point` then is `distances_to_point_with_matrix`, spta/distance/__init__.py:
143-165). `i` is `cluster_index`, `total` the sum so far. -/
def costLoop (m : Grid (Option K)) (yLen : Nat) (medoids : List Point) :
    List (ClusterObj α) → Nat → Option K → Except PyErr (Option K)
  | [], _, total => .ok total
  | c :: cs, i, total =>
    match medoids[i]? with
    | none => .error .indexError
    | some medoid =>
      match c.loop with
      | .error e => .error e
      | .ok (items, _) =>
        match distancesToPointWithMatrix m yLen medoid
            (items.map fun it => it.1.x * yLen + it.1.y) with
        | .error e => .error e
        | .ok ds => costLoop m yLen medoids cs (i + 1) (liftOp (· + ·) total (sumSquared ds))

/-- `intra_cluster_cost(partition, spt_region, distance_measure)` — spta/region/partition.py:429-461.
`medoids` is `none` when the partition has no attribute `medoids`. -/
def intraClusterCost (pt : Partition) (medoids : Option (List Point)) (g : Grid α)
    (m : Grid (Option K)) : Except PyErr (Option K) :=
  match medoids with
  | none => .error .attributeError
  | some ms =>
    match pt.createClustersWithMedoids g ms with
    | .error e => .error e
    | .ok cs => costLoop m g.yLen ms cs 0 (some 0)

end

/-! ### Silhouette analysis of a suite -/

section

variable {P : Type} [Field K] [LinearOrder K]

/-- The loop of `SilhouetteAnalysis.perform_analysis` — spta/clustering/silhouette.py:36-54.
`partitionOf` stands for asking the clustering algorithm for its partition, `score` for
`single_silhouette` (computed by sklearn). The best score so far and its algorithm are kept; a score
that is NaN (`none`) is never better. -/
def silhouetteLoop (partitionOf : ClusterMeta → Except PyErr P) (score : P → Except PyErr (Option K)) :
    List ClusterMeta → K × Option ClusterMeta → Except PyErr (K × Option ClusterMeta)
  | [], best => .ok best
  | m :: ms, best =>
    match partitionOf m with
    | .error e => .error e
    | .ok p =>
      match score p with
      | .error e => .error e
      | .ok none => silhouetteLoop partitionOf score ms best
      | .ok (some s) =>
        silhouetteLoop partitionOf score ms (if s > best.1 then (s, some m) else best)

/-- `SilhouetteAnalysis.perform_analysis` — spta/clustering/silhouette.py:20-57. -/
def performAnalysis (partitionOf : ClusterMeta → Except PyErr P)
    (score : P → Except PyErr (Option K)) (suite : List ClusterMeta) :
    Except PyErr (K × Option ClusterMeta) :=
  silhouetteLoop partitionOf score suite (-1, none)

/-- `SilhouetteMetadata` — spta/kmedoids/silhouette.py:22-25, as far as it determines the result. -/
structure SilhouetteMeta where
  kValues : List Nat
  seedValues : List Int
  mode : KmMode
  initial : Option (List Nat)
  maxIter : Nat
  deriving DecidableEq

/-- `initial_medoids` of `kmedoids_metadata_from_silhouette_metadata`
— spta/kmedoids/silhouette.py:272-291: the first `k` of those provided. -/
def silhouetteInitial (md : SilhouetteMeta) (k : Nat) : Option (List Nat) :=
  match md.initial with
  | none => none
  | some is => some (pySlice is 0 k)

/-- The variables of `do_silhouette_analysis` — spta/kmedoids/silhouette.py:171-175. -/
structure SilhouetteBest (K : Type) where
  avg : K
  k : Nat
  seed : Option Int
  medoids : Option (List Nat)
  labels : Option (List Nat)
  deriving DecidableEq

/-- The body of the inner loop — spta/kmedoids/silhouette.py:200-213. `run k seed initial` stands for
`run_kmedoids_from_metadata` (medoids and labels), `score` for the silhouette of some labels. -/
def silhouetteStep (run : Nat → Int → Option (List Nat) → Except PyErr (List Nat × List Nat))
    (score : List Nat → Except PyErr (Option K)) (md : SilhouetteMeta) (seed : Int) (k : Nat)
    (best : SilhouetteBest K) : Except PyErr (SilhouetteBest K) :=
  match run k seed (silhouetteInitial md k) with
  | .error e => .error e
  | .ok (medoids, labels) =>
    match score labels with
    | .error e => .error e
    | .ok none => .ok best
    | .ok (some s) =>
      .ok (if s > best.avg then ⟨s, k, some seed, some medoids, some labels⟩ else best)

/-- `for k in silhouette_metadata.k_values` — spta/kmedoids/silhouette.py:198. -/
def silhouetteInner (run : Nat → Int → Option (List Nat) → Except PyErr (List Nat × List Nat))
    (score : List Nat → Except PyErr (Option K)) (md : SilhouetteMeta) (seed : Int) :
    List Nat → SilhouetteBest K → Except PyErr (SilhouetteBest K)
  | [], best => .ok best
  | k :: ks, best =>
    match silhouetteStep run score md seed k best with
    | .error e => .error e
    | .ok best => silhouetteInner run score md seed ks best

/-- `for random_seed in silhouette_metadata.seed_values` — spta/kmedoids/silhouette.py:192. -/
def silhouetteOuter (run : Nat → Int → Option (List Nat) → Except PyErr (List Nat × List Nat))
    (score : List Nat → Except PyErr (Option K)) (md : SilhouetteMeta) :
    List Int → SilhouetteBest K → Except PyErr (SilhouetteBest K)
  | [], best => .ok best
  | seed :: seeds, best =>
    match silhouetteInner run score md seed md.kValues best with
    | .error e => .error e
    | .ok best => silhouetteOuter run score md seeds best

/-- `do_silhouette_analysis(spt_region, silhouette_metadata)` — spta/kmedoids/silhouette.py:163-215,
with the distance matrix available. -/
def doSilhouetteAnalysis
    (run : Nat → Int → Option (List Nat) → Except PyErr (List Nat × List Nat))
    (score : List Nat → Except PyErr (Option K)) (md : SilhouetteMeta) :
    Except PyErr (Nat × Option Int × Option (List Nat) × Option (List Nat)) :=
  match silhouetteOuter run score md md.seedValues ⟨-1, 0, none, none, none⟩ with
  | .error e => .error e
  | .ok b => .ok (b.k, b.seed, b.medoids, b.labels)

end

end Spta
