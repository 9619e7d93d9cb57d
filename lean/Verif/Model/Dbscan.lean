import Verif.Model.Clustering
import Verif.Model.Region

/-!
# Model of the DBSCAN clustering

spta/clustering/dbscan.py. The algorithm itself is that of scikit-learn and a parameter `fit`, that gives the
labels for a distance matrix. Not modelled: printing.
-/

namespace Spta

/-- The shape of a region: `spt_region.shape` of a spatio-temporal or of a spatial region. -/
inductive RegionShape where
  | temporal (tLen xLen yLen : Nat)
  | spatial (xLen yLen : Nat)
  deriving DecidableEq

/-- `labels_with_noise = labels + 1` — spta/clustering/dbscan.py:84; the labels are at least -1. -/
def labelsWithNoise (labels : List Int) : List Nat := labels.map fun l => (l + 1).toNat

/-- `DbscanClusteringAlgorithm.partition_impl(spt_region, with_medoids)` — spta/clustering/dbscan.py:63-103.
`distanceDtw` is the distance matrix of the global variable `distance_dtw`, that exists only if the module is
executed as a program (119-123); the algorithm does not use its own `distance_measure` (whose matrix is `_own`).
The partition is returned without the attribute `medoids`. -/
def dbscanPartitionImpl {M : Type} (fit : M → List Int) (distanceDtw : Option M) (_own : M) (shape : RegionShape)
    (_withMedoids : Bool) : Except PyErr (Partition × Option (List (Option Point))) :=
  match distanceDtw with
  | none => .error .nameError
  | some matrix =>
    match shape with
    | .spatial _ _ => .error .valueError
    | .temporal _ xLen yLen =>
      match Partition.fromMembershipArray (labelsWithNoise (fit matrix)) xLen yLen with
      | .error e => .error e
      | .ok pt => .ok (pt, none)

/-- `n_clusters_` — spta/clustering/dbscan.py:80. -/
def estimatedClusters (labels : List Int) : Nat := labels.dedup.length

/-- `'dbscan'` -/
def sDbscan : Str := ['d', 'b', 's', 'c', 'a', 'n']

/-- `repr(metadata)` — spta/clustering/__init__.py:56-57, spta/clustering/dbscan.py:16-19. -/
def dbscanRepr (k : Int) : Str := sDbscan ++ ['_', 'k'] ++ intStr k

/-- `DbscanClusteringMetadata.from_repr(repr_string)` — spta/clustering/dbscan.py:27-39: the number of clusters. -/
def dbscanFromRepr (s : Str) : Except PyErr Int :=
  let parts := pySplit '_' s
  match listAt parts 0 with
  | .error e => .error e
  | .ok p0 =>
    if p0 ≠ sDbscan then .error .assertionError
    else
      match listAt parts 1 with
      | .error e => .error e
      | .ok p1 => pyInt (p1.drop 1)

end Spta
