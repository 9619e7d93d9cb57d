import Verif.Model.Cost
import Verif.Model.SolverTrain

/-!
# Model of the regular clustering algorithm with medoids, of the report of a clustering, and of the training
of a solver with a clustering algorithm

spta/clustering/__init__.py, spta/clustering/regular.py, spta/clustering/kmedoids.py, spta/solver/train.py.
The distance matrix is already loaded (`partition` and `prepare_for_training` load it before), saving and
loading of the partition are in Model/Clustering.
-/

namespace Spta

section

variable {α V : Type} [LinearOrder V] [AddCommMonoid V] [OrderTop V]

/-- `calculate_centroid.find_centroid_and_distances(cluster)[0]` — spta/clustering/__init__.py:153-157;
`none` is python's None. -/
def clusterMedoid (m : Grid (Option V)) (c : ClusterObj α) : Except PyErr (Option Point) :=
  match c.findCentroid m with
  | .error e => .error e
  | .ok (none, _) => .ok none
  | .ok (some (p, _), _) => .ok (some p)

/-- `find_medoids_for_partition(spt_region, partition)` — spta/clustering/__init__.py:135-159. -/
def findMedoidsForPartition (m : Grid (Option V)) (g : Grid α) (pt : Partition) :
    Except PyErr (List (Option Point)) :=
  match pt.createAllClusters g with
  | .error e => .error e
  | .ok cs => cs.mapM (clusterMedoid m)

/-- `RegularClusteringAlgorithm.partition_impl(spt_region, with_medoids)` — spta/clustering/regular.py:58-78;
the attribute `medoids` does not exist without medoids. -/
def regularPartitionImpl (k : Nat) (m : Grid (Option V)) (g : Grid α) (withMedoids : Bool) :
    Except PyErr (Partition × Option (List (Option Point))) :=
  match Partition.withRegular k g.xLen g.yLen with
  | .error e => .error e
  | .ok pt =>
    if withMedoids then
      match findMedoidsForPartition m g pt with
      | .error e => .error e
      | .ok ms => .ok (pt, some ms)
    else .ok (pt, none)

end

section

variable {K : Type} [Field K]

/-- One row of the report — spta/clustering/__init__.py:194-204: cluster, points, coverage (before it is
written with one decimal). -/
def reportRow (pt : Partition) (i : Nat) : Except PyErr (Nat × Nat × K) :=
  if pt.labels.xLen * pt.labels.yLen = 0 then .error .zeroDivisionError
  else .ok (i, pt.clusterLen i,
    ((pt.clusterLen i : Nat) : K) * 100 / ((pt.labels.xLen * pt.labels.yLen : Nat) : K))

/-- The rows of `save_to_csv` — spta/clustering/__init__.py:189-204; `k` is that of the algorithm, not that of
the partition. -/
def clusteringReport (pt : Partition) (k : Nat) : Except PyErr (List (Nat × Nat × K)) :=
  (List.range k).mapM (reportRow pt)

end

section

variable {K : Type} [Field K] [LinearOrder K] {P Q M : Type}

/-- A medoid that is None makes `merge_with_representatives_2d` raise ValueError
— spta/region/partition.py:259-267, spta/region/spatial.py:353-364. -/
def medoidOrRaise : Option Point → Except PyErr Point
  | none => .error .valueError
  | some p => .ok p

/-- `SolverTrainer.train` with regular clustering — spta/solver/train.py:71-139. -/
def trainRegularSolver (k : Nat) (m : Grid (Option (WithTop K))) (t : Trainer K P M)
    (refitter : Grid (Option M) → Trainer K Q M) (forecast : M → Nat → Except PyErr (List (Option K)))
    (errorType : String) (scaled : Bool) (s : Stack K) (testLen : Nat) (zero junk : Option M) :
    Except PyErr (Solver K M × Partition × List Point) :=
  match regularPartitionImpl k m s.data.grid true with
  | .error e => .error e
  | .ok (pt, ms) =>
    match (ms.getD []).mapM medoidOrRaise with
    | .error e => .error e
    | .ok medoids =>
      match trainCompleteSolver t refitter forecast errorType scaled s testLen pt medoids zero junk with
      | .error e => .error e
      | .ok sv => .ok (sv, pt, medoids)

/-- `SolverTrainer.train` with k-medoids — spta/solver/train.py:71-139, spta/clustering/kmedoids.py:109-145:
the series of the region in row-major order (`as_2d`) and the loaded matrix. -/
def trainKmedoidsSolver (k : Nat) (m : Grid K) (initial : Option (List Nat)) (outcome : List Nat)
    (mode : KmMode) (maxIter : Nat) (tol : K) (verbose : Bool) (t : Trainer K P M)
    (refitter : Grid (Option M) → Trainer K Q M) (forecast : M → Nat → Except PyErr (List (Option K)))
    (errorType : String) (scaled : Bool) (s : Stack K) (testLen : Nat) (zero junk : Option M) :
    Except PyErr (Solver K M × Partition × List Point) :=
  match kmedoidsPartition s.data.grid.data s.data.grid.xLen s.data.grid.yLen k (.matrix m) initial outcome mode
      maxIter tol verbose with
  | .error e => .error e
  | .ok (pt, medoids) =>
    match trainCompleteSolver t refitter forecast errorType scaled s testLen pt medoids zero junk with
    | .error e => .error e
    | .ok sv => .ok (sv, pt, medoids)

end

end Spta
