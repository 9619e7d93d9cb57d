import Verif.Model.Arima
import Verif.Model.Clustering
import Verif.Model.ClusterRun
import Verif.Model.Dataset
import Verif.Model.Extrema
import Verif.Model.Fuzzy
import Verif.Model.MedoidChoice
import Verif.Model.Region
import Verif.Model.Scaling
import Verif.Model.Suite
import Verif.Model.SuiteFiles
import Verif.Model.Train
import Verif.Model.Util
import Mathlib.Algebra.Field.Rat
import Mathlib.Algebra.Order.Ring.Rat

/-!
# The unit tests of the project, on the model

The inputs and expected results of `/repo/spta/tests`, evaluated on the model in the kernel. They are no proofs
of properties: they compare the model with results which the authors state for the code, so that a slip in the
reading of the source has a chance to show. Tests of classes that only check attributes set by a constructor are
left out, as are those whose data are not in the repository.
-/

namespace Spta.Conformance

/-- A python literal. -/
def str (s : String) : Str := s.toList

/-! ### tests/util/test_maths.py -/

-- TestFindTwoBalancedDivisors — lines 15-57
example : findTwoBalancedDivisors 7 = .ok (1, 7) := by decide +kernel
example : findTwoBalancedDivisors 4 = .ok (2, 2) := by decide +kernel
example : findTwoBalancedDivisors 30 = .ok (5, 6) := by decide +kernel
example : findTwoBalancedDivisors 100 = .ok (10, 10) := by decide +kernel

-- TestRandomIntegersWithBlacklist — lines 65-153, for two outcomes of the random choice each
example : randomIntegersWithBlacklist 1 0 0 [] [0] = .ok [0] := by decide +kernel
example : randomIntegersWithBlacklist 2 0 1 [] [0, 1] = .ok [0, 1] ∧
    randomIntegersWithBlacklist 2 0 1 [] [1, 0] = .ok [1, 0] := by decide +kernel
example : randomIntegersWithBlacklist 2 0 2 [] [2, 0, 1] = .ok [2, 0] := by decide +kernel
example : randomIntegersWithBlacklist 3 0 5 [1, 3, 4] [0, 1, 2] = .ok [0, 2, 5] ∧
    randomIntegersWithBlacklist 3 0 5 [1, 3, 4] [2, 1, 0] = .ok [5, 2, 0] := by decide +kernel
example : randomIntegersWithBlacklist 5 1 20 [1, 3, 4, 7, 8, 11, 14, 16]
    [11, 10, 9, 8, 7, 6, 5, 4, 3, 2, 1, 0] = .ok [20, 19, 18, 17, 15] := by decide +kernel

-- TestYearsToSeriesInterval — lines 184-219
example : yearsToSeriesInterval 1979 1979 1979 4 = .ok (0, 1460) := by decide +kernel
example : yearsToSeriesInterval 1980 1980 1979 4 = .ok (1460, 2924) := by decide +kernel
example : yearsToSeriesInterval 2014 2015 1979 4 = .ok (51136, 54056) := by decide +kernel

/-! ### tests/util/test_arrays.py -/

/-- `h` rows with the labels `l`, `l + 1` and `l + 2` in bands of 4, 4 and `w` columns. -/
def bandRows (h l w : Nat) : List Nat :=
  (List.replicate h ([l, l, l, l, l + 1, l + 1, l + 1, l + 1] ++ List.replicate w (l + 2))).flatten

/-- Four such bands of rows, of heights 5, 5, 5 and `h`. -/
def bandLabels (h w : Nat) : List Nat := bandRows 5 0 w ++ bandRows 5 3 w ++ bandRows 5 6 w ++ bandRows h 9 w

-- TestSquarePartitioning — lines 17-28, 180-210, the whole matrix instead of some rectangles; the other sizes
-- take the kernel long, they are instances of C01 and C02
example : regularPartitioning 2 20 12 = .error .valueError := by decide +kernel
example : regularPartitioning 20 11 12 = .ok ⟨20, 11, bandLabels 5 3⟩ := by decide +kernel

-- TestSlidingWIndow — lines 228-284
example : slidingWindow [1, 2, 3, 4, 5, 6, 7, 8] 1 1 = .ok [[1], [2], [3], [4], [5], [6], [7], [8]] := by
  decide +kernel
example : slidingWindow [1, 2, 3, 4, 5, 6, 7, 8] 2 1 =
    .ok [[1, 2], [2, 3], [3, 4], [4, 5], [5, 6], [6, 7], [7, 8]] := by decide +kernel
example : slidingWindow [1, 2, 3, 4, 5, 6, 7, 8] 3 2 = .ok [[1, 2, 3], [3, 4, 5], [5, 6, 7]] := by
  decide +kernel

/-! ### tests/util/test_error.py -/

/-- A series of numbers. -/
def series (l : List ℚ) : List (Option ℚ) := l.map some

example : mase (series [0, 0, 0]) (series [0, 0, 0]) (series [1, 2, 3]) = .ok (some 0) := by decide +kernel
example : mase (series [4, 5, 6]) (series [4, 5, 6]) (series [1, 2, 3]) = .ok (some 0) := by decide +kernel
example : mase (series [41 / 10, 51 / 10, 59 / 10]) (series [4, 5, 6]) (series [1, 2, 3]) =
    .ok (some (1 / 10)) := by decide +kernel
example : mase (series [41 / 10, 52 / 10, 57 / 10]) (series [4, 5, 6]) (series [1, 2, 3]) =
    .ok (some (2 / 10)) := by decide +kernel

/-! ### tests/region -/

-- stub/stub_partition.py: crisp_membership_stub
def crispStub : Grid Nat := ⟨4, 5, [0, 1, 1, 0, 0, 1, 1, 2, 2, 2, 0, 2, 1, 1, 2, 0, 0, 1, 1, 2]⟩

/-- `PartitionRegionCrisp(partition_np, k)` -/
def stubPartition : Partition := ⟨crispStub, 3, 0⟩

example : Partition.create crispStub 3 = .ok stubPartition := by decide +kernel

-- test_partition.py:20-57
example : stubPartition.membershipOfPoints [] = .ok [] := by decide +kernel
example : stubPartition.membershipOfPoints [⟨0, 0⟩] = .ok [0] := by decide +kernel
example : stubPartition.membershipOfPoints [⟨0, 0⟩, ⟨2, 4⟩, ⟨1, 1⟩] = .ok [0, 2, 1] := by decide +kernel

-- stub/stub_region.py: spatial_region_stub
def squares : Grid Nat := ⟨4, 5, (List.range 20).map fun i => i ^ 2⟩

-- test_partition.py:59-87
example : (stubPartition.createCluster squares 0).map (fun c => (c.index, c.clusterLen)) = .ok (0, 6) := by
  decide +kernel

-- test_partition.py:89-108: the clusters merge to the region itself
example : ((stubPartition.createAllClusters squares).bind fun cs => stubPartition.mergeClusters cs 0).map (fun r => r.1) = .ok squares := by decide +kernel

-- test_partition.py:110-149
example : ((stubPartition.createAllClusters squares).bind fun cs =>
      stubPartition.mergeWithRepresentatives cs [⟨0, 3⟩, ⟨1, 0⟩, ⟨1, 3⟩] 0).map (fun r => r.1) =
    .ok ⟨4, 5, [9, 25, 25, 9, 9, 25, 25, 64, 64, 64, 9, 64, 25, 25, 64, 9, 9, 25, 25, 64]⟩ := by decide +kernel

-- test_partition.py:151-199; the order is that of `list(set(...))`, which the model leaves open
example : stubPartition.medoidsIntersecting (some [⟨0, 3⟩, ⟨1, 0⟩, ⟨1, 3⟩]) ⟨0, 2, 0, 2⟩ =
    .ok [⟨0, 3⟩, ⟨1, 0⟩] := by decide +kernel
example : stubPartition.medoidsIntersecting (some [⟨0, 3⟩, ⟨1, 0⟩, ⟨1, 3⟩]) ⟨2, 4, 1, 3⟩ =
    .ok [⟨1, 3⟩, ⟨0, 3⟩, ⟨1, 0⟩] := by decide +kernel
example : stubPartition.medoidsIntersecting (some [⟨0, 3⟩, ⟨1, 0⟩, ⟨1, 3⟩]) ⟨2, 4, 2, 4⟩ =
    .ok [⟨1, 0⟩] := by decide +kernel

-- stub/stub_distance.py
def stubMatrix : Grid (Option (WithTop ℕ)) := ⟨6, 6,
  [0, 11, 12, 13, 14, 15, 11, 0, 8, 5, 7, 9, 12, 8, 0, 9, 12, 13, 13, 5, 9, 0, 16, 18, 14, 7, 12, 16, 0, 14,
    15, 9, 13, 18, 14, 0].map fun n : ℕ => some (n : WithTop ℕ)⟩

-- stub/stub_region.py: numpy_3d_stub
def stubSeries : Cube (Option ℚ) := ⟨3, ⟨2, 3, [series [1, 2, 3], series [4, 5, 6], series [7, 8, 9],
  series [11, 12, 13], series [14, 15, 16], series [17, 18, 19]]⟩⟩

/-- The point of a centroid search. -/
def centroidOf {A B : Type} : Except PyErr (Option (Point × A) × B) → Option Point
  | .ok (some (p, _), _) => some p
  | _ => none

-- test_centroid.py:28-65
example : centroidOf ((RegionObj.new stubSeries.grid).findCentroid stubMatrix) = some ⟨0, 1⟩ := by decide +kernel
example : ((Partition.fromMembershipArray [1, 0, 1, 1, 0, 0] 2 3).bind fun pt =>
      findMedoidsForPartition stubMatrix stubSeries.grid pt) = .ok [some ⟨0, 1⟩, some ⟨0, 2⟩] := by
  decide +kernel

-- test_cluster.py:47-119
def maskStub : Partition := ⟨⟨2, 3, [1, 0, 0, 1, 0, 1]⟩, 2, 0⟩

/-- `SpatioTemporalCluster(spt_region, partition, 1, None)` -/
def stubCluster : Stack ℚ := .cluster (.plain stubSeries) maskStub 1

example : stubCluster.seriesAt ⟨0, 0⟩ = .ok (series [1, 2, 3]) ∧
    stubCluster.seriesAt ⟨1, 0⟩ = .ok (series [11, 12, 13]) ∧
    stubCluster.seriesAt ⟨1, 2⟩ = .ok (series [17, 18, 19]) := by decide +kernel
example : stubCluster.seriesAt ⟨0, 1⟩ = .error .valueError ∧ stubCluster.seriesAt ⟨0, 2⟩ = .error .valueError ∧
    stubCluster.seriesAt ⟨1, 1⟩ = .error .valueError := by decide +kernel
example : stubCluster.items = .ok [(⟨0, 0⟩, series [1, 2, 3]), (⟨1, 0⟩, series [11, 12, 13]),
    (⟨1, 2⟩, series [17, 18, 19])] := by decide +kernel
example : ((maskStub.createCluster stubSeries.grid 1).bind ClusterObj.loop).map (fun r => r.1) =
    .ok [(⟨0, 0⟩, series [1, 2, 3]), (⟨1, 0⟩, series [11, 12, 13]), (⟨1, 2⟩, series [17, 18, 19])] := by
  decide +kernel

-- test_cluster_function.py:18-104
def cluster2 : Except PyErr (Stack ℚ) :=
  (Partition.fromMembershipArray [2, 0, 1, 2, 0, 2] 2 3).map fun pt => .cluster (.plain stubSeries) pt 2

example : (cluster2.bind fun c => c.applyScalar fun _ s => .ok (floatMean s)).map
      (fun m => (m.valueAt ⟨0, 0⟩, m.valueAt ⟨1, 0⟩, m.valueAt ⟨1, 2⟩, m.valueAt ⟨0, 1⟩)) =
    .ok (.ok (some 2), .ok (some 12), .ok (some 18), .error .valueError) := by decide +kernel
example : ((cluster2.bind fun c => c.applyScalar fun _ s => .ok (floatMean s)).bind SpStack.items).map
      (fun l => l.map fun r => r.2) = .ok [some 2, some 12, some 18] := by decide +kernel
set_option synthInstance.maxSize 512 in
example : (cluster2.bind fun c => c.applySeries (fun _ s => .ok s.reverse) 3).map
      (fun m => (m.seriesAt ⟨0, 0⟩, m.seriesAt ⟨1, 0⟩, m.seriesAt ⟨1, 2⟩, m.seriesAt ⟨0, 1⟩)) =
    .ok (.ok (series [3, 2, 1]), .ok (series [13, 12, 11]), .ok (series [19, 18, 17]), .error .valueError) := by
  decide +kernel

-- test_function.py:25-52
example : ((RegionObj.new (⟨3, 5, List.range 15⟩ : Grid Nat)).applyFunction
      (Grid.const 3 5 fun x : Nat => x ^ 2) 0).map
      (fun r => (r.1.get ⟨0, 0⟩, r.1.get ⟨0, 2⟩, r.1.get ⟨2, 4⟩)) =
    .ok (.ok 0, .ok 4, .ok (14 * 14)) := by decide +kernel

/-- The region of test_function.py:54-70. -/
def functionRegion : Stack ℚ := .plain ⟨5, ⟨2, 3, [series [1, 2, 3, 4, 5], series [3, 3, 4, 5, 5],
  series [1, 1, 1, 1, 1], series [5, 6, 7, 8, 9], series [11, 9, 8, 7, 5], series [0, 0, 0, 0, 0]]⟩⟩

-- test_function.py:54-90
example : (functionRegion.applyScalar fun _ s => .ok (floatMean s)).map SpStack.data =
    .ok ⟨2, 3, series [3, 4, 1, 7, 8, 0]⟩ := by decide +kernel
-- test_function.py:124-210
example : (functionRegion.applySeries (fun _ s => .ok [floatSum s, floatMean s]) 2).map Stack.data =
    .ok ⟨2, ⟨2, 3, [series [15, 3], series [20, 4], series [5, 1], series [35, 7], series [40, 8],
      series [0, 0]]⟩⟩ := by decide +kernel

-- test_scaling.py:20-76
example : (scaleApply (.plain stubSeries) 3) = .ok (.scaled
    (.plain ⟨3, ⟨2, 3, List.replicate 6 (series [0, 1 / 2, 1])⟩⟩)
    (.plain ⟨2, 3, series [1, 4, 7, 11, 14, 17]⟩) (.plain ⟨2, 3, series [3, 6, 9, 13, 16, 19]⟩)) := by
  decide +kernel
example : ((scaleApply (.plain stubSeries) 3).bind Stack.descale).map Stack.data = .ok stubSeries := by
  decide +kernel

-- test_scaling.py:79-140
example : (scaleApply (.plain stubSeries) 3).map (fun s => (Stack.cluster s maskStub 1).hasScaling) =
    .ok true := by decide +kernel
example : ((scaleApply (.plain stubSeries) 3).bind fun s => (Stack.cluster s maskStub 1).descale).map
      (fun s => [s.seriesAt ⟨0, 0⟩, s.seriesAt ⟨1, 0⟩, s.seriesAt ⟨1, 2⟩, s.seriesAt ⟨0, 1⟩, s.seriesAt ⟨0, 2⟩,
        s.seriesAt ⟨1, 1⟩]) =
    .ok [.ok (series [1, 2, 3]), .ok (series [11, 12, 13]), .ok (series [17, 18, 19]), .error .valueError,
      .error .valueError, .error .valueError] := by decide +kernel

/-! ### tests/region/test_mask.py -/

-- stub/stub_mask.py: in units of 10^-8
def uijStub : List (List ℤ) := [[0, 100000000], [30769328, 69230672], [40253355, 59746645],
  [43226533, 56773467], [52156374, 47843626], [51702938, 48297062], [53440908, 46559092],
  [58319551, 41680449], [61056343, 38943657], [48481703, 51518297], [40998361, 59001639],
  [40611098, 59388902], [43777396, 56222604], [45104678, 54895322], [52606050, 47393950],
  [51337058, 48662942], [54337398, 45662602], [62787528, 37212472], [100000000, 0], [62159693, 37840307]]

/-- The memberships. -/
def uij : List (List ℚ) := uijStub.map fun l => l.map fun n => (n : ℚ) / 100000000

/-- The array `mask_fuzzy_np_stub()`. -/
def maskNp : Cube ℚ := ⟨2, ⟨4, 5, uij⟩⟩

/-- `is_member` of a mask built from the array. -/
def maskHas (index : Nat) (threshold : ℚ) (p : Point) : Except PyErr Bool :=
  (FuzzyMask.create maskNp index threshold).bind fun m => m.isMember p

-- test_mask.py:23-53
example : FuzzyMask.create maskNp 2 0 = .error .assertionError ∧
    FuzzyMask.create maskNp 1 (11 / 10) = .error .assertionError := by decide +kernel
-- test_mask.py:55-142
example : maskHas 1 (1 / 2) ⟨0, 0⟩ = .ok true ∧ maskHas 0 (1 / 2) ⟨0, 0⟩ = .ok false ∧
    maskHas 1 0 ⟨0, 1⟩ = .ok true ∧ maskHas 1 0 ⟨3, 4⟩ = .ok false ∧ maskHas 1 (5 / 100) ⟨0, 4⟩ = .ok true ∧
    maskHas 1 (3 / 100) ⟨0, 4⟩ = .ok false := by decide +kernel
-- test_mask.py:144-167
example : ((FuzzyMask.create maskNp 1 0).bind FuzzyMask.loop).map (fun r => r.1.length) = .ok 9 := by
  decide +kernel
example : ((FuzzyMask.create maskNp 1 (1 / 10)).bind FuzzyMask.loop).map (fun r => r.1.length) = .ok 15 := by
  decide +kernel
-- test_mask.py:169-205: the mask can be iterated twice; another threshold
example : (((FuzzyMask.fromUij uij 2 4 5 1 (1 / 10)).bind FuzzyMask.loop).bind fun r => r.2.loop).map
    (fun r => r.1.length) = .ok 15 := by decide +kernel
example : (((FuzzyMask.create maskNp 1 0).bind FuzzyMask.loop).bind fun r =>
    ({ r.2 with threshold := 1 / 10 } : FuzzyMask ℚ).loop).map (fun r => r.1.length) = .ok 15 := by decide +kernel

/-! ### tests/region/test_metadata.py -/

/-- `SpatioTemporalRegionMetadata('sp_small', Region(40, 50, 50, 60), start, end, spd, scaled)` -/
def spSmall (yearStart yearEnd spd : Int) (scaled : Bool) : DirMeta :=
  ⟨⟨str "sp_small", ⟨40, 50, 50, 60⟩, yearStart, yearEnd, spd, scaled⟩, str "raw"⟩

-- test_metadata.py:20-59
example : (spSmall 2015 2015 1 true).datasetFile = str "raw/sp_small_2015_2015_1spd_scaled.npy" ∧
    (spSmall 2015 2015 4 true).datasetFile = str "raw/sp_small_2015_2015_4spd_scaled.npy" ∧
    (spSmall 2015 2015 1 false).datasetFile = str "raw/sp_small_2015_2015_1spd.npy" ∧
    (spSmall 2014 2015 1 true).datasetFile = str "raw/sp_small_2014_2015_1spd_scaled.npy" ∧
    (spSmall 2015 2015 1 true).distancesFile = str "raw/distances_sp_small_2015_2015_1spd_scaled.npy" ∧
    (spSmall 2015 2015 1 true).minFile = str "raw/sp_small_2015_2015_1spd_scaled_min.npy" ∧
    (spSmall 2015 2015 1 true).maxFile = str "raw/sp_small_2015_2015_1spd_scaled_max.npy" := by decide +kernel
-- test_metadata.py:67-96
example : indexToAbsolutePoint ⟨40, 50, 50, 60⟩ 0 = .ok ⟨40, 50⟩ ∧
    indexToAbsolutePoint ⟨40, 50, 50, 60⟩ 1 = .ok ⟨40, 51⟩ ∧
    indexToAbsolutePoint ⟨40, 50, 50, 60⟩ 85 = .ok ⟨48, 55⟩ := by decide +kernel

/-! ### tests/model/test_knn.py -/

/-- The order of the squares is that of the RMSE. -/
def squaredError (a b : List (Option ℚ)) : Option ℚ :=
  match mse a b with
  | .ok v => v
  | .error _ => none

/-- The comparison of numbers. -/
def ratLe (a b : Option ℚ) : Bool :=
  match a, b with
  | some x, some y => decide (x ≤ y)
  | _, _ => false

/-- Insertion before the first index that is not nearer. -/
def insertBy (d : List (Option ℚ)) (i : Nat) : List Nat → List Nat
  | [] => [i]
  | j :: l => if ratLe ((d[i]?).join) ((d[j]?).join) then i :: j :: l else j :: insertBy d i l

/-- A possible result of `np.argpartition(distances, k)`: all indices sorted by distance. -/
def argsort (d : List (Option ℚ)) (_k : Nat) : List Nat := (List.range d.length).foldr (insertBy d) []

-- test_knn.py:19-91
example : findKNearest squaredError argsort (series [1, 2, 3, 4]) 2
    [series [1, 2, 3, 5], series [1, 5, 3, 4, 0]] = .error .valueError := by decide +kernel
example : findKNearest squaredError argsort (series [1, 2, 3, 4]) 2
    [series [1, 2, 3, 5], series [1, 5, 3, 4]] = .ok [0, 1] := by decide +kernel
example : findKNearest squaredError argsort (series [1, 2, 3, 4]) 1
    [series [1, 2, 3, 5], series [1, 2, 3, 4]] = .ok [1] := by decide +kernel
example : (findKNearest squaredError argsort (series [1, 2, 3, 4, 5]) 3
    ([[19, 21, 30, 34, 51], [10, 21, 30, 40, 51], [10, 21, 35, 40, 53], [10, 20, 10, 40, 50],
      [10, 20, 29, 41, 49], [9, 21, 31, 39, 51], [10, 21, 30, 50, 51], [0, 21, 30, 50, 51],
      [15, 25, 35, 45, 55]].map fun l => series (l.map fun n : ℚ => n / 10))).map
    (fun l => [1, 4, 5].all (l.contains ·) && l.length == 3) = .ok true := by decide +kernel
-- test_knn.py:94-117
example : predictKnn squaredError argsort (series ((List.range 20).map fun i : Nat => (i : ℚ))) 3 5 =
    .ok (series [13, 14, 15, 16, 17]) := by decide +kernel

/-! ### tests/clustering -/

-- test_kmedoids.py:46-119
example : (ClusterMeta.kmedoids { k := 5, seed := 2 }).repr = str "kmedoids_k5_seed2_lite" := by decide +kernel
example : (ClusterMeta.kmedoids { k := 3, seed := 2, initial := some [1, 2, 3] }).repr =
    str "kmedoids_k3_seed2_lite_im1-2-3" := by decide +kernel
example : kmedoidsFromRepr (str "kmedoids_k3_seed0_lite") =
    .ok (.kmedoids { k := 3, seed := 0, mode := str "lite" }) := by decide +kernel
example : fromClassifierLabel (str "13-0-6") (str "lite") =
    .ok (.kmedoids { k := 13, seed := 0, mode := str "lite" }) := by decide +kernel
-- test_regular.py:15-34
example : regularFromRepr (str "regular_k2") = .ok (.regular 2) ∧
    regularFromRepr (str "regular_k150") = .ok (.regular 150) := by decide +kernel
-- test_factory.py:19-60
example : factoryInstance (str "regular") 2 1 { ks := none } = .ok (.regular 2) ∧
    factoryInstance (str "kmedoids") 2 1 { ks := none } = .ok (.kmedoids { k := 2, seed := 1 }) ∧
    factoryInstance (str "kmedoids") 2 1 { ks := none, mode := str "lite", maxIter := 5000 } =
      .ok (.kmedoids { k := 2, seed := 1, maxIter := 5000 }) := by decide +kernel
-- test_suite.py:29-128
example : createSuite (str "regular") { ks := some [2, 3] } = .ok [.regular 2, .regular 3] := by decide +kernel
example : createSuite (str "regular") { ks := some [2, 3, 4] } = .ok [.regular 2, .regular 3, .regular 4] := by
  decide +kernel
example : createSuite (str "kmedoids") { ks := some [2, 3], seeds := .single 5 } =
    .ok [.kmedoids { k := 2, seed := 5 }, .kmedoids { k := 3, seed := 5 }] := by decide +kernel
example : createSuite (str "kmedoids") { ks := some [2, 3], seeds := .many [0, 1] } =
    .ok [.kmedoids { k := 2, seed := 0 }, .kmedoids { k := 2, seed := 1 }, .kmedoids { k := 3, seed := 0 },
      .kmedoids { k := 3, seed := 1 }] := by decide +kernel
-- test_suite.py:139-180
example :
    let md : RegionMeta := ⟨str "nordeste_small", ⟨40, 50, 50, 60⟩, 2015, 2015, 1, false⟩
    let suite : SuiteId := ⟨str "kmedoids", str "quick"⟩
    suite.analysisFile = str "clustering__kmedoids-quick.csv" ∧
    suite.analysisPath (str "outputs") md .dtw =
      str "outputs/nordeste_small_2015_2015_1spd/dtw/clustering__kmedoids-quick.csv" ∧
    suite.medoidPath (str "outputs") md .dtw =
      str "outputs/nordeste_small_2015_2015_1spd/dtw/medoid_data__kmedoids-quick.csv" ∧
    -- test_train_input.py:75-97, 118-142
    ChoiceRun.path ⟨md, .dtw, suite, .minDistance, 10, 0, 0⟩ (str "outputs") .choice =
      str "outputs/nordeste_small_2015_2015_1spd/dtw/random_point_dist_medoid__kmedoids-quick_count10_seed0.csv" ∧
    ChoiceRun.path ⟨md, .dtw, suite, .minDistance, 10, 0, 0⟩ (str "outputs") .hist =
      str "outputs/nordeste_small_2015_2015_1spd/dtw/hist_dist_medoid__kmedoids-quick_count10_seed0.csv" ∧
    ChoiceRun.path ⟨md, .dtw, suite, .minError (.autoArima 1 1 3 3 none true) 8 (str "sMAPE"), 10, 0, 0⟩ (str "outputs")
        .choice =
      str ("outputs/nordeste_small_2015_2015_1spd/dtw/random_point_medoid_min_pred_error__auto-arima-start_p1-start_q1" ++
        "-max_p3-max_q3-dNone-stepwiseTrue__tp8__sMAPE__kmedoids-quick_count10_seed0.csv") ∧
    ChoiceRun.path ⟨md, .dtw, suite, .minError (.autoArima 1 1 3 3 none true) 8 (str "sMAPE"), 10, 0, 0⟩ (str "outputs")
        .hist =
      str ("outputs/nordeste_small_2015_2015_1spd/dtw/hist_medoid_min_pred_error__auto-arima-start_p1-start_q1" ++
        "-max_p3-max_q3-dNone-stepwiseTrue__tp8__sMAPE__kmedoids-quick_count10_seed0.csv") := by
  decide +kernel
-- test_suite.py:187-239 and resources/nordeste_small_2015_2015_1spd/dtw/clustering__kmedoids-quick.csv
example : retrieveSuiteResult (some [str "clustering total_cost medoids",
    str "kmedoids_k2_seed0_lite 380.062 |(45,86) (47,91) |",
    str "kmedoids_k2_seed1_lite 380.062 |(45,86) (47,91) |",
    str "kmedoids_k3_seed0_lite 351.926 |(45,86) (48,89) (45,92) |",
    str "kmedoids_k3_seed1_lite 351.926 |(45,86) (45,92) (48,89) |"]) =
    .ok [(str "kmedoids_k2_seed0_lite", [(45, 86), (47, 91)]),
      (str "kmedoids_k2_seed1_lite", [(45, 86), (47, 91)]),
      (str "kmedoids_k3_seed0_lite", [(45, 86), (48, 89), (45, 92)]),
      (str "kmedoids_k3_seed1_lite", [(45, 86), (45, 92), (48, 89)])] := by decide +kernel

/-- The seeds and k values of an organized suite. -/
def organizedKs (name : Str) (p : SuiteParams) : Except PyErr (List (Int × List Int)) :=
  ((createSuite name p).bind organizeSuite).map fun l => l.map fun e => (e.1, e.2.map ClusterMeta.k)

-- test_suite.py:250-321
example : organizedKs (str "kmedoids") { ks := some [2], seeds := .many [0] } = .ok [(0, [2])] := by
  decide +kernel
example : organizedKs (str "kmedoids") { ks := some [3, 5, 2], seeds := .many [1] } = .ok [(1, [2, 3, 5])] := by
  decide +kernel
example : organizedKs (str "kmedoids") { ks := some [3, 5, 2, 4], seeds := .many [1, 2] } =
    .ok [(1, [2, 3, 4, 5]), (2, [2, 3, 4, 5])] := by decide +kernel

/-- The k of the elbow of a list of costs. -/
def elbowOf (l : List (Int × ℚ)) : Except PyErr Int :=
  (findElbow (l.map fun e => (ClusterMeta.kmedoids { k := e.1 }, some e.2))
    (l.map fun e => ClusterMeta.kmedoids { k := e.1 })).map ClusterMeta.k

-- test_suite.py:333-418
example : elbowOf [(2, 7), (3, 5), (4, 4)] = .ok 3 := by decide +kernel
example : elbowOf [(2, 8), (3, 27), (4, 64), (5, 125), (6, 216)] = .ok 5 := by decide +kernel
example : elbowOf [(2, 10976), (3, 7538), (4, 5056), (5, 3650), (6, 3392), (7, 4306), (8, 6368), (9, 9506),
    (10, 13600), (11, 18482), (12, 23936)] = .ok 6 := by decide +kernel
example : elbowOf [(2, 10976), (4, 5056), (6, 3392), (7, 4306), (8, 6368), (9, 9506), (12, 23936)] = .ok 6 := by
  decide +kernel

/-! ### tests/classifier/test_sliding_window.py -/

/-- `s0 .. s6` from a start. -/
def seven (start : ℚ) : List (Option ℚ) :=
  series [start, start + 1, start + 2, start + 3, start + 4, start + 5, start + 6]

/-- The five windows of length 3. -/
def windows3 (label : Char) (start : ℚ) : List (Char × List (Option ℚ) × Nat) :=
  [(label, series [start, start + 1, start + 2], 0), (label, series [start + 1, start + 2, start + 3], 1),
    (label, series [start + 2, start + 3, start + 4], 2), (label, series [start + 3, start + 4, start + 5], 3),
    (label, series [start + 4, start + 5, start + 6], 4)]

example : labeledWindows [('a', seven 0)] 3 = .ok (windows3 'a' 0) := by decide +kernel
example : labeledWindows [('a', seven 0)] 4 = .ok [('a', series [0, 1, 2, 3], 0), ('a', series [1, 2, 3, 4], 1),
    ('a', series [2, 3, 4, 5], 2), ('a', series [3, 4, 5, 6], 3)] := by decide +kernel
example : labeledWindows [('a', seven 0), ('b', seven 10)] 3 = .ok (windows3 'a' 0 ++ windows3 'b' 10) := by
  decide +kernel
example : labeledWindows [('a', seven 0), ('b', seven 10), ('a', seven 20)] 3 =
    .ok (windows3 'a' 0 ++ windows3 'b' 10 ++ windows3 'a' 20) := by decide +kernel

/-! ### tests/arima/test_arima_suite.py -/

example : let l := arimaParamsGen [0, 1, 2, 4, 6, 8, 10] [0, 1, 2] [0, 1, 2]
    l.length = 63 ∧ l[0]? = some ⟨0, 0, 0⟩ ∧ l[62]? = some ⟨10, 2, 2⟩ := by decide +kernel

end Spta.Conformance
