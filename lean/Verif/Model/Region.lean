import Mathlib.Data.List.Dedup
import Verif.Model.Basic
import Verif.Model.Maths

/-!
# Model of spta/region: iteration, spatial regions, crisp partitions and clusters

A `Grid α` stands both for the 2d dataset of a spatial region (`α` a number) and for the 3d
dataset of a spatio-temporal region (`α` the series `numpy_dataset[:, x, y]` at a point), so
`value_at`/`series_at` and the two kinds of iteration are one definition each.
-/

namespace Spta

variable {α β : Type}

/-! ### Point indices -/

/-- Index of a point: `point.x * y_len + point.y` — spta/region/partition.py:85-89,
spta/util/arrays.py:122, spta/region/partition.py:364. -/
def pointToIndex (yLen : Nat) (p : Point) : Nat := p.x * yLen + p.y

/-- Point of an index: `Point(int(index / y_len), index % y_len)` — spta/clustering/kmedoids.py:
140-144, spta/region/metadata.py:104-106, spta/region/partition.py:183-186 (ZeroDivisionError for
`y_len = 0`). -/
def indexToPoint (yLen index : Nat) : Except PyErr Point :=
  if yLen = 0 then .error .zeroDivisionError else .ok ⟨index / yLen, index % yLen⟩

/-- `absolute_position_of_point(point)` for a metadata with rectangle `r`
— spta/region/metadata.py:111-119. -/
def absolutePosition (r : Region) (p : Point) : Point := ⟨p.x + r.x1, p.y + r.y1⟩

/-- `index_to_absolute_point(index)` — spta/region/metadata.py:94-109, with
`y_len = region.y2 - region.y1` (line 64). -/
def indexToAbsolutePoint (r : Region) (index : Nat) : Except PyErr Point :=
  match indexToPoint (r.y2 - r.y1) index with
  | .error e => .error e
  | .ok p => .ok (absolutePosition r p)

/-- `absolute_coordinates_of_region(region)` — spta/region/metadata.py:121-135. -/
def absoluteCoordinates (r sub : Region) : Region :=
  let c1 := absolutePosition r ⟨sub.x1, sub.y1⟩
  let c2 := absolutePosition r ⟨sub.x2, sub.y2⟩
  ⟨c1.x, c2.x, c1.y, c2.y⟩

/-- `list_of_2d_points(x_len, y_len)` — spta/util/arrays.py:113-125: an `np.empty` array (content
`junk`) whose rows are written one by one. -/
def listOf2dPoints (xLen yLen : Nat) (junk : Point) : List Point :=
  (List.range xLen).foldl (fun acc i =>
    (List.range yLen).foldl (fun acc j => acc.set (i * yLen + j) ⟨i, j⟩) acc)
    (List.replicate (xLen * yLen) junk)

/-! ### Iteration -/

/-- `BaseRegion.__next__` — spta/region/base.py:82-101, on the cursor `point_index`. `none` stands
for StopIteration (which resets the cursor to 0). -/
def baseNext (xLen yLen pointIndex : Nat) : Option Point × Nat :=
  if yLen * xLen ≤ pointIndex then (none, 0)
  else (some ⟨pointIndex / yLen, pointIndex % yLen⟩, pointIndex + 1)

/-- A python `for` loop without `break`: `__iter__` returns the object itself
(spta/region/base.py:76-80) and `__next__` is called until StopIteration. Returns the items and the
object afterwards. `fuel` bounds the number of calls. -/
def loopAux {σ ι : Type} (next : σ → Except PyErr (Option ι × σ)) :
    Nat → σ → Except PyErr (List ι × σ)
  | 0, _ => .error .diverges
  | fuel + 1, s =>
    match next s with
    | .error e => .error e
    | .ok (none, s') => .ok ([], s')
    | .ok (some i, s') =>
      match loopAux next fuel s' with
      | .error e => .error e
      | .ok (is, s'') => .ok (i :: is, s'')

/-- A python `for` loop that is left by `break` (or an exception in its body) after receiving at
most `m` items. -/
def breakAux {σ ι : Type} (next : σ → Except PyErr (Option ι × σ)) :
    Nat → σ → Except PyErr (List ι × σ)
  | 0, s => .ok ([], s)
  | m + 1, s =>
    match next s with
    | .error e => .error e
    | .ok (none, s') => .ok ([], s')
    | .ok (some i, s') =>
      match breakAux next m s' with
      | .error e => .error e
      | .ok (is, s'') => .ok (i :: is, s'')

/-- `SpatialRegion` / `SpatioTemporalRegion` as an object: dataset and iteration cursor
— spta/region/base.py:16-31, spta/region/spatial.py:98-105, spta/region/temporal.py:17-28. -/
structure RegionObj (α : Type) where
  data : Grid α
  pointIndex : Nat
  deriving DecidableEq, Repr

/-- `SpatialRegion(numpy_dataset)`: the cursor starts at 0 — spta/region/base.py:21. -/
def RegionObj.new (g : Grid α) : RegionObj α := ⟨g, 0⟩

/-- `SpatialRegion.__next__` / `SpatioTemporalRegion.__next__`
— spta/region/spatial.py:107-117, spta/region/temporal.py:30-51. -/
def RegionObj.next (r : RegionObj α) : Except PyErr (Option (Point × α) × RegionObj α) :=
  match baseNext r.data.xLen r.data.yLen r.pointIndex with
  | (none, i) => .ok (none, { r with pointIndex := i })
  | (some p, i) =>
    match r.data.get p with
    | .error e => .error e
    | .ok v => .ok (some (p, v), { r with pointIndex := i })

/-- `for (point, value) in region: ...` run to the end. -/
def RegionObj.loop (r : RegionObj α) : Except PyErr (List (Point × α) × RegionObj α) :=
  loopAux RegionObj.next (r.data.xLen * r.data.yLen + 1) r

/-- `for (point, value) in region: ...` abandoned after at most `m` items. -/
def RegionObj.loopBreak (r : RegionObj α) (m : Nat) :
    Except PyErr (List (Point × α) × RegionObj α) :=
  breakAux RegionObj.next m r

/-! ### Crisp partitions -/

/-- `PartitionRegionCrisp`: membership matrix, number of clusters, iteration cursor
— spta/region/partition.py:59-64, 249-257. -/
structure Partition where
  labels : Grid Nat
  k : Nat
  pointIndex : Nat
  deriving DecidableEq, Repr

/-- `PartitionRegionCrisp.__init__` — spta/region/partition.py:249-257: `k == max + 1` is asserted;
`np.max` of an empty array raises ValueError. (The array is 2d by construction.) -/
def Partition.create (labels : Grid Nat) (k : Nat) : Except PyErr Partition :=
  match labels.data.max? with
  | none => .error .valueError
  | some m => if k = m + 1 then .ok ⟨labels, k, 0⟩ else .error .assertionError

/-- `from_membership_array(membership, x_len, y_len)` — spta/region/partition.py:386-398: `k` is the
maximum plus one, `reshape` raises ValueError if the size does not match. -/
def Partition.fromMembershipArray (membership : List Nat) (xLen yLen : Nat) :
    Except PyErr Partition :=
  match membership.max? with
  | none => .error .valueError
  | some m =>
    if membership.length = xLen * yLen then Partition.create ⟨xLen, yLen, membership⟩ (m + 1)
    else .error .valueError

/-- `with_regular_partition(k, x_len, y_len)` — spta/region/partition.py:400-419. (The 2d matrix is
passed to `from_membership_array`, where `np.max` and `reshape` see its elements in row-major
order.) -/
def Partition.withRegular (k xLen yLen : Nat) : Except PyErr Partition :=
  match regularPartitioning xLen yLen k with
  | .error e => .error e
  | .ok g => Partition.fromMembershipArray g.data xLen yLen

/-- `is_member(point, cluster_index)` — spta/region/partition.py:259-267 (point is not None). -/
def Partition.isMember (pt : Partition) (p : Point) (i : Nat) : Except PyErr Bool :=
  match pt.labels.get p with
  | .error e => .error e
  | .ok l => .ok (l == i)

/-- `membership_of_point_indices(point_indices)` — spta/region/partition.py:269-278:
`ndarray.take` on the flattened matrix, IndexError when out of range. -/
def Partition.membershipOfIndices (pt : Partition) (idx : List Nat) : Except PyErr (List Nat) :=
  idx.mapM fun n => match pt.labels.data[n]? with
    | some l => .ok l
    | none => .error .indexError

/-- `membership_of_points(points)` — spta/region/partition.py:77-91. -/
def Partition.membershipOfPoints (pt : Partition) (ps : List Point) : Except PyErr (List Nat) :=
  pt.membershipOfIndices (ps.map fun p => p.x * pt.labels.yLen + p.y)

/-- `cluster_len(cluster_index)` of the crisp partition — spta/region/partition.py:280-285. -/
def Partition.clusterLen (pt : Partition) (i : Nat) : Nat := pt.labels.data.count i

/-- `cluster_len(cluster_index)` of the base class `PartitionRegion`
— spta/region/partition.py:103-113, literally: `members += 0`. -/
def Partition.clusterLenBase (members : List Bool) : Nat :=
  members.foldl (fun acc m => if m then acc + 0 else acc) 0

/-- `BaseRegion.__next__` of the partition itself (`for point in self`)
— spta/region/base.py:82-101. -/
def Partition.next (pt : Partition) : Except PyErr (Option Point × Partition) :=
  match baseNext pt.labels.xLen pt.labels.yLen pt.pointIndex with
  | (o, i) => .ok (o, { pt with pointIndex := i })

/-- `for point in partition: ...` run to the end. -/
def Partition.loop (pt : Partition) : Except PyErr (List Point × Partition) :=
  loopAux Partition.next (pt.labels.xLen * pt.labels.yLen + 1) pt

/-- `find_indices_of_clusters_intersecting_with(region_2d)`
— spta/region/partition.py:352-369. `list(set(..))` has no specified order; `dedup` stands for any
order, theorems only use membership and absence of repetition. -/
def Partition.clustersIntersecting (pt : Partition) (r : Region) : Except PyErr (List Nat) :=
  let idx := (List.range' r.x1 (r.x2 - r.x1)).flatMap fun x =>
    (List.range' r.y1 (r.y2 - r.y1)).map fun y => x * pt.labels.yLen + y
  match pt.membershipOfIndices idx with
  | .error e => .error e
  | .ok ms => .ok ms.dedup

/-- `find_medoids_of_clusters_intersecting_with(region_2d)` — spta/region/partition.py:371-384;
`medoids` is `none` when the attribute was never set (ValueError). -/
def Partition.medoidsIntersecting (pt : Partition) (medoids : Option (List Point)) (r : Region) :
    Except PyErr (List Point) :=
  match medoids with
  | none => .error .valueError
  | some ms =>
    match pt.clustersIntersecting r with
    | .error e => .error e
    | .ok is => is.mapM fun i => match ms[i]? with
      | some m => .ok m
      | none => .error .indexError

/-! ### Clusters -/

/-- `SpatialCluster` / `SpatioTemporalCluster`: decorated dataset, partition, index and its own
cursor — spta/region/spatial.py:295-311, spta/region/temporal.py:300-320. -/
structure ClusterObj (α : Type) where
  region : Grid α
  part : Partition
  index : Nat
  pointIndex : Nat
  deriving DecidableEq, Repr

/-- `value_at` / `series_at` of a cluster — spta/region/spatial.py:353-364,
spta/region/temporal.py:357-369 (point is not None). -/
def ClusterObj.valueAt (c : ClusterObj α) (p : Point) : Except PyErr α :=
  match c.part.isMember p c.index with
  | .error e => .error e
  | .ok true => c.region.get p
  | .ok false => .error .valueError

/-- The `while True` loop of the cluster's `__next__` — spta/region/spatial.py:375-397,
spta/region/temporal.py:399-420. -/
def ClusterObj.nextAux : Nat → ClusterObj α → Except PyErr (Option (Point × α) × ClusterObj α)
  | 0, _ => .error .diverges
  | fuel + 1, c =>
    match baseNext c.region.xLen c.region.yLen c.pointIndex with
    | (none, i) => .ok (none, { c with pointIndex := i })
    | (some p, i) =>
      match c.part.isMember p c.index with
      | .error e => .error e
      | .ok false => ClusterObj.nextAux fuel { c with pointIndex := i }
      | .ok true =>
        match c.valueAt p with
        | .error e => .error e
        | .ok v => .ok (some (p, v), { c with pointIndex := i })

/-- `SpatialCluster.__next__` / `SpatioTemporalCluster.__next__`. -/
def ClusterObj.next (c : ClusterObj α) : Except PyErr (Option (Point × α) × ClusterObj α) :=
  c.nextAux (c.region.xLen * c.region.yLen + 1)

/-- `for (point, value) in cluster: ...` run to the end. -/
def ClusterObj.loop (c : ClusterObj α) : Except PyErr (List (Point × α) × ClusterObj α) :=
  loopAux ClusterObj.next (c.region.xLen * c.region.yLen + 1) c

/-- `cluster_len` — spta/region/spatial.py:313-319. -/
def ClusterObj.clusterLen (c : ClusterObj α) : Nat := c.part.clusterLen c.index

/-- `SpatioTemporalCluster.all_point_indices` — spta/region/temporal.py:371-385. -/
def ClusterObj.allPointIndices (c : ClusterObj α) : Except PyErr (List Nat) :=
  let n := c.region.xLen * c.region.yLen
  match c.part.membershipOfIndices (List.range n) with
  | .error e => .error e
  | .ok ms => .ok ((List.range ms.length).filter fun i => ms[i]? == some c.index)

/-- `new_spatial_region(numpy_dataset)` of a cluster — spta/region/spatial.py:321-330. -/
def ClusterObj.newRegion (c : ClusterObj α) (g : Grid β) : ClusterObj β :=
  ⟨g, c.part, c.index, 0⟩

/-- `create_spatial_cluster(spatial_region, cluster_index)` and `create_spt_cluster`
— spta/region/partition.py:121-132, 146-157: the shapes are asserted to match. -/
def Partition.createCluster (pt : Partition) (g : Grid α) (i : Nat) :
    Except PyErr (ClusterObj α) :=
  if pt.labels.xLen = g.xLen ∧ pt.labels.yLen = g.yLen then .ok ⟨g, pt, i, 0⟩
  else .error .assertionError

/-- `create_all_spatial_clusters(spatial_region)` — spta/region/partition.py:134-144 (and the
clusters of `create_all_spt_clusters`, 159-198). -/
def Partition.createAllClusters (pt : Partition) (g : Grid α) :
    Except PyErr (List (ClusterObj α)) :=
  (List.range pt.k).mapM fun i => pt.createCluster g i

/-! ### Functions applied to regions -/

/-- The body of `apply_function_scalar` / `apply_function_series`
— spta/region/spatial.py:53-61, 85-91: each iterated point gets the function of that point applied
to its value. -/
def applyItems (f : Grid (α → β)) : List (Point × α) → Grid β → Except PyErr (Grid β)
  | [], acc => .ok acc
  | (p, v) :: rest, acc =>
    match f.get p with
    | .error e => .error e
    | .ok fn =>
      match acc.set p (fn v) with
      | .error e => .error e
      | .ok acc' => applyItems f rest acc'

/-- `apply_function_scalar(function_region)` on a plain region — spta/region/spatial.py:32-65
(`zero` is the 0 of `np.zeros`); also `apply_function_series` with series values, 67-95. Returns the
new dataset and the region with its cursor afterwards. -/
def RegionObj.applyFunction (r : RegionObj α) (f : Grid (α → β)) (zero : β) :
    Except PyErr (Grid β × RegionObj α) :=
  if r.data.xLen = f.xLen ∧ r.data.yLen = f.yLen then
    match r.loop with
    | .error e => .error e
    | .ok (items, r') =>
      match applyItems f items (Grid.const r.data.xLen r.data.yLen zero) with
      | .error e => .error e
      | .ok g => .ok (g, r')
  else .error .assertionError

/-- `apply_function_scalar` / `apply_function_series` on a cluster (same code, cluster iterator),
the result is a cluster with the same partition and index. -/
def ClusterObj.applyFunction (c : ClusterObj α) (f : Grid (α → β)) (zero : β) :
    Except PyErr (ClusterObj β × ClusterObj α) :=
  if c.region.xLen = f.xLen ∧ c.region.yLen = f.yLen then
    match c.loop with
    | .error e => .error e
    | .ok (items, c') =>
      match applyItems f items (Grid.const c.region.xLen c.region.yLen zero) with
      | .error e => .error e
      | .ok g => .ok (c.newRegion g, c')
  else .error .assertionError

/-! ### Merging clusters -/

/-- The loop of `merge_clusters_2d` — spta/region/partition.py:322-329. -/
def mergeItems (pt : Partition) (cs : List (ClusterObj α)) :
    List Point → Grid α → Except PyErr (Grid α)
  | [], acc => .ok acc
  | p :: rest, acc =>
    match pt.labels.get p with
    | .error e => .error e
    | .ok l =>
      match cs[l]? with
      | none => .error .indexError
      | some c =>
        match c.valueAt p with
        | .error e => .error e
        | .ok v =>
          match acc.set p v with
          | .error e => .error e
          | .ok acc' => mergeItems pt cs rest acc'

/-- `merge_clusters_2d(spatial_clusters)` — spta/region/partition.py:290-331. The result of
`sorted(...)` in line 305 is discarded by the code, hence absent here. `junk` is the arbitrary
content of `np.empty`. -/
def Partition.mergeClusters (pt : Partition) (cs : List (ClusterObj α)) (junk : α) :
    Except PyErr (Grid α × Partition) :=
  if cs.all (fun c => c.region.xLen == pt.labels.xLen && c.region.yLen == pt.labels.yLen) then
    if cs.map (·.index) = List.range pt.k then
      if cs.isEmpty then .error .indexError else
      match pt.loop with
      | .error e => .error e
      | .ok (points, pt') =>
        match mergeItems pt cs points (Grid.const pt.labels.xLen pt.labels.yLen junk) with
        | .error e => .error e
        | .ok g => .ok (g, pt')
    else .error .valueError
  else .error .assertionError

/-- `SpatialRegion.repeat_point(point)` on a cluster — spta/region/spatial.py:186-193 with
`repeat_value` (177-184) and `new_spatial_region` (321-330). -/
def ClusterObj.repeatPoint (c : ClusterObj α) (p : Point) : Except PyErr (ClusterObj α) :=
  match c.valueAt p with
  | .error e => .error e
  | .ok v => .ok (c.newRegion (Grid.const c.region.xLen c.region.yLen v))

/-- The loop of `merge_with_representatives_2d` — spta/region/partition.py:343-346. -/
def repeatAll : List (ClusterObj α) → List Point → Except PyErr (List (ClusterObj α))
  | [], _ => .ok []
  | _ :: _, [] => .error .indexError
  | c :: cs, p :: ps =>
    match c.repeatPoint p with
    | .error e => .error e
    | .ok c' =>
      match repeatAll cs ps with
      | .error e => .error e
      | .ok cs' => .ok (c' :: cs')

/-- `merge_with_representatives_2d(spatial_clusters, representatives)`
— spta/region/partition.py:333-350. -/
def Partition.mergeWithRepresentatives (pt : Partition) (cs : List (ClusterObj α))
    (reps : List Point) (junk : α) : Except PyErr (Grid α × Partition) :=
  if cs.length = reps.length then
    match repeatAll cs reps with
    | .error e => .error e
    | .ok cs' => pt.mergeClusters cs' junk
  else .error .assertionError

end Spta
