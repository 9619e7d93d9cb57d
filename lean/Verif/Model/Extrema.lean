import Mathlib.Algebra.Group.Defs
import Mathlib.Order.BoundedOrder.Basic
import Verif.Model.Region
import Verif.Model.Scaling

/-!
# Model of find_minimum / find_maximum, the repeat operations and the centroid

Float values are `Option V` for a linear order `V` with a greatest (`+inf`) and least (`-inf`)
element; `none` is NaN, for which every comparison is false.
-/

namespace Spta

variable {ι V : Type}

/-- The search loop `if value < best: best = value; best_at = item` (strict comparison `lt`), as in
spta/region/spatial.py:152-155, 170-173 and spta/region/centroid.py:47-51. -/
def strictBest (lt : V → V → Prop) [DecidableRel lt] :
    List (ι × Option V) → Option ι × V → Option ι × V
  | [], s => s
  | (_, none) :: rest, s => strictBest lt rest s
  | (i, some v) :: rest, s =>
    if lt v s.2 then strictBest lt rest (some i, v) else strictBest lt rest s

variable [LinearOrder V]

/-- `SpatialRegion.find_minimum()` — spta/region/spatial.py:141-157. -/
def RegionObj.findMinimum [OrderTop V] (r : RegionObj (Option V)) :
    Except PyErr ((Option Point × V) × RegionObj (Option V)) :=
  match r.loop with
  | .error e => .error e
  | .ok (items, r') => .ok (strictBest (· < ·) items (none, ⊤), r')

/-- `SpatialRegion.find_maximum()` — spta/region/spatial.py:159-175. -/
def RegionObj.findMaximum [OrderBot V] (r : RegionObj (Option V)) :
    Except PyErr ((Option Point × V) × RegionObj (Option V)) :=
  match r.loop with
  | .error e => .error e
  | .ok (items, r') => .ok (strictBest (· > ·) items (none, ⊥), r')

/-- `find_minimum()` inherited by `SpatialCluster` (its own iterator). -/
def ClusterObj.findMinimum [OrderTop V] (c : ClusterObj (Option V)) :
    Except PyErr ((Option Point × V) × ClusterObj (Option V)) :=
  match c.loop with
  | .error e => .error e
  | .ok (items, c') => .ok (strictBest (· < ·) items (none, ⊤), c')

/-- `find_maximum()` inherited by `SpatialCluster`. -/
def ClusterObj.findMaximum [OrderBot V] (c : ClusterObj (Option V)) :
    Except PyErr ((Option Point × V) × ClusterObj (Option V)) :=
  match c.loop with
  | .error e => .error e
  | .ok (items, c') => .ok (strictBest (· > ·) items (none, ⊥), c')

/-! ### Repeating values and series -/

/-- `np.repeat(array, repeats=m)`: every element `m` times in a row. -/
def npRepeat {α : Type} (l : List α) (m : Nat) : List α := l.flatMap fun a => List.replicate m a

/-- `flat.reshape(l, m, n)` (C order): element `(t, x, y)` is `flat[t*m*n + x*n + y]`; ValueError if
the sizes disagree. -/
def reshape3 {α : Type} (flat : List α) (l m n : Nat) : Except PyErr (Cube α) :=
  if flat.length = l * (m * n) then
    .ok ⟨l, ⟨m, n, (List.range (m * n)).map fun c =>
      (List.range l).filterMap fun t => flat[t * (m * n) + c]?⟩⟩
  else .error .valueError

/-- `flat.reshape(m, n)`. -/
def reshape2 {α : Type} (flat : List α) (m n : Nat) : Except PyErr (Grid α) :=
  if flat.length = m * n then .ok ⟨m, n, flat⟩ else .error .valueError

/-- `copy_array_as_matrix_elements(array, m, n)` — spta/util/arrays.py:6-17. -/
def copyArrayAsMatrixElements {α : Type} (array : List α) (m n : Nat) : Except PyErr (Cube α) :=
  reshape3 (npRepeat array (m * n)) array.length m n

/-- `copy_value_as_matrix_elements(value, m, n)` — spta/util/arrays.py:20-37; `namedtuple` tells
whether the value has `_fields` (then a list with a trailing `None` is built and cut off). -/
def copyValueAsMatrixElements {α : Type} (namedtuple : Bool) (value : α) (m n : Nat) :
    Except PyErr (Grid α) :=
  if namedtuple then
    match (((List.range (m * n)).map fun _ => some value) ++ [none]).dropLast.mapM id with
    | some l => reshape2 l m n
    | none => .error .typeError
  else reshape2 (npRepeat [value] (m * n)) m n

/-- `new_spatial_region(numpy_dataset)` of a spatial region or cluster
— spta/region/spatial.py:18-22, 321-330. -/
def SpStack.newSpatial {α β : Type} : SpStack α → Grid β → SpStack β
  | .plain _, g => .plain g
  | .cluster inner part i, g => .cluster (inner.newSpatial g) part i

/-- The 2d dataset of a spatial region (a cluster shares it with the region it decorates). -/
def SpStack.data {α : Type} : SpStack α → Grid α
  | .plain g => g
  | .cluster inner _ _ => inner.data

/-- `repeat_value(value)` of a spatial region or cluster — spta/region/spatial.py:177-184. -/
def SpStack.repeatValue {α β : Type} (s : SpStack α) (namedtuple : Bool) (value : β) :
    Except PyErr (SpStack β) :=
  match copyValueAsMatrixElements namedtuple value s.data.xLen s.data.yLen with
  | .error e => .error e
  | .ok g => .ok (s.newSpatial g)

/-- `repeat_point(point)` of a spatial region or cluster — spta/region/spatial.py:186-193. -/
def SpStack.repeatPoint {α : Type} (s : SpStack α) (namedtuple : Bool) (p : Point) :
    Except PyErr (SpStack α) :=
  match s.valueAt p with
  | .error e => .error e
  | .ok v => s.repeatValue namedtuple v

variable {K : Type}

/-- `repeat_series(series)` of a spatio-temporal region — spta/region/temporal.py:83-90. -/
def Stack.repeatSeries (s : Stack K) (series : List (Option K)) : Except PyErr (Stack K) :=
  match copyArrayAsMatrixElements series s.data.grid.xLen s.data.grid.yLen with
  | .error e => .error e
  | .ok c => .ok (s.new c)

/-- `value_at(point)` as found on spatio-temporal objects: a plain `SpatioTemporalRegion` has no
such attribute; a scaled region asks the region it decorates (spta/region/spatial.py:252-253), a
cluster first checks membership (spta/region/spatial.py:353-364). Never returns a value. -/
def Stack.valueAtError : Stack K → Point → PyErr
  | .plain _, _ => .attributeError
  | .scaled inner _ _, p => inner.valueAtError p
  | .cluster inner part i, p =>
    match part.isMember p i with
    | .error e => e
    | .ok true => inner.valueAtError p
    | .ok false => .valueError

/-- `repeat_point(point)` on spatio-temporal objects: `SpatioTemporalRegion.repeat_point`
(spta/region/temporal.py:92-99) for a plain region. The decorators inherit `repeat_point` from
`SpatialRegion` (spta/region/spatial.py:186-193), which precedes `SpatioTemporalRegion` in the
method resolution order (classes at spta/region/temporal.py:218, 290, spta/region/scaling.py:88),
so they call `value_at`. -/
def Stack.repeatPoint : Stack K → Point → Except PyErr (Stack K)
  | .plain c, p =>
    match (Stack.plain c).seriesAt p with
    | .error e => .error e
    | .ok series => (Stack.plain c).repeatSeries series
  | s, p => .error (s.valueAtError p)

/-- `SpatioTemporalRegion.repeat_series_over_region(series, shape2D)`
— spta/region/temporal.py:206-215. -/
def repeatSeriesOverRegion (series : List (Option K)) (xLen yLen : Nat) :
    Except PyErr (Stack K) :=
  match copyArrayAsMatrixElements series xLen yLen with
  | .error e => .error e
  | .ok c => .ok (.plain c)

/-! ### Centroid -/

/-- `np.sum(distances)` with NaN propagation. -/
def nanSum [AddCommMonoid V] : List (Option V) → Option V
  | [] => some 0
  | none :: _ => none
  | some v :: rest => (nanSum rest).map (v + ·)

/-- `distance_matrix[point_index, all_point_indices]`
— spta/distance/__init__.py:143-165 (IndexError when out of range). -/
def distancesToPointWithMatrix {W : Type} (m : Grid W) (yLen : Nat) (p : Point)
    (indices : List Nat) : Except PyErr (List W) :=
  indices.mapM fun j => m.get ⟨p.x * yLen + p.y, j⟩

/-- The rows `(point, distances)` visited by the centroid search
— spta/region/centroid.py:38-44. -/
def centroidRows {W : Type} (m : Grid W) (yLen : Nat) (indices : List Nat) :
    List Point → Except PyErr (List (Point × List W))
  | [] => .ok []
  | p :: rest =>
    match distancesToPointWithMatrix m yLen p indices with
    | .error e => .error e
    | .ok ds =>
      match centroidRows m yLen indices rest with
      | .error e => .error e
      | .ok rows => .ok ((p, ds) :: rows)

/-- The search of `find_centroid_and_distances` — spta/region/centroid.py:33-61, with the matrix
already loaded. The result is the centroid (None if no row was ever accepted) with the distances
(`np.Inf`, here `none`, if no row was ever accepted). -/
def centroidSearch [AddCommMonoid V] [OrderTop V] (rows : List (Point × List (Option V))) :
    Option (Point × List (Option V)) :=
  (strictBest (· < ·) (rows.map fun r => (r, nanSum r.2)) (none, ⊤)).1

/-- `find_centroid_and_distances(spt_region)` for a plain region — spta/region/centroid.py:15-61,
spta/region/temporal.py:160-170. -/
def RegionObj.findCentroid {α : Type} [AddCommMonoid V] [OrderTop V] (m : Grid (Option V))
    (r : RegionObj α) : Except PyErr (Option (Point × List (Option V)) × RegionObj α) :=
  match r.loop with
  | .error e => .error e
  | .ok (items, r') =>
    match centroidRows m r.data.yLen (List.range (r.data.xLen * r.data.yLen))
        (items.map Prod.fst) with
    | .error e => .error e
    | .ok rows => .ok (centroidSearch rows, r')

/-- `find_centroid_and_distances(spt_region)` for a cluster — spta/region/centroid.py:15-61,
spta/region/temporal.py:371-385. -/
def ClusterObj.findCentroid {α : Type} [AddCommMonoid V] [OrderTop V] (m : Grid (Option V))
    (c : ClusterObj α) : Except PyErr (Option (Point × List (Option V)) × ClusterObj α) :=
  match c.allPointIndices with
  | .error e => .error e
  | .ok indices =>
    match c.loop with
    | .error e => .error e
    | .ok (items, c') =>
      match centroidRows m c.region.yLen indices (items.map Prod.fst) with
      | .error e => .error e
      | .ok rows => .ok (centroidSearch rows, c')

end Spta
