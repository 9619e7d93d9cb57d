import Mathlib.Data.List.Sort
import Verif.Model.Extrema
import Verif.Model.Util
import Verif.Model.Maths

/-!
# Model of the histograms of distances

spta/distance/variance.py. A plot is what is drawn: position of the subplot, distances, statistics and the
limit of the x axis; bins, colours, titles and files are not modelled. Distances are numbers (no NaN). The
distance matrix is loaded. A random choice is the parameter `perm`, see `Verif.Model.Util`.
-/

namespace Spta

variable {K : Type} [Field K] [LinearOrder K]

/-- `np.max(array)`: ValueError for an empty array. -/
def npMax : List K → Except PyErr K
  | [] => .error .valueError
  | a :: l => .ok (l.foldl max a)

/-- The random points outside of a cluster with the new value of `self.num_points`: `point_indices` of
`DistanceHistogramWithRandomPointsOtherClusters` — spta/distance/variance.py:213-241 — and of
`DistanceHistogramRandomOutsidePoints`, 363-391. -/
def outsideIndices {A : Type} (c : ClusterObj A) (numPoints : Nat) (perm : List Nat) :
    Except PyErr (List Nat) × Nat :=
  match c.allPointIndices with
  | .error e => (.error e, numPoints)
  | .ok inside =>
    let remaining := c.region.xLen * c.region.yLen - inside.length
    let requested := if numPoints = 0 then inside.length else numPoints
    let num := if remaining < requested then remaining else requested
    match randomIntegersWithBlacklist num 0 (((c.region.xLen * c.region.yLen : Nat) : Int) - 1)
        (inside.map fun i : Nat => (i : Int)) perm with
    | .error e => (.error e, num)
    | .ok is => (.ok (is.map Int.toNat), num)

/-- A histogram of a cluster with its centroid; `random` is `num_points` if it is decorated with random
points — spta/distance/variance.py:39-50, 203-211. -/
structure Histogram (A : Type) where
  cluster : ClusterObj A
  centroid : Point
  random : Option Nat

/-- The distances that a histogram shows: those of the cluster, and those of random points if there are
any. -/
structure HistDistances (K : Type) where
  cluster : List K
  random : Option (List K)
  deriving DecidableEq

/-- `distances_to_point(centroid)` — spta/distance/variance.py:60-65, 243-254. If no point is outside,
`np.random.choice` gives an empty array of floats, which numpy does not take as indices. -/
def Histogram.distances {A : Type} (m : Grid K) (perm : List Nat) (h : Histogram A) :
    Except PyErr (HistDistances K) × Histogram A :=
  match h.cluster.allPointIndices with
  | .error e => (.error e, h)
  | .ok inside =>
    match distancesToPointWithMatrix m h.cluster.region.yLen h.centroid inside with
    | .error e => (.error e, h)
    | .ok ds =>
      match h.random with
      | none => (.ok ⟨ds, none⟩, h)
      | some num =>
        match outsideIndices h.cluster num perm with
        | (.error e, num') => (.error e, { h with random := some num' })
        | (.ok outside, num') =>
          if inside.length = h.cluster.region.xLen * h.cluster.region.yLen then
            (.error .indexError, { h with random := some num' })
          else
          match distancesToPointWithMatrix m h.cluster.region.yLen h.centroid outside with
          | .error e => (.error e, { h with random := some num' })
          | .ok rs => (.ok ⟨ds, some rs⟩, { h with random := some num' })

/-- `np.max([..., max_override])`, where `none` is `-np.inf`. -/
def maxWith (a : K) : Option K → K
  | none => a
  | some b => max a b

/-- `max_distance(distances, max_override)` — spta/distance/variance.py:67-73, 256-267. -/
def maxDistance (ds : HistDistances K) (override : Option K) : Except PyErr K :=
  match npMax ds.cluster with
  | .error e => .error e
  | .ok a =>
    match ds.random with
    | none => .ok (maxWith a override)
    | some rs =>
      match npMax rs with
      | .error e => .error e
      | .ok b => .ok (maxWith (max a b) override)

/-! ### Statistics -/

/-- The numbers shown by `statistics(distances)`. The square root of the variance is not taken. -/
structure Stats (K : Type) where
  n : Nat
  min : K
  max : K
  mean : K
  variance : K
  median : K
  /-- number of random points, and of those nearer than the farthest point of the cluster -/
  random : Option (Nat × Nat)
  deriving DecidableEq

/-- The values in increasing order. -/
def sortedValues (l : List K) : List K := l.insertionSort (· ≤ ·)

/-- `np.partition(distances, 1)[1]`: the element that the sorted array has at position 1; ValueError if
there is none. -/
def secondSmallest (l : List K) : Except PyErr K :=
  match (sortedValues l)[1]? with
  | some v => .ok v
  | none => .error .valueError

/-- `np.mean` -/
def meanOf (l : List K) : K := l.sum / (l.length : K)

/-- `np.median` of a non-empty array: the middle element, or the mean of the two middle ones. -/
def medianOf (l : List K) : K :=
  let s := sortedValues l
  let h := l.length / 2
  if l.length % 2 = 1 then s.getD h 0 else (s.getD (h - 1) 0 + s.getD h 0) / 2

/-- `statistics(distances)` — spta/distance/variance.py:75-99, 269-289; `n` is the number of points of the
cluster. -/
def statistics (n : Nat) (ds : HistDistances K) : Except PyErr (Stats K) :=
  match secondSmallest ds.cluster with
  | .error e => .error e
  | .ok low =>
    match npMax ds.cluster with
    | .error e => .error e
    | .ok high =>
      let mean := meanOf ds.cluster
      .ok ⟨n, low, high, mean, meanOf (ds.cluster.map fun d => (d - mean) * (d - mean)), medianOf ds.cluster,
        ds.random.map fun rs => (rs.length, rs.countP fun r => r < high)⟩

/-! ### The plot of all clusters -/

/-- The subplot of cluster `i` in `plt.subplots(div_x, div_y)` — spta/distance/variance.py:564-574. The
array of subplots has one dimension if one number is 1, and is a single object if both are. -/
def subplotAt (divX divY i : Nat) : Except PyErr (Nat × Nat) :=
  let x := i / divY
  let y := i % divY
  if divX = 1 then
    if divY = 1 then .error .typeError else if y < divY then .ok (0, y) else .error .indexError
  else if divY = 1 then if x < divX then .ok (x, 0) else .error .indexError
  else if x < divX ∧ y < divY then .ok (x, y) else .error .indexError

/-- What is drawn for one cluster. `limit` is the end of the x axis, if it is set. -/
structure Subplot (K : Type) where
  position : Nat × Nat
  distances : HistDistances K
  stats : Option (Stats K)
  limit : Option K
  deriving DecidableEq

/-- `DistanceHistogramClusters.max_distance()` — spta/distance/variance.py:497-524: the histograms change
their `num_points`. -/
def histMaxLoop {A : Type} (m : Grid K) : List (Histogram A) → List (List Nat) → Option K →
    Except PyErr (Option K × List (Histogram A))
  | [], _, best => .ok (best, [])
  | h :: hs, perms, best =>
    match h.distances m (perms.headD []) with
    | (.error e, _) => .error e
    | (.ok ds, h') =>
      match maxDistance ds best with
      | .error e => .error e
      | .ok b =>
        match histMaxLoop m hs perms.tail (some b) with
        | .error e => .error e
        | .ok (r, hs') => .ok (r, h' :: hs')

/-- The loop that draws the subplots — spta/distance/variance.py:561-586. The limit is set if it is not
zero (146-148, 325-327). -/
def histPlotLoop {A : Type} (m : Grid K) (withStats : Bool) (divX divY : Nat) (limit : Option K) :
    List (Histogram A) → List (List Nat) → Nat → Except PyErr (List (Subplot K))
  | [], _, _ => .ok []
  | h :: hs, perms, i =>
    match subplotAt divX divY i with
    | .error e => .error e
    | .ok pos =>
      match h.distances m (perms.headD []) with
      | (.error e, _) => .error e
      | (.ok ds, _) =>
        match (if withStats then (statistics ds.cluster.length ds).map some else .ok none) with
        | .error e => .error e
        | .ok stats =>
          match histPlotLoop m withStats divX divY limit hs perms.tail (i + 1) with
          | .error e => .error e
          | .ok rest => .ok (⟨pos, ds, stats, limit.filter (· ≠ 0)⟩ :: rest)

/-- `DistanceHistogramClusters(...).plot(with_statistics)` — spta/distance/variance.py:429-472, 529-604.
The random choices are made twice, `perms` for the maximum and `perms'` for the plots. `random` is the
argument `random_points`. -/
def plotClusters {A : Type} (m : Grid K) (clusters : List (ClusterObj A × Point)) (random : Option Nat)
    (withStats : Bool) (perms perms' : List (List Nat)) : Except PyErr (List (Subplot K)) :=
  match clusters with
  | [] => .error .indexError
  | (c, _) :: _ =>
    match twoBalancedDivisorsOrderXY clusters.length c.region.xLen c.region.yLen with
    | .error e => .error e
    | .ok (divX, divY) =>
      match histMaxLoop m (clusters.map fun c => ⟨c.1, c.2, random⟩) perms none with
      | .error e => .error e
      | .ok (limit, hs) => histPlotLoop m withStats divX divY limit hs perms' 0

end Spta
