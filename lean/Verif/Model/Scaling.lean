import Mathlib.Algebra.Order.Field.Basic
import Verif.Model.Region

/-!
# Model of subsets, scaling and the decorator stack

spta/region/temporal.py, spta/region/spatial.py, spta/region/scaling.py. Values are elements of a
linear ordered field `K`; NaN is `none`. A spatio-temporal dataset (numpy shape
`(series_len, x_len, y_len)`) is a 2d array of series together with the series length.
-/

namespace Spta

/-- `array[x1:x2, y1:y2]` on a 2d array (python slices, bounds clamped to the shape). -/
def Grid.slice {α : Type} (g : Grid α) (r : Region) : Grid α :=
  ⟨min r.x2 g.xLen - r.x1, min r.y2 g.yLen - r.y1,
    (List.range' r.x1 (min r.x2 g.xLen - r.x1)).flatMap fun x =>
      ((g.data.drop (x * g.yLen)).take (min r.y2 g.yLen)).drop r.y1⟩

/-- `array[t1:t2]` on a series (non-negative bounds). -/
def sliceSeries {α : Type} (s : List α) (ti : TimeInterval) : List α := (s.take ti.t2).drop ti.t1

/-- A 3d dataset: series length and the series of each point. -/
structure Cube (α : Type) where
  tLen : Nat
  grid : Grid (List α)
  deriving DecidableEq, Repr

/-- numpy's shape invariant: one series per point, all of the same length. -/
def Cube.WF {α : Type} (c : Cube α) : Prop :=
  c.grid.WF ∧ ∀ s ∈ c.grid.data, s.length = c.tLen

instance {α : Type} (c : Cube α) : Decidable c.WF := inferInstanceAs (Decidable (_ ∧ _))

/-- `dataset[:, x1:x2, y1:y2]` — spta/region/temporal.py:64. -/
def Cube.regionSlice {α : Type} (c : Cube α) (r : Region) : Cube α := ⟨c.tLen, c.grid.slice r⟩

/-- `dataset[t1:t2, :, :]` — spta/region/temporal.py:71. -/
def Cube.intervalSlice {α : Type} (c : Cube α) (ti : TimeInterval) : Cube α :=
  ⟨min ti.t2 c.tLen - ti.t1,
    ⟨c.grid.xLen, c.grid.yLen, c.grid.data.map fun s => sliceSeries s ti⟩⟩

/-- `dataset[t1:t2, x1:x2, y1:y2]` — spta/region/temporal.py:79-80. -/
def Cube.bothSlice {α : Type} (c : Cube α) (r : Region) (ti : TimeInterval) : Cube α :=
  (c.regionSlice r).intervalSlice ti

variable {K : Type} [Field K] [LinearOrder K]

/-- Spatial regions and their cluster decoration (`SpatialRegion`, `SpatialCluster`). -/
inductive SpStack (V : Type) where
  | plain (g : Grid V)
  | cluster (inner : SpStack V) (part : Partition) (index : Nat)
  deriving DecidableEq

/-- `value_at` — spta/region/spatial.py:134-139, 353-364. -/
def SpStack.valueAt {V : Type} : SpStack V → Point → Except PyErr V
  | .plain g, p => g.get p
  | .cluster inner part i, p =>
    match part.isMember p i with
    | .error e => .error e
    | .ok true => inner.valueAt p
    | .ok false => .error .valueError

/-- `region_subset` of a spatial region — spta/region/spatial.py:127-132, 346-351. -/
def SpStack.regionSubset {V : Type} : SpStack V → Region → Except PyErr (SpStack V)
  | .plain g, r => .ok (.plain (g.slice r))
  | .cluster _ _ _, _ => .error .notImplementedError

/-- Spatio-temporal regions with their decorations: `SpatioTemporalRegion`,
`SpatioTemporalScaled` and `SpatioTemporalCluster`. -/
inductive Stack (K : Type) where
  | plain (c : Cube (Option K))
  | scaled (inner : Stack K) (smin smax : SpStack (Option K))
  | cluster (inner : Stack K) (part : Partition) (index : Nat)
  deriving DecidableEq

namespace Stack

/-- `numpy_dataset`: a decorator shares the dataset of the region it decorates
— spta/region/spatial.py:229-233. -/
def data : Stack K → Cube (Option K)
  | plain c => c
  | scaled inner _ _ => inner.data
  | cluster inner _ _ => inner.data

/-- `new_spatio_temporal_region(numpy_dataset)` — spta/region/spatial.py:24-30 (plain),
spta/region/scaling.py:120-132 (scaled), spta/region/temporal.py:322-334 (cluster). -/
def new : Stack K → Cube (Option K) → Stack K
  | plain _, c => plain c
  | scaled inner smin smax, c => scaled (inner.new c) smin smax
  | cluster inner part i, c => cluster (inner.new c) part i

/-- `new_spatial_region(numpy_dataset)` — spta/region/spatial.py:18-22, 235-240, 321-330. -/
def newSpatial {V : Type} : Stack K → Grid V → SpStack V
  | plain _, g => .plain g
  | scaled inner _ _, g => inner.newSpatial g
  | cluster inner part i, g => .cluster (inner.newSpatial g) part i

/-- `series_at(point)` — spta/region/temporal.py:53-58, 237-238, 357-369. -/
def seriesAt : Stack K → Point → Except PyErr (List (Option K))
  | plain c, p => c.grid.get p
  | scaled inner _ _, p => inner.seriesAt p
  | cluster inner part i, p =>
    match part.isMember p i with
    | .error e => .error e
    | .ok true => inner.seriesAt p
    | .ok false => .error .valueError

/-- The items `(point, f point)` for a list of points, stopping at the first exception. -/
def itemsAt {V : Type} (f : Point → Except PyErr V) : List Point → Except PyErr (List (Point × V))
  | [] => .ok []
  | p :: ps =>
    match f p with
    | .error e => .error e
    | .ok v => match itemsAt f ps with
      | .error e => .error e
      | .ok rest => .ok ((p, v) :: rest)

/-- The points of a list that are members of cluster `i`. -/
def membersOf (part : Partition) (i : Nat) : List Point → Except PyErr (List Point)
  | [] => .ok []
  | p :: ps =>
    match part.isMember p i with
    | .error e => .error e
    | .ok b => match membersOf part i ps with
      | .error e => .error e
      | .ok rest => .ok (if b then p :: rest else rest)

/-- All `(index / y_len, index % y_len)` for the indices of the base iterator
— spta/region/base.py:82-101 (complete loop from a fresh cursor, see C07). -/
def allPoints (xLen yLen : Nat) : List Point :=
  (List.range (xLen * yLen)).map fun n => ⟨n / yLen, n % yLen⟩

/-- The items of a complete loop over the region, starting from a fresh cursor (the cursor itself
is modelled in `Verif.Model.Region`; C07 and C09 show that a complete loop yields these items):
plain region spta/region/temporal.py:30-51, scaled region (delegates to the decorated one)
spta/region/scaling.py:221-226, cluster spta/region/temporal.py:393-420. -/
def items : Stack K → Except PyErr (List (Point × List (Option K)))
  | plain c => itemsAt c.grid.get (allPoints c.grid.xLen c.grid.yLen)
  | scaled inner _ _ => inner.items
  | cluster inner part i =>
    match membersOf part i (allPoints inner.data.grid.xLen inner.data.grid.yLen) with
    | .error e => .error e
    | .ok ps => itemsAt (cluster inner part i).seriesAt ps

/-- `has_scaling()` — spta/region/temporal.py:146-150, 259-264, spta/region/scaling.py:153-157. -/
def hasScaling : Stack K → Bool
  | plain _ => false
  | scaled _ _ _ => true
  | cluster inner _ _ => inner.hasScaling

end Stack

/-- The loop of `apply_function_scalar` / `apply_function_series`
— spta/region/spatial.py:53-61, 85-91, with the function given as `function_at(point)(value)`. -/
def applyWith {α β : Type} (f : Point → α → Except PyErr β) :
    List (Point × α) → Grid β → Except PyErr (Grid β)
  | [], acc => .ok acc
  | (p, v) :: rest, acc =>
    match f p v with
    | .error e => .error e
    | .ok b =>
      match acc.set p b with
      | .error e => .error e
      | .ok acc' => applyWith f rest acc'

/-- `region.apply_function_series(function, output_len)` on any stack
— spta/region/spatial.py:67-95: zeros at the points that are not iterated. -/
def Stack.applySeries (s : Stack K) (f : Point → List (Option K) → Except PyErr (List (Option K)))
    (outLen : Nat) : Except PyErr (Stack K) :=
  match s.items with
  | .error e => .error e
  | .ok items =>
    match applyWith f items (Grid.const s.data.grid.xLen s.data.grid.yLen
        (List.replicate outLen (some 0))) with
    | .error e => .error e
    | .ok g => .ok (s.new ⟨outLen, g⟩)

/-- `region.apply_function_scalar(function)` on any stack — spta/region/spatial.py:32-65. -/
def Stack.applyScalar (s : Stack K) (f : Point → List (Option K) → Except PyErr (Option K)) :
    Except PyErr (SpStack (Option K)) :=
  match s.items with
  | .error e => .error e
  | .ok items =>
    match applyWith f items (Grid.const s.data.grid.xLen s.data.grid.yLen (some 0)) with
    | .error e => .error e
    | .ok g => .ok (s.newSpatial g)

/-- `np.nanmin(series)`: ValueError for an empty series, NaN when all values are NaN. -/
def nanMin (s : List (Option K)) : Except PyErr (Option K) :=
  if s = [] then .error .valueError else .ok ((s.filterMap id).min?)

/-- `np.nanmax(series)`. -/
def nanMax (s : List (Option K)) : Except PyErr (Option K) :=
  if s = [] then .error .valueError else .ok ((s.filterMap id).max?)

/-- `scale_this_point(series)` — spta/region/scaling.py:41-51. -/
def scaleSeries (n : Nat) (lo hi : Option K) (s : List (Option K)) : List (Option K) :=
  match lo, hi with
  | some a, some b =>
    if a = b then List.replicate n (some 0)
    else s.map fun v => v.map fun x => (x - a) / (b - a)
  | _, _ => List.replicate n none

/-- `function_at(point)` of `ScaleFunction` — spta/region/scaling.py:34-54; `n` is
`self.series_len`. -/
def scaleAt (n : Nat) (smin smax : SpStack (Option K)) (p : Point) (s : List (Option K)) :
    Except PyErr (List (Option K)) :=
  match smin.valueAt p with
  | .error e => .error e
  | .ok lo => match smax.valueAt p with
    | .error e => .error e
    | .ok hi => .ok (scaleSeries n lo hi s)

/-- `ScaleFunction.apply_to(spt_region, output_len)` — spta/region/scaling.py:56-85. -/
def scaleApply (s : Stack K) (outLen : Nat) : Except PyErr (Stack K) :=
  if s.data.tLen = outLen then
    match s.applyScalar (fun _ => nanMin) with
    | .error e => .error e
    | .ok smin =>
      match s.applyScalar (fun _ => nanMax) with
      | .error e => .error e
      | .ok smax =>
        match s.applySeries (scaleAt s.data.tLen smin smax) outLen with
        | .error e => .error e
        | .ok r => .ok (.scaled r smin smax)
  else .error .assertionError

/-- `(max_for_point - min_for_point) * series + min_for_point` with NaN propagation
— spta/region/scaling.py:182-184. -/
def descaleSeries (lo hi : Option K) (s : List (Option K)) : List (Option K) :=
  s.map fun v => match lo, hi, v with
    | some a, some b, some x => some ((b - a) * x + a)
    | _, _, _ => none

/-- `function_at(point)` of the `DescaleRegion` — spta/region/scaling.py:173-186. -/
def descaleAt (smin smax : SpStack (Option K)) (p : Point) (s : List (Option K)) :
    Except PyErr (List (Option K)) :=
  match smin.valueAt p with
  | .error e => .error e
  | .ok lo => match smax.valueAt p with
    | .error e => .error e
    | .ok hi => .ok (descaleSeries lo hi s)

/-- `descale()` — spta/region/temporal.py:152-158 (plain), spta/region/scaling.py:159-200 (scaled),
spta/region/temporal.py:266-283 (any other decorator, here the cluster). -/
def Stack.descale : Stack K → Except PyErr (Stack K)
  | .plain _ => .error .notImplementedError
  | .scaled inner smin smax =>
    match (Stack.scaled inner smin smax).applySeries (descaleAt smin smax) inner.data.tLen with
    | .error e => .error e
    | .ok descaled => .ok (inner.new descaled.data)
  | .cluster inner part i =>
    match inner.descale with
    | .error e => .error e
    | .ok d => .ok ((Stack.cluster inner part i).new d.data)

/-- `region_subset(region)` — spta/region/temporal.py:60-65 (plain), spta/region/scaling.py:134-151
(scaled), spta/region/temporal.py:336-338 (cluster). -/
def Stack.regionSubset : Stack K → Region → Except PyErr (Stack K)
  | .plain c, r => .ok (.plain (c.regionSlice r))
  | .scaled inner smin smax, r =>
    match inner.regionSubset r with
    | .error e => .error e
    | .ok sub => match smin.regionSubset r with
      | .error e => .error e
      | .ok smin' => match smax.regionSubset r with
        | .error e => .error e
        | .ok smax' => .ok (.scaled sub smin' smax')
  | .cluster _ _ _, _ => .error .notImplementedError

/-- `interval_subset(ti)` — spta/region/temporal.py:67-72 (plain and scaled, through
`new_spatio_temporal_region`), 340-355 (cluster). -/
def Stack.intervalSubset : Stack K → TimeInterval → Stack K
  | .plain c, ti => .plain (c.intervalSlice ti)
  | .scaled inner smin smax, ti =>
    (Stack.scaled inner smin smax).new (inner.data.intervalSlice ti)
  | .cluster inner part i, ti =>
    (Stack.cluster inner part i).new (inner.intervalSubset ti).data

/-- `subset(region, ti)` — spta/region/temporal.py:74-81 (inherited by every decorator). -/
def Stack.subset (s : Stack K) (r : Region) (ti : TimeInterval) : Stack K :=
  s.new (s.data.bothSlice r ti)

end Spta
