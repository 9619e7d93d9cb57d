import Verif.Model.Distance
import Verif.Model.DistanceFiles
import Verif.Model.Extrema

/-!
# Model of the centroids of regions and clusters

`CalculateCentroid` in spta/region/centroid.py with the distance object, whose matrix is loaded in the first
step and kept, experiments/region/centroid.py, and the attribute `centroid` of regions and of their decorators
in spta/region/temporal.py. Logging is dropped.
-/

namespace Spta

/-! ### Calculation -/

section

variable {W : Type}

/-- The loop over the points — spta/region/centroid.py:38-45. `d` is the matrix of the distance object before,
`md` the file and the rectangle of the metadata of the region. The matrix is never calculated here, since
`only_if_precalculated` is true by default (spta/distance/__init__.py:92-93). -/
def rowsFrom (md : Option (MatrixFile W × Region)) (yLen : Nat) (indices : List Nat) (useMatrix : Bool) :
    List Point → Option (Grid W) → Except PyErr (List (Point × List W)) × Option (Grid W)
  | [], d => (.ok [], d)
  | p :: rest, d =>
    match distancesToPoint id loadMatrix2d (fun d => (.ok d, d)) md yLen p indices useMatrix true d with
    | (.error e, d') => (.error e, d')
    | (.ok ds, d') =>
      match rowsFrom md yLen indices useMatrix rest d' with
      | (.error e, d'') => (.error e, d'')
      | (.ok rows, d'') => (.ok ((p, ds) :: rows), d'')

variable {S V : Type} [AddCommMonoid V] [LinearOrder V] [OrderTop V]

/-- `CalculateCentroid(distance_measure, use_distance_matrix).find_centroid_and_distances(spt_region)` for a
region with the series `g` — spta/region/centroid.py:11-61. -/
def findCentroidWith (md : Option (MatrixFile (Option V) × Region)) (g : Grid S) (useMatrix : Bool)
    (d : Option (Grid (Option V))) :
    Except PyErr (Option (Point × List (Option V))) × Option (Grid (Option V)) :=
  match (RegionObj.new g).loop with
  | .error e => (.error e, d)
  | .ok (items, _) =>
    match rowsFrom md g.yLen (List.range (g.xLen * g.yLen)) useMatrix (items.map Prod.fst) d with
    | (.error e, d') => (.error e, d')
    | (.ok rows, d') => (.ok (centroidSearch rows), d')

/-- `CalculateCentroid.for_sptr_metadata(spt_region_metadata, distance_measure)` — spta/region/centroid.py:63-76,
called by experiments/region/centroid.py:35-45 with a new distance object. `region` is `create_instance()`, `d`
the matrix that the distance object has. The default distance object is created once, when the class is
defined: it keeps its matrix from one call to the next. -/
def forMetadata (region : RegionMeta → Except PyErr (Grid S)) (files : MatrixFiles (Option V)) (md : RegionMeta)
    (d : Option (Grid (Option V))) : Except PyErr (Option Point) × Option (Grid (Option V)) :=
  match region md with
  | .error e => (.error e, d)
  | .ok g =>
    match findCentroidWith (some (files (distancesPath md), md.region)) g true d with
    | (.error e, d') => (.error e, d')
    | (.ok res, d') => (.ok (res.map Prod.fst), d')

/-- Calls with the same distance object, one after the other; an exception does not end the session. -/
def forMetadataAll (region : RegionMeta → Except PyErr (Grid S)) (files : MatrixFiles (Option V)) :
    List RegionMeta → Option (Grid (Option V)) → List (Except PyErr (Option Point))
  | [], _ => []
  | md :: mds, d =>
    (forMetadata region files md d).1 :: forMetadataAll region files mds (forMetadata region files md d).2

end

/-! ### The attribute -/

/-- A spatio-temporal region as far as its centroid is concerned: a region, or a decorator (scaling, cluster)
around another one, each with its own attribute — spta/region/temporal.py:25, 223-232 -/
inductive Holder where
  | base (centroid : Option Point)
  | decorator (centroid : Option Point) (inner : Holder)
  deriving DecidableEq

/-- `self.centroid` -/
def Holder.own : Holder → Option Point
  | .base c => c
  | .decorator c _ => c

/-- `self.centroid = point` -/
def Holder.set (p : Option Point) : Holder → Holder
  | .base _ => .base p
  | .decorator _ h => .decorator p h

/-- `has_centroid()` — spta/region/temporal.py:115-119, 240-246. -/
def Holder.has : Holder → Bool
  | .base c => c.isSome
  | .decorator c h => if c.isSome then true else h.has

/-- `get_centroid(distance_measure)` — spta/region/temporal.py:101-113, 248-254; `measure` says whether a
distance measure is given. `CalculateCentroid` has no method `find_centroid_and_cost` (AttributeError). -/
def Holder.get (measure : Bool) : Holder → Except PyErr Point
  | .base (some p) => .ok p
  | .base none => if measure then .error .attributeError else .error .valueError
  | .decorator (some p) _ => .ok p
  | .decorator none h => h.get measure

/-- The clusters of `create_all_spt_clusters(spt_region, centroid_indices, medoids)` as far as their centroids
are concerned — spta/region/partition.py:159-198; `None` and an empty list of medoids or indices are treated
alike after the assertion. `yLen` is that of the partition (ZeroDivisionError if it is 0). -/
def clusterHolders (h : Holder) (k yLen : Nat) (indices : Option (List Nat)) (medoids : Option (List Point)) :
    Except PyErr (List Holder) :=
  if indices.isSome ∧ medoids.isSome then .error .assertionError
  else (List.range k).mapM fun i =>
    match indices.getD [] with
    | c :: cs =>
      match (c :: cs)[i]? with
      | none => .error .indexError
      | some n => if yLen = 0 then .error .zeroDivisionError
        else .ok (.decorator (some ⟨n / yLen, n % yLen⟩) h)
    | [] =>
      match medoids.getD [] with
      | m :: ms =>
        match (m :: ms)[i]? with
        | none => .error .indexError
        | some p => .ok (.decorator (some p) h)
      | [] => .ok (.decorator none h)

end Spta
