import Verif.Model.Solver
import Verif.Model.Clustering

/-!
# Model of the results of prediction queries

spta/solver/result.py; Model/CsvText has the text of the files and the lines for the screen, Model/SolverFiles the
file names. A number that the code formats (`'{:.3f}'.format(..)`) is kept as a number. The decorator pattern of
the code becomes recursion on the kind of result.
-/

namespace Spta

variable {K : Type} [Field K] [LinearOrder K]

/-- The data that every result holds — spta/solver/result.py:30-56: the rectangle of the region
metadata, the number of test samples, forecasts and errors of the prediction region, the prediction
region and the complete spatio-temporal region. -/
structure ResultBase (K : Type) where
  mdRegion : Region
  testLen : Nat
  forecast : Stack K
  errors : SpStack (ErrorVal K)
  prediction : Region
  spt : Stack K

/-- The kinds of results: `InSampleResult`, `OutOfSampleResult` and the decorators
`ResultWithPartition` and `ResultFromClassifier` — spta/solver/result.py:239, 320, 363, 591. The
partition comes with its medoids and the metadata of its clustering; the labels of the classifier are
a dictionary. -/
inductive Result (K : Type) where
  | inSample (base : ResultBase K) (test : Stack K)
  | outOfSample (base : ResultBase K)
  | withPartition (decorated : Result K) (pt : Partition) (medoids : Option (List Point))
      (clustering : ClusterMeta)
  | fromClassifier (decorated : Result K) (suite : Str) (labels : List (Point × Str))

/-- A point with integer coordinates: what a coordinate conversion may give. -/
structure IPoint where
  x : Int
  y : Int
  deriving DecidableEq, Repr

/-- A cell of an output row. -/
inductive Cell (K : Type) where
  | coords (p : Point)
  | number (v : Option K)
  | errorValue (v : ErrorVal K)
  | series (s : List (Option K))
  | index (i : Int)
  | text (s : Str)
  deriving DecidableEq

namespace Result

/-- The attributes that the decorators copy from the decorated result
— spta/solver/result.py:371-377, 599-605. -/
def base : Result K → ResultBase K
  | inSample b _ => b
  | outOfSample b => b
  | withPartition d _ _ _ => d.base
  | fromClassifier d _ _ => d.base

/-- `to_domain_coordinates(relative_point)` — spta/solver/result.py:148-149, with the offset of line
52. -/
def toDomain (r : Result K) (p : Point) : Point := ⟨p.x + r.base.prediction.x1, p.y + r.base.prediction.y1⟩

/-- `to_relative_coordinates(domain_point)` — spta/solver/result.py:151-152. -/
def toRelative (r : Result K) (p : Point) : IPoint :=
  ⟨(p.x : Int) - (r.base.prediction.x1 : Int), (p.y : Int) - (r.base.prediction.y1 : Int)⟩

/-- `absolute_coordinates_of(domain_point)` — spta/solver/result.py:154-160. -/
def absolute (r : Result K) (p : Point) : Point := absolutePosition r.base.mdRegion p

/-- `cluster_index_of(domain_point)` — spta/solver/result.py:407-412. -/
def clusterIndexOf (pt : Partition) (p : Point) : Except PyErr Nat :=
  match pt.membershipOfPoints [p] with
  | .error e => .error e
  | .ok (l :: _) => .ok l
  | .ok [] => .error .indexError

/-- `dictionary[key]` -/
def dictGet {A B : Type} [DecidableEq A] (key : A) : List (A × B) → Except PyErr B
  | [] => .error .keyError
  | (a, b) :: rest => if a = key then .ok b else dictGet key rest

/-- `list.insert(1, v)` -/
def insertSecond {A : Type} (v : A) : List A → List A
  | [] => [v]
  | a :: rest => a :: v :: rest

/-- `result_header()` — spta/solver/result.py:87-92, 298-306, 414-421, 637-644. -/
def header : Result K → List String
  | inSample _ _ => ["Point", "error", "forecast_series"] ++ ["test_series"]
  | outOfSample _ => ["Point", "error", "forecast_series"]
  | withPartition d _ _ _ => insertSecond "cluster_index" d.header
  | fromClassifier d _ _ => insertSecond "label" d.header

/-- `PredictionQueryResult.result_tuple_for_point(relative_point)` — spta/solver/result.py:94-113. -/
def baseTuple (r : Result K) (p : Point) : Except PyErr (List (Cell K)) :=
  match r.base.errors.valueAt p with
  | .error e => .error e
  | .ok err =>
    match r.base.forecast.seriesAt p with
    | .error e => .error e
    | .ok f => .ok [.coords (r.absolute (r.toDomain p)), .errorValue err, .series f]

/-- `result_tuple_for_point(relative_point)` — spta/solver/result.py:94-113, 308-317, 423-438,
646-657. -/
def tuple : Result K → Point → Except PyErr (List (Cell K))
  | inSample b test, p =>
    match (inSample b test).baseTuple p with
    | .error e => .error e
    | .ok t =>
      match test.seriesAt p with
      | .error e => .error e
      | .ok s => .ok (t ++ [.series s])
  | outOfSample b, p => (outOfSample b).baseTuple p
  | withPartition d pt ms cl, p =>
    match d.tuple p with
    | .error e => .error e
    | .ok t =>
      match clusterIndexOf pt ((withPartition d pt ms cl).toDomain p) with
      | .error e => .error e
      | .ok i => .ok (insertSecond (.index i) t)
  | fromClassifier d _ labels, p =>
    match d.tuple p with
    | .error e => .error e
    | .ok t =>
      match dictGet p labels with
      | .error e => .error e
      | .ok l => .ok (insertSecond (.text l) t)

/-- The points of a complete loop over the result, a `BaseRegion` with the array of the forecasts
— spta/solver/result.py:36, spta/region/base.py:82-101. -/
def points (r : Result K) : List Point :=
  Stack.allPoints r.base.forecast.data.grid.xLen r.base.forecast.data.grid.yLen

/-- The rows that `write_prediction_results` writes after the header
— spta/solver/result.py:207-210. -/
def rows (r : Result K) : Except PyErr (List (List (Cell K))) := r.points.mapM r.tuple

/-- `as_dict()` of the clustering metadata — spta/clustering/kmedoids.py:28-34,
spta/clustering/regular.py:17-21. -/
def clusteringDict : ClusterMeta → List (String × Cell K)
  | .kmedoids m => [("type", .text sKmedoids), ("k", .index m.k), ("seed", .index m.seed),
      ("mode", .text m.mode)]
  | .regular k => [("type", .text sRegular), ("k", .index k)]

/-- `summary_generalization_mse()` — spta/solver/result.py:136-146. -/
def summaryMse (r : Result K) : Except PyErr (ErrorVal K) :=
  match r.points.mapM r.base.errors.valueAt with
  | .error e => .error e
  | .ok errs => .ok (errorMeanSquared errs)

/-- The combined distance of a medoid to the test series of the prediction region
— spta/solver/result.py:557-574; the distance measure and its `combine` are parameters. -/
def medoidDistance (measure : List (Option K) → List (Option K) → Option K)
    (combine : List (Option K) → Option K) (test : Stack K) (series : List (List (Option K)))
    (medoid : Point) : Except PyErr (Option K) :=
  match test.seriesAt medoid with
  | .error e => .error e
  | .ok s => .ok (combine (series.map (measure s)))

/-- `summary_distances_between_region_and_medoids()` — spta/solver/result.py:511-582; `root` is
`x ** 0.5`. -/
def summaryDistances (measure : List (Option K) → List (Option K) → Option K)
    (combine : List (Option K) → Option K) (root : Option K → Option K)
    (r : Result K) (pt : Partition) (medoids : Option (List Point)) : Except PyErr (Option K) :=
  match pt.medoidsIntersecting medoids r.base.prediction with
  | .error e => .error e
  | .ok relevant =>
    let test := (splitLast r.base.spt r.base.testLen).2
    match test.regionSubset r.base.prediction with
    | .error e => .error e
    | .ok sub =>
      match sub.items with
      | .error e => .error e
      | .ok items =>
        match relevant.mapM (medoidDistance measure combine test (items.map (·.2))) with
        | .error e => .error e
        | .ok ds => .ok (root (meanSquared ds))

/-- `summary_header()` — spta/solver/result.py:115-120, 440-459, 659-669. -/
def summaryHeader : Result K → List String
  | inSample _ _ => ["tp", "mse"]
  | outOfSample _ => ["tp", "mse"]
  | withPartition d _ _ cl =>
    (clusteringDict (K := K) cl).map (·.1) ++ ["clusters"] ++ ["dtw_r_m"] ++ d.summaryHeader
  | fromClassifier d _ _ => ["suite"] ++ d.summaryHeader

/-- `PredictionQueryResult.summary_tuple()` — spta/solver/result.py:122-134. -/
def baseSummary (r : Result K) : Except PyErr (List (Cell K)) :=
  match r.summaryMse with
  | .error e => .error e
  | .ok m => .ok [.index r.base.testLen, .errorValue m]

/-- `summary_tuple()` — spta/solver/result.py:122-134, 461-485, 671-681. -/
def summaryTuple (measure : List (Option K) → List (Option K) → Option K)
    (combine : List (Option K) → Option K) (root : Option K → Option K) :
    Result K → Except PyErr (List (Cell K))
  | inSample b t => (inSample b t).baseSummary
  | outOfSample b => (outOfSample b).baseSummary
  | withPartition d pt ms cl =>
    match pt.clustersIntersecting d.base.prediction with
    | .error e => .error e
    | .ok unique =>
      match summaryDistances measure combine root (withPartition d pt ms cl) pt ms with
      | .error e => .error e
      | .ok dist =>
        match d.summaryTuple measure combine root with
        | .error e => .error e
        | .ok rest =>
          .ok ((clusteringDict cl).map (·.2) ++ [.index unique.length] ++ [.number dist] ++ rest)
  | fromClassifier d suite _ =>
    match d.summaryTuple measure combine root with
    | .error e => .error e
    | .ok rest => .ok ([.text suite] ++ rest)

/-- `PredictionQueryResultBuilder` — spta/solver/result.py:684-710: out-of-sample results have no test
region. -/
def build (b : ResultBase K) (test : Stack K) (isOutOfSample : Bool) : Result K :=
  if isOutOfSample then outOfSample b else inSample b test

end Result

end Spta
