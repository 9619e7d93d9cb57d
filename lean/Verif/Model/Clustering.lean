import Verif.Model.Region
import Verif.Model.Strings

/-!
# Model of spta/clustering: metadata, representations, factory, partition cache and result CSV
-/

namespace Spta

/-- `'regular'` -/
def sRegular : Str := ['r', 'e', 'g', 'u', 'l', 'a', 'r']
/-- `'kmedoids'` -/
def sKmedoids : Str := ['k', 'm', 'e', 'd', 'o', 'i', 'd', 's']
/-- `'lite'` -/
def sLite : Str := ['l', 'i', 't', 'e']
/-- `'seed'` -/
def sSeed : Str := ['s', 'e', 'e', 'd']

/-- `KmedoidsClusteringMetadata` — spta/clustering/kmedoids.py:15-26; `tol` and `verbose` are left
out. -/
structure KmMeta where
  k : Int
  seed : Int := 1
  mode : Str := sLite
  initial : Option (List Int) := none
  maxIter : Nat := 1000
  deriving DecidableEq

/-- A clustering metadata: `RegularClusteringMetadata(k)` or `KmedoidsClusteringMetadata(...)`. -/
inductive ClusterMeta where
  | regular (k : Int)
  | kmedoids (m : KmMeta)
  deriving DecidableEq

/-- `metadata.name` -/
def ClusterMeta.name : ClusterMeta → Str
  | .regular _ => sRegular
  | .kmedoids _ => sKmedoids

/-- `metadata.k` -/
def ClusterMeta.k : ClusterMeta → Int
  | .regular k => k
  | .kmedoids m => m.k

/-- `__eq__` (and what `__hash__` is made of): name and k only — spta/clustering/__init__.py:62-66. -/
def ClusterMeta.pyEq (a b : ClusterMeta) : Bool := a.name = b.name && a.k = b.k

/-- `KmedoidsClusteringMetadata.__repr__` — spta/clustering/kmedoids.py:36-47. -/
def KmMeta.repr (m : KmMeta) : Str :=
  let r := sKmedoids ++ ['_', 'k'] ++ intStr m.k ++ ['_'] ++ sSeed ++ intStr m.seed ++ ['_'] ++ m.mode
  match m.initial with
  | none => r
  | some im => r ++ ['_', 'i', 'm'] ++ pyJoin ['-'] (im.map intStr)

/-- `__repr__` — spta/clustering/__init__.py:56-57 (regular), spta/clustering/kmedoids.py:36-47. -/
def ClusterMeta.repr : ClusterMeta → Str
  | .regular k => sRegular ++ ['_', 'k'] ++ intStr k
  | .kmedoids m => m.repr

/-- `RegularClusteringMetadata.from_repr` — spta/clustering/regular.py:22-34. -/
def regularFromRepr (s : Str) : Except PyErr ClusterMeta :=
  let parts := pySplit '_' s
  match listAt parts 0 with
  | .error e => .error e
  | .ok p0 =>
    if p0 ≠ sRegular then .error .assertionError
    else
      match listAt parts 1 with
      | .error e => .error e
      | .ok p1 =>
        match pyInt (p1.drop 1) with
        | .error e => .error e
        | .ok k => .ok (.regular k)

/-- `KmedoidsClusteringMetadata.from_repr` — spta/clustering/kmedoids.py:56-75. -/
def kmedoidsFromRepr (s : Str) : Except PyErr ClusterMeta :=
  let parts := pySplit '_' s
  match listAt parts 0 with
  | .error e => .error e
  | .ok p0 =>
    if p0 ≠ sKmedoids then .error .assertionError
    else
      match listAt parts 1 with
      | .error e => .error e
      | .ok p1 =>
        match pyInt (p1.drop 1) with
        | .error e => .error e
        | .ok k =>
          match listAt parts 2 with
          | .error e => .error e
          | .ok p2 =>
            match pyInt (p2.drop 4) with
            | .error e => .error e
            | .ok seed =>
              match listAt parts 3 with
              | .error e => .error e
              | .ok mode => .ok (.kmedoids { k := k, seed := seed, mode := mode })

/-- `ClusteringMetadataFactory.from_repr` — spta/clustering/factory.py:25-38. -/
def factoryFromRepr (s : Str) : Except PyErr ClusterMeta :=
  match listAt (pySplit '_' s) 0 with
  | .error e => .error e
  | .ok p0 =>
    if p0 = sRegular then regularFromRepr s
    else if p0 = sKmedoids then kmedoidsFromRepr s
    else .error .valueError

/-- `KmedoidsClusteringMetadata.from_classifier_label` — spta/clustering/kmedoids.py:77-88. -/
def fromClassifierLabel (label mode : Str) : Except PyErr ClusterMeta :=
  match pySplit '-' label with
  | [a, b, _] =>
    kmedoidsFromRepr (sKmedoids ++ ['_', 'k'] ++ a ++ ['_'] ++ sSeed ++ b ++ ['_'] ++ mode)
  | _ => .error .assertionError

/-! ### Partition cache -/

/-- `SpatioTemporalRegionMetadata` — spta/region/metadata.py:53-64, without `dataset_dir`. -/
structure RegionMeta where
  name : Str
  region : Region
  yearStart : Int
  yearEnd : Int
  spd : Int
  scaled : Bool
  deriving DecidableEq

/-- `'_scaled'` without the underscore. -/
def sScaled : Str := ['s', 'c', 'a', 'l', 'e', 'd']

/-- `__repr__` — spta/region/metadata.py:187-196. -/
def RegionMeta.repr (m : RegionMeta) : Str :=
  m.name ++ ['_'] ++ intStr m.yearStart ++ ['_'] ++ intStr m.yearEnd ++ ['_'] ++ intStr m.spd ++
    ['s', 'p', 'd'] ++ (if m.scaled then '_' :: sScaled else [])

/-- The distance measures that can be passed to a clustering algorithm; `weight` of
`DistanceBySpatialDTW` is an integer here. -/
inductive DistKind where
  | dtw
  | dtwParallel
  | spatial (weight : Int)
  deriving DecidableEq

/-- `__repr__`, inherited by the subclasses — spta/distance/dtw.py:125-129. -/
def DistKind.repr (_ : DistKind) : Str := ['d', 't', 'w']

/-- A call of `ClusteringAlgorithm.partition`. -/
structure PartitionRequest where
  md : Option RegionMeta
  dist : DistKind
  clustering : ClusterMeta
  withMedoids : Bool
  saveCsv : Bool
  pickleHome : Option Str
  deriving DecidableEq

/-- `'pickle'` -/
def sPickle : Str := ['p', 'i', 'c', 'k', 'l', 'e']

/-- `pickle_full_path(region_metadata)` — spta/clustering/__init__.py:250-259, with
`ClusteringMetadata.pickle_dir` (42-48), `clustering_subdir` (25-32),
`SpatioTemporalRegionMetadata.pickle_dir` (spta/region/metadata.py:174-178) and
`partition_pickle_filename` (81). The `pickle_home` of the request is not used. -/
def picklePath (md : RegionMeta) (dist : DistKind) (clustering : ClusterMeta) : Str :=
  osJoin (osJoin (osJoin sPickle md.repr) (osJoin dist.repr clustering.repr))
    (['p', 'a', 'r', 't', 'i', 't', 'i', 'o', 'n', '_'] ++ clustering.repr ++ ['.', 'p', 'k', 'l'])

/-- The saved partitions: what `pickle.load` returns for a path. Reading and writing files never
fails. -/
abbrev PickleStore (P : Type) := Str → Option P

/-- `ClusteringAlgorithm.partition(spt_region, with_medoids, save_csv_at, pickle_home)`
— spta/clustering/__init__.py:83-126; `compute` stands for loading the distance matrix and
`partition_impl` (lines 114-115). The content of the CSV is not modelled. -/
def cachedPartition {P : Type} (compute : PartitionRequest → Except PyErr P) (q : PartitionRequest)
    (store : PickleStore P) : Except PyErr P × PickleStore P :=
  let loaded : Option P :=
    match q.pickleHome, q.md with
    | some _, some md => store (picklePath md q.dist q.clustering)
    | _, _ => none
  match loaded with
  | some p => (.ok p, store)   -- a loaded partition comes with metadata, the CSV can be saved
  | none =>
    match compute q with
    | .error e => (.error e, store)
    | .ok p =>
      match q.md with
      | none =>
        if q.saveCsv || q.pickleHome.isSome then (.error .attributeError, store) else (.ok p, store)
      | some md =>
        if q.pickleHome.isSome then
          (.ok p, fun path => if path = picklePath md q.dist q.clustering then some p else store path)
        else (.ok p, store)

/-- The saved partitions after a history of requests. -/
def runRequests {P : Type} (compute : PartitionRequest → Except PyErr P) :
    List PartitionRequest → PickleStore P → PickleStore P
  | [], store => store
  | q :: qs, store => runRequests compute qs (cachedPartition compute q store).2

/-! ### Result CSV of a suite -/

/-- `medoids_to_absolute_coordinates(spt_region, medoid_indices)` — spta/kmedoids/__init__.py:23-42,
for a region with metadata of rectangle `r`. -/
def medoidsString (r : Region) : List Nat → Except PyErr Str
  | [] => .ok []
  | i :: is =>
    match indexToAbsolutePoint r i with
    | .error e => .error e
    | .ok p =>
      match medoidsString r is with
      | .error e => .error e
      | .ok rest => .ok (['('] ++ natStr p.x ++ [','] ++ natStr p.y ++ [')', ' '] ++ rest)

/-- One element of the medoids column — spta/clustering/suite.py:145-154. -/
def parsePoint (elem : Str) : Except PyErr (Int × Int) :=
  let pair := pySplit ',' (pySlice elem 1 (-1))
  match listAt pair 0 with
  | .error e => .error e
  | .ok a =>
    match pyInt a with
    | .error e => .error e
    | .ok x =>
      match listAt pair 1 with
      | .error e => .error e
      | .ok b =>
        match pyInt b with
        | .error e => .error e
        | .ok y => .ok (x, y)

/-- The medoids of one row — spta/clustering/suite.py:141-154. -/
def parseMedoids (column : Str) : Except PyErr (List (Int × Int)) :=
  (pySplit ' ' column).dropLast.mapM parsePoint

/-- `result[key] = value` for a dictionary kept in insertion order. -/
def dictSet {A B : Type} [DecidableEq A] (key : A) (value : B) : List (A × B) → List (A × B)
  | [] => [(key, value)]
  | (a, b) :: rest => if a = key then (a, value) :: rest else (a, b) :: dictSet key value rest

/-- The loop of `retrieve_suite_result_csv` over the rows — spta/clustering/suite.py:134-157. -/
def readSuiteRows : List Str → List (Str × List (Int × Int)) →
    Except PyErr (List (Str × List (Int × Int)))
  | [], result => .ok result
  | line :: lines, result =>
    match csvReadRow line with
    | .error e => .error e
    | .ok row =>
      match listAt row 0 with
      | .error e => .error e
      | .ok key =>
        match listAt row 2 with
        | .error e => .error e
        | .ok column =>
          match parseMedoids column with
          | .error e => .error e
          | .ok medoids => readSuiteRows lines (dictSet key medoids result)

/-- `retrieve_suite_result_csv` — spta/clustering/suite.py:102-159 on the lines of the file; a missing
file is a ValueError, an empty one ends with StopIteration (a ValueError here). -/
def retrieveSuiteResult (file : Option (List Str)) : Except PyErr (List (Str × List (Int × Int))) :=
  match file with
  | none => .error .valueError
  | some [] => .error .valueError
  | some (_ :: lines) => readSuiteRows lines []

end Spta
