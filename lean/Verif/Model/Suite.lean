import Mathlib.Algebra.Order.Field.Basic
import Mathlib.Data.List.Sort
import Verif.Model.Clustering

/-!
# Model of spta/clustering/suite.py: suites, their organisation by seed, and elbows
-/

namespace Spta

/-- The `random_seed` parameter of a suite: not given, a single integer, or a list. -/
inductive SeedParam where
  | absent
  | single (s : Int)
  | many (l : List Int)

/-- `random_seeds` of `__create_metadata_instances` — spta/clustering/suite.py:76-84. -/
def SeedParam.seeds : SeedParam → List Int
  | .absent => [1]
  | .single s => [s]
  | .many l => l

/-- `parameter_combinations` of a suite; `k` is required. The remaining parameters of k-medoids with
their default values. -/
structure SuiteParams where
  ks : Option (List Int)
  seeds : SeedParam := .absent
  mode : Str := sLite
  initial : Option (List Int) := none
  maxIter : Nat := 1000

/-- `ClusteringMetadataFactory.instance(name, k, **params)` — spta/clustering/factory.py:10-23. -/
def factoryInstance (name : Str) (k seed : Int) (p : SuiteParams) : Except PyErr ClusterMeta :=
  if name = sRegular then .ok (.regular k)
  else if name = sKmedoids then .ok (.kmedoids ⟨k, seed, p.mode, p.initial, p.maxIter⟩)
  else .error .valueError

/-- The inner loop — spta/clustering/suite.py:91-98. -/
def suiteInner (name : Str) (p : SuiteParams) (k : Int) :
    List Int → List ClusterMeta → Except PyErr (List ClusterMeta)
  | [], instances => .ok instances
  | seed :: seeds, instances =>
    match factoryInstance name k seed p with
    | .error e => .error e
    | .ok m => suiteInner name p k seeds (instances ++ [m])

/-- The outer loop — spta/clustering/suite.py:90. -/
def suiteOuter (name : Str) (p : SuiteParams) :
    List Int → List ClusterMeta → Except PyErr (List ClusterMeta)
  | [], instances => .ok instances
  | k :: ks, instances =>
    match suiteInner name p k p.seeds.seeds instances with
    | .error e => .error e
    | .ok instances => suiteOuter name p ks instances

/-- `ClusteringSuite(identifier, metadata_name, **parameter_combinations).metadatas`
— spta/clustering/suite.py:56-100. -/
def createSuite (name : Str) (p : SuiteParams) : Except PyErr (List ClusterMeta) :=
  match p.ks with
  | none => .error .keyError
  | some ks => suiteOuter name p ks []

/-- `kmedoids_suite_metadata(k_values, seed_values, ...)` — spta/kmedoids/kmedoids.py:255-265: the
values yielded, in order. -/
def kmedoidsSuiteMetadata (ks seeds : List Int) (mode : Str) (initial : Option (List Int))
    (maxIter : Nat) : List KmMeta :=
  ks.flatMap fun k => seeds.map fun seed => ⟨k, seed, mode, initial, maxIter⟩

/-! ### Organisation by seed -/

/-- `metadata.random_seed`; regular metadata have no such attribute. -/
def ClusterMeta.randomSeed : ClusterMeta → Except PyErr Int
  | .regular _ => .error .attributeError
  | .kmedoids m => .ok m.seed

/-- `if seed not in d: d[seed] = []`, `d[seed].append(m)` — spta/clustering/suite.py:246-249. -/
def groupInsert (seed : Int) (m : ClusterMeta) :
    List (Int × List ClusterMeta) → List (Int × List ClusterMeta)
  | [] => [(seed, [m])]
  | (s, ms) :: rest =>
    if s = seed then (s, ms ++ [m]) :: rest else (s, ms) :: groupInsert seed m rest

/-- The first loop — spta/clustering/suite.py:243-249. -/
def groupBySeed : List ClusterMeta → List (Int × List ClusterMeta) →
    Except PyErr (List (Int × List ClusterMeta))
  | [], d => .ok d
  | m :: ms, d =>
    match m.randomSeed with
    | .error e => .error e
    | .ok seed => groupBySeed ms (groupInsert seed m d)

/-- `sorted(metadatas, key=attrgetter('k'))`: a stable sort. -/
def sortByK (ms : List ClusterMeta) : List ClusterMeta :=
  ms.insertionSort fun a b => a.k ≤ b.k

/-- `OrganizeClusteringSuite.organize_kmedoids_suite` — spta/clustering/suite.py:234-258: the
dictionary in insertion order. -/
def organizeSuite (suite : List ClusterMeta) : Except PyErr (List (Int × List ClusterMeta)) :=
  match groupBySeed suite [] with
  | .error e => .error e
  | .ok d => .ok (d.map fun e => (e.1, sortByK e.2))

/-! ### Elbow -/

section

variable {P K : Type}

/-- `d[metadata] = value`: keys that compare equal are the same key, the first one is kept. -/
def metaDictSet (key : ClusterMeta) (value : P) : List (ClusterMeta × P) → List (ClusterMeta × P)
  | [] => [(key, value)]
  | (a, b) :: rest =>
    if a.pyEq key then (a, value) :: rest else (a, b) :: metaDictSet key value rest

/-- `d[metadata]` -/
def metaDictGet (key : ClusterMeta) : List (ClusterMeta × P) → Except PyErr P
  | [] => .error .keyError
  | (a, b) :: rest => if a.pyEq key then .ok b else metaDictGet key rest

/-- `get_all_partitions` — spta/clustering/suite.py:298-315; `partitionOf` stands for asking the
clustering algorithm for its partition (see `cachedPartition`). -/
def allPartitions (partitionOf : ClusterMeta → Except PyErr P) : List ClusterMeta →
    List (ClusterMeta × P) → Except PyErr (List (ClusterMeta × P))
  | [], d => .ok d
  | m :: ms, d =>
    match partitionOf m with
    | .error e => .error e
    | .ok p => allPartitions partitionOf ms (metaDictSet m p d)

/-- `get_all_intra_cluster_costs` — spta/clustering/suite.py:317-328; `costOf` stands for
`intra_cluster_cost`. -/
def allCosts (costOf : P → Except PyErr K) : List (ClusterMeta × P) →
    List (ClusterMeta × K) → Except PyErr (List (ClusterMeta × K))
  | [], d => .ok d
  | (m, p) :: rest, d =>
    match costOf p with
    | .error e => .error e
    | .ok c => allCosts costOf rest (metaDictSet m c d)

variable [Field K] [LinearOrder K] [IsStrictOrderedRing K]

/-- The estimated second derivative from three points — spta/clustering/suite.py:355-361; `none` is NaN. The
denominators are integers, a zero one is a ZeroDivisionError. -/
def secondDerivative (p1 p2 p3 : Int × Option K) : Except PyErr (Option K) :=
  let (x1, y1) := p1
  let (x2, y2) := p2
  let (x3, y3) := p3
  if (x2 - x1) * (x3 - x1) = 0 then .error .zeroDivisionError
  else if (x3 - x2) * (x2 - x1) = 0 then .error .zeroDivisionError
  else if (x3 - x2) * (x3 - x1) = 0 then .error .zeroDivisionError
  else
    let coef1 : K := 2 / (((x2 - x1) * (x3 - x1) : Int) : K)
    let coef2 : K := -2 / (((x3 - x2) * (x2 - x1) : Int) : K)
    let coef3 : K := 2 / (((x3 - x2) * (x3 - x1) : Int) : K)
    match y1, y2, y3 with
    | some y1, some y2, some y3 => .ok (some (coef1 * y1 + coef2 * y2 + coef3 * y3))
    | _, _, _ => .ok none

/-- `second_derivative > highest_second_derivative` — spta/clustering/suite.py:367: the first is `none` for
NaN, the second is `none` for -inf. -/
def betterElbow (d highest : Option K) : Bool :=
  match d, highest with
  | none, _ => false
  | some _, none => true
  | some d, some h => decide (h < d)

/-- The loop `for i in range(1, len(ordered_k) - 1)` — spta/clustering/suite.py:350-369: the list holds
the points from `i - 1` on; `best` is the highest value (`none` is -inf) and its index. -/
def elbowLoop : List (Int × Option K) → Nat → Option K × Int → Except PyErr (Option K × Int)
  | p1 :: p2 :: p3 :: rest, i, best =>
    match secondDerivative p1 p2 p3 with
    | .error e => .error e
    | .ok d => elbowLoop (p2 :: p3 :: rest) (i + 1) (if betterElbow d best.1 then (d, (i : Int)) else best)
  | _, _, best => .ok best

/-- `find_cost_elbow_given_order` — spta/clustering/suite.py:330-372; a cost `none` is NaN. Infinite costs are
not modelled. -/
def findElbow (costs : List (ClusterMeta × Option K)) (ordered : List ClusterMeta) :
    Except PyErr ClusterMeta :=
  if costs.length ≠ ordered.length then .error .assertionError
  else if costs.length < 3 then .error .assertionError
  else
    match ordered.mapM fun m => metaDictGet m costs with
    | .error e => .error e
    | .ok ys =>
      match elbowLoop (List.zip (ordered.map ClusterMeta.k) ys) 1 (none, -1) with
      | .error e => .error e
      | .ok best => listAtInt ordered best.2

/-- The loop of `find_cost_elbow_for_each_kmedoids_seed` — spta/clustering/suite.py:385-398. The
dictionary for the seed is built (and may raise KeyError) but not used. -/
def elbowsLoop (costs : List (ClusterMeta × Option K)) : List (Int × List ClusterMeta) →
    Except PyErr (List (Int × ClusterMeta))
  | [] => .ok []
  | (seed, ordered) :: rest =>
    match ordered.mapM fun m => metaDictGet m costs with
    | .error e => .error e
    | .ok _ =>
      match findElbow costs ordered with
      | .error e => .error e
      | .ok elbow =>
        match elbowsLoop costs rest with
        | .error e => .error e
        | .ok es => .ok ((seed, elbow) :: es)

/-- `find_cost_elbow_for_each_kmedoids_seed` — spta/clustering/suite.py:374-400. -/
def elbowsBySeed (suite : List ClusterMeta) (costs : List (ClusterMeta × Option K)) :
    Except PyErr (List (Int × ClusterMeta)) :=
  match organizeSuite suite with
  | .error e => .error e
  | .ok d => elbowsLoop costs d

/-- `calculate_elbows_kmedoids` — spta/clustering/suite.py:276-296. -/
def calculateElbows (partitionOf : ClusterMeta → Except PyErr P) (costOf : P → Except PyErr (Option K))
    (suite : List ClusterMeta) : Except PyErr (List (Int × ClusterMeta)) :=
  match allPartitions partitionOf suite [] with
  | .error e => .error e
  | .ok parts =>
    match allCosts costOf parts [] with
    | .error e => .error e
    | .ok costs => elbowsBySeed suite costs

end

end Spta
