import Mathlib.Algebra.BigOperators.Group.List.Basic
import Mathlib.Order.Defs.LinearOrder
import Verif.Model.Region

/-!
# Model of spta/kmedoids/kmedoids.py

Distances are elements of a linearly ordered additive group `K`; NaN distances are not modelled.
`S` is the type of the series (a row of `X`).
-/

namespace Spta

variable {S K : Type}

/-- `Medoid = namedtuple('Medoid', ('index', 'series'))` — spta/kmedoids/__init__.py:4. -/
structure Medoid (S : Type) where
  index : Nat
  series : S
  deriving DecidableEq, Repr

/-- `get_medoid_indices(medoids)` — spta/kmedoids/__init__.py:7-12. -/
def getMedoidIndices (ms : List (Medoid S)) : List Nat := ms.map Medoid.index

/-- A distance measure: with a precomputed `distance_matrix`, or only `measure(series, series)`. -/
inductive Measure (S K : Type) where
  | matrix (m : Grid K)
  | function (measure : S → S → K)

/-- The medoids `(index, X[index])` for some indices; IndexError when out of range
— spta/kmedoids/kmedoids.py:38-45. -/
def medoidsAt (X : List S) (indices : List Nat) : Except PyErr (List (Medoid S)) :=
  indices.mapM fun i => match X[i]? with
    | some s => .ok ⟨i, s⟩
    | none => .error .indexError

/-- `choose_initial_medoids(X, k, random_seed, initial_indices)` — spta/kmedoids/kmedoids.py:30-45;
`outcome` is what `numpy.random.choice(len(X), size=k, replace=False)` would return for the seed.
It raises ValueError when there are not enough samples. -/
def chooseInitialMedoids (X : List S) (k : Nat) (outcome : List Nat)
    (initial : Option (List Nat)) : Except PyErr (List (Medoid S)) :=
  match initial with
  | some (i :: is) => medoidsAt X (i :: is)
  | _ => if k ≤ X.length then medoidsAt X outcome else .error .valueError

/-- The results of `_get_cost`. -/
structure CostResult (K : Type) where
  labels : List Nat
  costs : List K
  total : K
  distMat : List (List K)
  deriving DecidableEq, Repr

section

variable [AddCommGroup K] [LinearOrder K]

/-- `np.argmin` of the rest of a row, given the best position so far: the first minimum. -/
def argminFrom : List K → Nat → Nat → K → Nat
  | [], _, best, _ => best
  | x :: xs, pos, best, v => if x < v then argminFrom xs (pos + 1) pos x else
      argminFrom xs (pos + 1) best v

/-- `np.argmin` of a row; ValueError when it is empty. -/
def argmin : List K → Except PyErr Nat
  | [] => .error .valueError
  | x :: xs => .ok (argminFrom xs 1 0 x)

/-- The matrix `dist_mat` of `_get_cost`, one row per sample and one column per medoid
— spta/kmedoids/kmedoids.py:51-79. With a distance matrix it is the transposition of the rows of
the medoids. -/
def distMatOf (X : List S) (ms : List (Medoid S)) : Measure S K → Except PyErr (List (List K))
  | .matrix m => (List.range m.yLen).mapM fun i => ms.mapM fun md => m.get ⟨md.index, i⟩
  | .function f => .ok (X.mapIdx fun i x => ms.map fun md =>
      if i = md.index then 0 else f x md.series)

/-- `costs[j]`: the sum of column `j` over the members of cluster `j` (column `j < k` always
exists) — spta/kmedoids/kmedoids.py:87-92. -/
def clusterCost (labels : List Nat) (distMat : List (List K)) (j : Nat) : K :=
  ((labels.zip distMat).filterMap fun lr => if lr.1 = j then lr.2[j]? else none).sum

/-- `_get_cost(X, medoids, distance_measure)` — spta/kmedoids/kmedoids.py:48-99. -/
def getCost (X : List S) (ms : List (Medoid S)) (dm : Measure S K) :
    Except PyErr (CostResult K) :=
  match distMatOf X ms dm with
  | .error e => .error e
  | .ok distMat =>
    match distMat.mapM argmin with
    | .error e => .error e
    | .ok labels =>
      let costs := (List.range ms.length).map fun j => clusterCost labels distMat j
      .ok ⟨labels, costs, costs.sum, distMat⟩

/-- The `mode` of k-medoids; any other string leaves `candidate_generator` unbound. -/
inductive KmMode where
  | lite
  | robust
  | other
  deriving DecidableEq, Repr

/-- The candidate generators — spta/kmedoids/kmedoids.py:102-118, chosen at 135-138. They receive
the labels in force when the loop over the cluster starts. -/
def candidates (mode : KmMode) (nSamples : Nat) (labels : List Nat) (j : Nat) :
    Except PyErr (List Nat) :=
  match mode with
  | .lite => .ok ((List.range labels.length).filter fun i => labels[i]? == some j)
  | .robust => .ok (List.range nSamples)
  | .other => .error .unboundLocalError

/-- The variables of the main loop. `history` is not in the code: it records the medoids and total
costs that were ever in force, latest first. -/
structure KmState (S K : Type) where
  medoids : List (Medoid S)
  medoidIndices : List Nat
  cost : CostResult K
  swapped : Bool
  history : List (List Nat × K)
  deriving DecidableEq, Repr

/-- The body of the innermost loop: consider sample `i` as the medoid of cluster `j`
— spta/kmedoids/kmedoids.py:163-189. -/
def tryCandidate (X : List S) (dm : Measure S K) (tol : K) (j i : Nat) (st : KmState S K) :
    Except PyErr (KmState S K) :=
  if i ∈ st.medoidIndices then .ok st
  else
    match X[i]? with
    | none => .error .indexError
    | some x =>
      if j < st.medoids.length then
        let ms := st.medoids.set j ⟨i, x⟩
        match getCost X ms dm with
        | .error e => .error e
        | .ok c =>
          if st.cost.total - c.total > tol then
            .ok ⟨ms, getMedoidIndices ms, c, true, (getMedoidIndices ms, c.total) :: st.history⟩
          else .ok st
      else .error .indexError

/-- `for i in candidate_generator(...)` — spta/kmedoids/kmedoids.py:161-189. -/
def scanCandidates (X : List S) (dm : Measure S K) (tol : K) (j : Nat) :
    List Nat → KmState S K → Except PyErr (KmState S K)
  | [], st => .ok st
  | i :: is, st =>
    match tryCandidate X dm tol j i st with
    | .error e => .error e
    | .ok st' => scanCandidates X dm tol j is st'

/-- `for j in range(0, k)` — spta/kmedoids/kmedoids.py:151-189. -/
def scanClusters (X : List S) (dm : Measure S K) (mode : KmMode) (tol : K) :
    List Nat → KmState S K → Except PyErr (KmState S K)
  | [], st => .ok st
  | j :: js, st =>
    match candidates mode X.length st.cost.labels j with
    | .error e => .error e
    | .ok is =>
      match scanCandidates X dm tol j is st with
      | .error e => .error e
      | .ok st' => scanClusters X dm mode tol js st'

/-- `while True` with the counter `cc` — spta/kmedoids/kmedoids.py:140-201. Returns the last state
and the final counter; the number of passes is one more. -/
def kmLoop (X : List S) (k : Nat) (dm : Measure S K) (mode : KmMode) (maxIter : Nat) (tol : K)
    (cc : Nat) (st : KmState S K) : Except PyErr (KmState S K × Nat) :=
  match scanClusters X dm mode tol (List.range k)
      { st with swapped := false, medoidIndices := getMedoidIndices st.medoids } with
  | .error e => .error e
  | .ok st' =>
    if cc > maxIter then .ok (st', cc)
    else if !st'.swapped then .ok (st', cc)
    else kmLoop X k dm mode maxIter tol (cc + 1) st'
  termination_by maxIter + 1 - cc

/-- `KmedoidsResult` — spta/kmedoids/kmedoids.py:26-27, with the number of passes and the history
added. -/
structure KmResult (K : Type) where
  medoids : List Nat
  labels : List Nat
  costs : List K
  total : K
  distMat : List (List K)
  passes : Nat
  history : List (List Nat × K)
  deriving DecidableEq, Repr

/-- `show_report(result, elapsed_time)` — spta/kmedoids/kmedoids.py:217-239: it reads the size of
each of the `k` clusters from an array with one entry per label that occurs, and the `k` medoids. -/
def showReport (k : Nat) (r : KmResult K) : Except PyErr Unit :=
  if k ≤ r.labels.dedup.length ∧ k ≤ r.medoids.length then .ok () else .error .indexError

/-- `run_kmedoids(...)` — spta/kmedoids/kmedoids.py:121-214. -/
def runKmedoids (X : List S) (k : Nat) (dm : Measure S K) (initial : Option (List Nat))
    (outcome : List Nat) (mode : KmMode) (maxIter : Nat) (tol : K) (verbose : Bool) :
    Except PyErr (KmResult K) :=
  match chooseInitialMedoids X k outcome initial with
  | .error e => .error e
  | .ok ms =>
    match getCost X ms dm with
    | .error e => .error e
    | .ok c =>
      match kmLoop X k dm mode maxIter tol 0
          ⟨ms, getMedoidIndices ms, c, true, [(getMedoidIndices ms, c.total)]⟩ with
      | .error e => .error e
      | .ok (st, cc) =>
        let r : KmResult K := ⟨getMedoidIndices st.medoids, st.cost.labels, st.cost.costs,
          st.cost.total, st.cost.distMat, cc + 1, st.history⟩
        if verbose then
          match showReport k r with
          | .error e => .error e
          | .ok () => .ok r
        else .ok r

/-- `KmedoidsClusteringAlgorithm.partition_impl(spt_region, with_medoids=True)`
— spta/clustering/kmedoids.py:109-148; `X` is `as_2d`, the series in row-major order. Returns the
partition and its medoids. -/
def kmedoidsPartition (X : List S) (xLen yLen k : Nat) (dm : Measure S K)
    (initial : Option (List Nat)) (outcome : List Nat) (mode : KmMode) (maxIter : Nat) (tol : K)
    (verbose : Bool) : Except PyErr (Partition × List Point) :=
  match runKmedoids X k dm initial outcome mode maxIter tol verbose with
  | .error e => .error e
  | .ok r =>
    match Partition.fromMembershipArray r.labels xLen yLen with
    | .error e => .error e
    | .ok pt => .ok (pt, r.medoids.map fun n => ⟨n / yLen, n % yLen⟩)

end

end Spta
