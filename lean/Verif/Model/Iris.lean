import Mathlib.Algebra.Order.AbsoluteValue.Basic
import Verif.Model.KMedoids

/-!
# Model of the k-medoids script on the iris data and of its count of matches

spta/kmedoids/iris_kmedoid.py. A data point is the list of its coordinates, the exponent `p` a natural number,
`np.sum` and the norms are exact. The array of starting medoids shares no memory with the data (it is a copy
in `init_medoids`). Not modelled: the iris data, its scaling and PCA, plots and printing.
-/

namespace Spta

section

variable {K : Type} [Field K] [LinearOrder K]

/-- `np.linalg.norm(x - y, ord=p) ** p` — spta/kmedoids/iris_kmedoid.py:72-73. -/
def lpPower (p : Nat) (x y : List K) : K := ((x.zip y).map fun ab => |ab.1 - ab.2| ^ p).sum

/-- `compute_d_p(X, medoids, p)` — spta/kmedoids/iris_kmedoid.py:60-75. -/
def computeDp (p : Nat) (data medoids : List (List K)) : List (List K) :=
  data.map fun x => medoids.map fun m => lpPower p x m

/-- `np.sum(compute_d_p(points, m, p))` for one point — spta/kmedoids/iris_kmedoid.py:95, 101. -/
def dissimilarity (p : Nat) (points : List (List K)) (m : List K) : K :=
  ((computeDp p points [m]).map List.sum).sum

/-- `assign_labels(S)` — spta/kmedoids/iris_kmedoid.py:81-82. -/
def assignLabels (s : List (List K)) : Except PyErr (List Nat) := s.mapM argmin

/-- The loop over the points of a cluster — spta/kmedoids/iris_kmedoid.py:99-106: the current threshold and the
row of `out_medoids`. -/
def betterMedoid (p : Nat) (points : List (List K)) : List (List K) → K → List K → List K
  | [], _, current => current
  | x :: rest, threshold, current =>
    if dissimilarity p points x < threshold then betterMedoid p points rest (dissimilarity p points x) x
    else betterMedoid p points rest threshold current

/-- `points[labels == i]` — spta/kmedoids/iris_kmedoid.py:97. -/
def labelled (points : List (List K)) (labels : List Nat) (i : Nat) : List (List K) :=
  ((points.zip labels).filter fun xl => xl.2 == i).map Prod.fst

/-- One round of the loop over the labels — spta/kmedoids/iris_kmedoid.py:93-106. `out_medoids` is the array
`medoids` itself. -/
def updateCluster (p : Nat) (points : List (List K)) (labels : List Nat) (medoids : List (List K)) (i : Nat) :
    Except PyErr (List (List K)) :=
  match medoids[i]? with
  | none => .error .indexError
  | some m => .ok (medoids.set i (betterMedoid p points (labelled points labels i) (dissimilarity p points m) m))

/-- The loop over the labels, in the order in which the set is iterated. -/
def updateClusters (p : Nat) (points : List (List K)) (labels : List Nat) :
    List Nat → List (List K) → Except PyErr (List (List K))
  | [], medoids => .ok medoids
  | i :: rest, medoids =>
    match updateCluster p points labels medoids i with
    | .error e => .error e
    | .ok medoids' => updateClusters p points labels rest medoids'

/-- `update_medoids(X, medoids, p)` — spta/kmedoids/iris_kmedoid.py:86-108. The argument `X` is not used, but the
global variable `points`. `order` lists the elements of a set. -/
def updateMedoids (order : List Nat → List Nat) (p : Nat) (points : List (List K)) (_data : List (List K))
    (medoids : List (List K)) : Except PyErr (List (List K)) :=
  match assignLabels (computeDp p points medoids) with
  | .error e => .error e
  | .ok labels => updateClusters p points labels (order labels) medoids

/-- `has_converged(old_medoids, medoids)` — spta/kmedoids/iris_kmedoid.py:110-111. -/
def hasConverged (old new : List (List K)) : Bool :=
  old.all (fun m => new.contains m) && new.all (fun m => old.contains m)

/-- The loop of `kmedoids` — spta/kmedoids/iris_kmedoid.py:121-134: `steps` is the number of rounds that are
still allowed by `max_steps`. Returns the medoids, the labels and whether the loop ended by convergence. -/
def irisLoop (order : List Nat → List Nat) (p : Nat) (points data : List (List K)) :
    Nat → List (List K) → List Nat → Except PyErr (List (List K) × List Nat × Bool)
  | 0, medoids, labels => .ok (medoids, labels, false)
  | steps + 1, medoids, _ =>
    match assignLabels (computeDp p data medoids) with
    | .error e => .error e
    | .ok labels =>
      match updateMedoids order p points data medoids with
      | .error e => .error e
      | .ok medoids' =>
        if hasConverged medoids medoids' then .ok (medoids', labels, true)
        else irisLoop order p points data steps medoids' labels

/-- `kmedoids(X, k, p, starting_medoids, max_steps)` — spta/kmedoids/iris_kmedoid.py:114-134, with given starting
medoids. With `max_steps=np.inf` the result is that of every large enough number of steps. -/
def irisKmedoids (order : List Nat → List Nat) (p : Nat) (points data start : List (List K)) (maxSteps : Nat) :
    Except PyErr (List (List K) × List Nat × Bool) :=
  irisLoop order p points data maxSteps start (data.map fun _ => 0)

/-- `init_medoids(X, k)` — spta/kmedoids/iris_kmedoid.py:50-56; `samples` is the outcome of `choice`, that raises
ValueError if there are fewer than `k` points. -/
def initMedoids (data : List (List K)) (k : Nat) (samples : List Nat) : Except PyErr (List (List K)) :=
  if data.length < k then .error .valueError
  else samples.mapM fun i => match data[i]? with
    | none => .error .indexError
    | some x => .ok x

end

/-! ### Matches of labels -/

/-- `mark_matches(a, b, exact)` — spta/kmedoids/iris_kmedoid.py:141-173, for arrays of one dimension with
non-negative labels. -/
def markMatches (a b : List Nat) (exact : Bool) : Except PyErr (List Bool) :=
  if a.length ≠ b.length then .error .assertionError
  else if a.any (fun l => 2 < l) then .error .assertionError
  else if b.any (fun l => 2 < l) then .error .assertionError
  else
    let matches_ := (a.zip b).map fun ab => ab.1 == ab.2
    if exact then .ok matches_
    else if a.length ≤ 2 * matches_.count true then .ok matches_
    else .ok (matches_.map (!·))

/-- `count_matches(a, b, exact)` — spta/kmedoids/iris_kmedoid.py:175-191. -/
def countMatches (a b : List Nat) (exact : Bool) : Except PyErr Nat :=
  match markMatches a b exact with
  | .error e => .error e
  | .ok m => .ok (m.count true)

end Spta
