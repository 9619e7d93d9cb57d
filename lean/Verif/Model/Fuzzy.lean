import Mathlib.Algebra.Field.Defs
import Mathlib.Algebra.Order.Group.Unbundled.Abs
import Verif.Model.KMedoids
import Verif.Model.Scaling

/-!
# Model of spta/kmedoids/kmedoids_fuzzy.py and of the fuzzy mask (spta/region/mask.py)
-/

namespace Spta

/-- A non-negative float as it occurs in the membership computation: finite, `inf` or `nan`. -/
inductive FVal (K : Type) where
  | fin (x : K)
  | inf
  | nan
  deriving DecidableEq, Repr

namespace FVal

variable {K : Type} [Field K] [LinearOrder K]

/-- `1 / r` for a distance `r ≥ 0`. -/
def recip (r : K) : FVal K := if r = 0 then inf else fin (1 / r)

/-- `np.power(x, e)` for an exponent `e > 0`; `pw` is the power on finite numbers. -/
def pow (pw : K → K) : FVal K → FVal K
  | fin x => fin (pw x)
  | inf => inf
  | nan => nan

/-- Addition (no negative infinities here). -/
def add : FVal K → FVal K → FVal K
  | fin x, fin y => fin (x + y)
  | nan, _ => nan
  | _, nan => nan
  | _, _ => inf

/-- Division of non-negative floats. -/
def div : FVal K → FVal K → FVal K
  | nan, _ => nan
  | _, nan => nan
  | inf, inf => nan
  | inf, fin _ => inf
  | fin _, inf => fin 0
  | fin x, fin y => if y = 0 then (if x = 0 then nan else inf) else fin (x / y)

/-- Multiplication of non-negative floats. -/
def mul : FVal K → FVal K → FVal K
  | nan, _ => nan
  | _, nan => nan
  | inf, inf => inf
  | inf, fin y => if y = 0 then nan else inf
  | fin x, inf => if x = 0 then nan else inf
  | fin x, fin y => fin (x * y)

/-- `np.sum`. -/
def sum (l : List (FVal K)) : FVal K := l.foldl add (fin 0)

/-- `a - b > tol`; false as soon as nan is involved. -/
def gtDiff (a b : FVal K) (tol : K) : Bool :=
  match a, b with
  | fin x, fin y => decide (x - y > tol)
  | inf, fin _ => true
  | _, _ => false

/-- `|a - 1| ≤ tol`, as checked by `np.testing.assert_allclose(a, 1, rtol=tol)`. -/
def closeToOne (a : FVal K) (tol : K) : Bool :=
  match a with
  | fin x => decide (|x - 1| ≤ tol)
  | _ => false

end FVal

section

variable {S K : Type} [Field K] [LinearOrder K]

/-- What `compute_membership_fcm` returns (without the distances). -/
structure FcmResult (K : Type) where
  uij : List (List (FVal K))
  costs : List (FVal K)
  total : FVal K
  deriving DecidableEq, Repr

/-- The memberships of one sample: `power / denominator`, except 1 in the cluster whose medoid it
is — spta/kmedoids/kmedoids_fuzzy.py:108-142, seen from one row. `row` are the distances of sample
`p` to the medoids. -/
def fcmRow (pw : K → K) (ms : List (Medoid S)) (p : Nat) (row : List K) : List (FVal K) :=
  let powers := row.map fun r => (FVal.recip r).pow pw
  let den := FVal.sum powers
  List.zipWith (fun md x => if p = md.index then FVal.fin 1 else FVal.div x den) ms powers

/-- One term of `uij[:, i] * dist_mat[:, i]` (column `i < k` always exists)
— spta/kmedoids/kmedoids_fuzzy.py:153. -/
def fcmWeighted (i : Nat) (u : List (FVal K)) (r : List K) : FVal K :=
  match u[i]?, r[i]? with
  | some a, some b => FVal.mul a (.fin b)
  | _, _ => .nan

/-- `compute_membership_fcm(X, m, medoids, distance_measure, tol)`
— spta/kmedoids/kmedoids_fuzzy.py:63-158; `pw x` is `x ** (1 / (m - 1))`. The distances are obtained
as in crisp k-medoids. -/
def computeMembershipFcm (X : List S) (pw : K → K) (ms : List (Medoid S)) (dm : Measure S K)
    (tol : K) : Except PyErr (FcmResult K) :=
  match distMatOf X ms dm with
  | .error e => .error e
  | .ok distMat =>
    if distMat.length = X.length then
      let uij := distMat.mapIdx fun p row => fcmRow pw ms p row
      if uij.all fun row => (FVal.sum row).closeToOne tol then
        let costs := (List.range ms.length).map fun i =>
          FVal.sum (List.zipWith (fcmWeighted i) uij distMat)
        .ok ⟨uij, costs, FVal.sum costs⟩
      else .error .assertionError
    else .error .valueError

/-- The variables of the main loop; `uij` is unbound until a swap is accepted. -/
structure FzState (S K : Type) where
  medoids : List (Medoid S)
  medoidIndices : List Nat
  uij : Option (List (List (FVal K)))
  costs : List (FVal K)
  total : FVal K
  swapped : Bool
  deriving DecidableEq, Repr

/-- The body of the inner loop — spta/kmedoids/kmedoids_fuzzy.py:191-217. -/
def fzTry (X : List S) (pw : K → K) (dm : Measure S K) (tol : K) (i j : Nat)
    (st : FzState S K) : Except PyErr (FzState S K) :=
  if i ∈ st.medoidIndices then .ok st
  else
    match X[i]? with
    | none => .error .indexError
    | some x =>
      if j < st.medoids.length then
        let ms := st.medoids.set j ⟨i, x⟩
        match computeMembershipFcm X pw ms dm tol with
        | .error e => .error e
        | .ok c =>
          if st.total.gtDiff c.total tol then
            .ok ⟨ms, getMedoidIndices ms, some c.uij, c.costs, c.total, true⟩
          else .ok st
      else .error .indexError

/-- `for j in range(0, k)` — spta/kmedoids/kmedoids_fuzzy.py:189-217. -/
def fzClusters (X : List S) (pw : K → K) (dm : Measure S K) (tol : K) (i : Nat) :
    List Nat → FzState S K → Except PyErr (FzState S K)
  | [], st => .ok st
  | j :: js, st =>
    match fzTry X pw dm tol i j st with
    | .error e => .error e
    | .ok st' => fzClusters X pw dm tol i js st'

/-- `for i in range(0, n_samples)` — spta/kmedoids/kmedoids_fuzzy.py:186-217. -/
def fzSamples (X : List S) (k : Nat) (pw : K → K) (dm : Measure S K) (tol : K) :
    List Nat → FzState S K → Except PyErr (FzState S K)
  | [], st => .ok st
  | i :: is, st =>
    match fzClusters X pw dm tol i (List.range k) st with
    | .error e => .error e
    | .ok st' => fzSamples X k pw dm tol is st'

/-- `while True` — spta/kmedoids/kmedoids_fuzzy.py:175-228. -/
def fzLoop (X : List S) (k : Nat) (pw : K → K) (dm : Measure S K) (maxIter : Nat) (tol : K)
    (cc : Nat) (st : FzState S K) : Except PyErr (FzState S K) :=
  match fzSamples X k pw dm tol (List.range X.length)
      { st with swapped := false, medoidIndices := getMedoidIndices st.medoids } with
  | .error e => .error e
  | .ok st' =>
    if cc > maxIter then .ok st'
    else if !st'.swapped then .ok st'
    else fzLoop X k pw dm maxIter tol (cc + 1) st'
  termination_by maxIter + 1 - cc

/-- `KmedoidsFuzzyResult` — spta/kmedoids/kmedoids_fuzzy.py:40-42. -/
structure FzResult (K : Type) where
  medoids : List Nat
  uij : List (List (FVal K))
  costs : List (FVal K)
  total : FVal K
  deriving DecidableEq, Repr

/-- `run_kmedoids_fuzzy(...)` — spta/kmedoids/kmedoids_fuzzy.py:161-232. The initial memberships are
bound to `labels`, not to `uij`: line 228 raises UnboundLocalError when no swap was accepted. The
report at the end (235-257) makes a mask for each of the `k` clusters, which asserts that the cluster
exists; the rest of it only logs. -/
def runKmedoidsFuzzy (X : List S) (k : Nat) (pw : K → K) (dm : Measure S K)
    (initial : Option (List Nat)) (outcome : List Nat) (maxIter : Nat) (tol : K) :
    Except PyErr (FzResult K) :=
  match chooseInitialMedoids X k outcome initial with
  | .error e => .error e
  | .ok ms =>
    match computeMembershipFcm X pw ms dm tol with
    | .error e => .error e
    | .ok c =>
      match fzLoop X k pw dm maxIter tol 0
          ⟨ms, getMedoidIndices ms, none, c.costs, c.total, true⟩ with
      | .error e => .error e
      | .ok st =>
        match st.uij with
        | none => .error .unboundLocalError
        | some u =>
          if k ≤ st.medoids.length then .ok ⟨getMedoidIndices st.medoids, u, st.costs, st.total⟩
          else .error .assertionError

end

/-! ### Fuzzy mask -/

section

variable {K : Type} [Field K] [LinearOrder K]

/-- `MaskRegionFuzzy`: the (k, x_len, y_len) array of memberships, cluster index, threshold and
iteration cursor — spta/region/mask.py:72-123. -/
structure FuzzyMask (K : Type) where
  data : Cube K
  index : Nat
  threshold : K
  pointIndex : Nat
  deriving DecidableEq

/-- `MaskRegionFuzzy.__init__` — spta/region/mask.py:100-115. -/
def FuzzyMask.create (data : Cube K) (index : Nat) (threshold : K) :
    Except PyErr (FuzzyMask K) :=
  if 0 ≤ threshold ∧ threshold ≤ 1 ∧ index < data.tLen then .ok ⟨data, index, threshold, 0⟩
  else .error .assertionError

/-- `np.argmax` of the rest of a vector given the best so far: the value at the first maximum. -/
def maxFrom : List K → K → K
  | [], v => v
  | x :: xs, v => if x > v then maxFrom xs x else maxFrom xs v

/-- `u[np.argmax(u)]`; ValueError when empty. -/
def argmaxValue : List K → Except PyErr K
  | [] => .error .valueError
  | x :: xs => .ok (maxFrom xs x)

/-- `is_member(point)` — spta/region/mask.py:125-147 (point is not None). -/
def FuzzyMask.isMember (m : FuzzyMask K) (p : Point) : Except PyErr Bool :=
  match m.data.grid.get p with
  | .error e => .error e
  | .ok u =>
    match argmaxValue u with
    | .error e => .error e
    | .ok best =>
      match u[m.index]? with
      | none => .error .indexError
      | some this => .ok (decide (best - this ≤ m.threshold))

/-- `MaskRegion.__next__` — spta/region/mask.py:44-69. -/
def FuzzyMask.nextAux : Nat → FuzzyMask K → Except PyErr (Option Point × FuzzyMask K)
  | 0, _ => .error .diverges
  | fuel + 1, m =>
    match baseNext m.data.grid.xLen m.data.grid.yLen m.pointIndex with
    | (none, i) => .ok (none, { m with pointIndex := i })
    | (some p, i) =>
      match m.isMember p with
      | .error e => .error e
      | .ok true => .ok (some p, { m with pointIndex := i })
      | .ok false => FuzzyMask.nextAux fuel { m with pointIndex := i }

/-- `MaskRegion.__next__`. -/
def FuzzyMask.next (m : FuzzyMask K) : Except PyErr (Option Point × FuzzyMask K) :=
  m.nextAux (m.data.grid.xLen * m.data.grid.yLen + 1)

/-- `for point in mask: ...` run to the end. -/
def FuzzyMask.loop (m : FuzzyMask K) : Except PyErr (List Point × FuzzyMask K) :=
  loopAux FuzzyMask.next (m.data.grid.xLen * m.data.grid.yLen + 1) m

/-- `cluster_len` — spta/region/mask.py:117-123. -/
def FuzzyMask.clusterLen (m : FuzzyMask K) : Except PyErr (Nat × FuzzyMask K) :=
  match m.loop with
  | .error e => .error e
  | .ok (ps, m') => .ok (ps.length, m')

/-- `from_uij_and_region(uij, x_len, y_len, cluster_index, threshold)`
— spta/region/mask.py:152-169: row `x * y_len + y` of `uij` becomes the vector at `(x, y)` (swap of
the axes, then reshape). `k` is the number of columns. -/
def FuzzyMask.fromUij (uij : List (List K)) (k xLen yLen index : Nat) (threshold : K) :
    Except PyErr (FuzzyMask K) :=
  if uij.length = xLen * yLen then FuzzyMask.create ⟨k, ⟨xLen, yLen, uij⟩⟩ index threshold
  else .error .assertionError

end

end Spta
