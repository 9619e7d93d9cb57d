import Verif.Model.Util
import Verif.Model.Region

/-!
# Model of the root mean squared error as a distance, and of the extremes of an array

spta/distance/rmse.py; `minimum_value_and_index`, `maximum_value_and_index` and `distances_to_point_in_2d_region` in
spta/util/arrays.py. The square root is a parameter, the arithmetic is exact.
-/

namespace Spta

variable {K : Type} [Field K] [LinearOrder K]

/-- `DistanceByRMSE.measure(first_series, second_series)` — spta/distance/rmse.py:16-24; `root` is `np.sqrt`. -/
def rmseMeasure (root : K → K) (first second : List (Option K)) : Except PyErr (Option K) :=
  if none ∈ first ∨ none ∈ second then .ok none
  else
    match broadcastOp (liftOp (· - ·)) first second with
    | .error e => .error e
    | .ok d => .ok ((floatMean (squared d)).map root)

/-- `DistanceByRMSE.combine(distances_for_point)` — spta/distance/rmse.py:26-31 with `root_mean_squared`,
spta/util/arrays.py:106-110. -/
def rmseCombine (root : K → K) (distances : List (Option K)) : Option K := (meanSquared distances).map root

/-! ### Extremes of an array -/

/-- The indices of an array with this shape, in row-major order. -/
def ndIndices : List Nat → List (List Nat)
  | [] => [[]]
  | n :: shape => (List.range n).flatMap fun i => (ndIndices shape).map (i :: ·)

/-- A numpy array of floats: its shape, and the element at each index (NaN is `none`). -/
structure NdArray (K : Type) where
  shape : List Nat
  elem : List Nat → Option K

/-- `np.nanmin(a)` (`pick` is `min`) and `np.nanmax(a)` (`pick` is `max`) of the elements: NaN if there is nothing
else, ValueError for an empty array. -/
def nanExtreme (pick : K → K → K) (l : List (Option K)) : Except PyErr (Option K) :=
  if l = [] then .error .valueError
  else
    match l.filterMap id with
    | [] => .ok none
    | a :: rest => .ok (some (rest.foldl pick a))

/-- The common body of `minimum_value_and_index` and `maximum_value_and_index`, for arrays with at least one axis:
the first index found by `np.where(a == value)`; nothing is equal to NaN, so that the first element of the empty arrays
is an IndexError. -/
def extremeAndIndex (pick : K → K → K) (a : NdArray K) : Except PyErr (K × List Nat) :=
  match nanExtreme pick ((ndIndices a.shape).map a.elem) with
  | .error e => .error e
  | .ok none => .error .indexError
  | .ok (some v) =>
    match (ndIndices a.shape).filter fun i => a.elem i = some v with
    | [] => .error .indexError
    | i :: _ => .ok (v, i)

/-- `minimum_value_and_index(numpy_dataset)` — spta/util/arrays.py:52-66. -/
def minimumValueAndIndex (a : NdArray K) : Except PyErr (K × List Nat) := extremeAndIndex min a

/-- `maximum_value_and_index(numpy_dataset)` — spta/util/arrays.py:69-83. -/
def maximumValueAndIndex (a : NdArray K) : Except PyErr (K × List Nat) := extremeAndIndex max a

/-- `distances_to_point_in_2d_region(i, j, x_len, y_len)` — spta/util/arrays.py:128-135; `root` is the square root
of `np.linalg.norm`. The differences of the unsigned coordinates and the integers are signed. -/
def distancesToPoint2d (root : Int → K) (i j : Int) (xLen yLen : Nat) (junk : Point) : List K :=
  (listOf2dPoints xLen yLen junk).map fun p =>
    root (((p.x : Int) - i) * ((p.x : Int) - i) + ((p.y : Int) - j) * ((p.y : Int) - j))

end Spta
