import Verif.Model.Extrema
import Verif.Model.Parallel

/-!
# Model of spta/distance/__init__.py and of DistanceBySpatialDTW (spta/distance/dtw.py)

The state of a distance object is its `distance_matrix` (and, for the spatial distance, the flag
`weighted`). Every method returns its result together with the new state, because the code leaves
its changes behind when it raises. The matrix handed out by the methods is the array of the object
itself; that callers write into it is not modelled (no caller does).
-/

namespace Spta

section

variable {K : Type}

/-- What `np.load(filename)` finds. -/
inductive MatrixFile (K : Type) where
  /-- IOError -/
  | unreadable
  /-- np.load raises ValueError (not a numpy file) -/
  | malformed
  /-- an array that does not have two dimensions -/
  | otherDims
  | matrix (g : Grid K)
  deriving DecidableEq

/-- `DistanceBetweenSeries.load_distance_matrix_2d(filename, expected_region)`
— spta/distance/__init__.py:41-71. `file` is the content of the file, `dm` is
`self.distance_matrix`. The sizes are naturals (`x1 ≤ x2`, `y1 ≤ y2`). -/
def loadMatrix2d (file : MatrixFile K) (r : Region) (dm : Option (Grid K)) :
    Except PyErr (Option (Grid K)) × Option (Grid K) :=
  match file with
  | .unreadable => (.ok none, dm)
  | .malformed => (.error .valueError, dm)
  | .otherDims => (.error .valueError, dm)  -- "i_len, j_len = shape" cannot unpack
  | .matrix g =>
    let expectedX := r.x2 - r.x1
    let expectedY := r.y2 - r.y1
    let total := expectedX * expectedY
    if g.xLen ≠ total ∨ g.yLen ≠ total then (.error .valueError, dm)
    else (.ok (some g), some g)

/-- `matrix[i]` -/
def Grid.rowAt (m : Grid K) (i : Nat) : Except PyErr (List K) :=
  if i < m.xLen then .ok ((m.data.drop (i * m.yLen)).take m.yLen) else .error .indexError

/-- The sum of two 1d arrays with the broadcasting rule of numpy. -/
def npAdd [Add K] (a b : List K) : Except PyErr (List K) :=
  match a, b with
  | [x], b => .ok (b.map fun y => x + y)
  | a, [y] => .ok (a.map fun x => x + y)
  | a, b => if a.length = b.length then .ok (List.zipWith (· + ·) a b) else .error .valueError

/-- `np.linalg.norm(points - point, axis=1)`: `root n` is the square root of the integer `n`.
The subtraction is between uint32 and int64, hence exact. -/
def norms (root : Nat → K) (points : List Point) (p : Point) : List K :=
  points.map fun q =>
    let dx : Int := (q.x : Int) - (p.x : Int)
    let dy : Int := (q.y : Int) - (p.y : Int)
    root (dx * dx + dy * dy).toNat

/-- `DistanceBySpatialDTW` — spta/distance/dtw.py:135-150. -/
structure SpatialDist (K : Type) where
  matrix : Option (Grid K)
  weight : K
  weighted : Bool
  deriving DecidableEq

/-- `__init__` — spta/distance/dtw.py:147-150. -/
def SpatialDist.new (weight : K) : SpatialDist K := ⟨none, weight, false⟩

variable [Add K] [Mul K]

/-- One round of the loop of `weight_distance_matrix` — spta/distance/dtw.py:173-181. -/
def weightRow (root : Nat → K) (weight : K) (yLen : Nat) (points : List Point) (index : Nat)
    (m : Grid K) : Except PyErr (Grid K) :=
  let euclidians := norms root points ⟨index / yLen, index % yLen⟩
  match m.rowAt index with
  | .error e => .error e
  | .ok row =>
    match npAdd row (euclidians.map fun e => e * weight) with
    | .error e => .error e
    | .ok row' => m.setRow index row'

/-- The loop of `weight_distance_matrix` — spta/distance/dtw.py:171-182. The rows are changed in
place: the matrix reached is returned also with an exception. -/
def weightRows (root : Nat → K) (weight : K) (yLen : Nat) (points : List Point) :
    List Nat → Grid K → Except PyErr Unit × Grid K
  | [], m => (.ok (), m)
  | index :: rest, m =>
    match weightRow root weight yLen points index m with
    | .error e => (.error e, m)
    | .ok m' => weightRows root weight yLen points rest m'

/-- `weight_distance_matrix(region)` — spta/distance/dtw.py:152-187. -/
def SpatialDist.weigh (root : Nat → K) (r : Region) (d : SpatialDist K) :
    Except PyErr (Option (Grid K)) × SpatialDist K :=
  match d.matrix with
  | none => (.error .valueError, d)
  | some m =>
    if d.weighted then (.ok (some m), d)
    else
      let xLen := r.x2 - r.x1
      let yLen := r.y2 - r.y1
      let points := listOf2dPoints xLen yLen ⟨0, 0⟩
      match weightRows root d.weight yLen points (List.range (xLen * yLen)) m with
      | (.error e, m') => (.error e, { d with matrix := some m' })
      | (.ok (), m') => (.ok (some m'), { d with matrix := some m', weighted := true })

/-- `DistanceBySpatialDTW.load_distance_matrix_2d` — spta/distance/dtw.py:189-200. -/
def SpatialDist.load (root : Nat → K) (file : MatrixFile K) (r : Region) (d : SpatialDist K) :
    Except PyErr (Option (Grid K)) × SpatialDist K :=
  match loadMatrix2d file r d.matrix with
  | (.error e, dm) => (.error e, { d with matrix := dm })
  | (.ok _, dm) => SpatialDist.weigh root r { d with matrix := dm }

/-- `compute_distance_matrix(temporal_data)` — spta/distance/dtw.py:34-59, inherited by the spatial
distance: `outcome` is what the computation of the matrix returns (see Model/Parallel), a ValueError
for data with the wrong number of dimensions included. The matrix is stored as it is. -/
def SpatialDist.compute (outcome : Except PyErr (Grid K)) (d : SpatialDist K) :
    Except PyErr (Option (Grid K)) × SpatialDist K :=
  match outcome with
  | .error e => (.error e, d)
  | .ok m => (.ok (some m), { d with matrix := some m })

/-- A request to a spatial distance object. -/
inductive DistOp (K : Type) where
  | load (file : MatrixFile K) (r : Region)
  | compute (outcome : Except PyErr (Grid K))
  | weigh (r : Region)

/-- The effect of a request; an exception leaves the object usable. -/
def SpatialDist.step (root : Nat → K) (d : SpatialDist K) : DistOp K → SpatialDist K
  | .load file r => (SpatialDist.load root file r d).2
  | .compute outcome => (SpatialDist.compute outcome d).2
  | .weigh r => (SpatialDist.weigh root r d).2

/-- The object after a history of requests. -/
def SpatialDist.run (root : Nat → K) (d : SpatialDist K) (ops : List (DistOp K)) : SpatialDist K :=
  ops.foldl (SpatialDist.step root) d

end

/-! ### Distances to a point -/

section

variable {K σ : Type}

/-- `load_distance_matrix_md(sptr_metadata)` — spta/distance/__init__.py:73-80: the metadata holds the
file and the rectangle; a region without metadata gives an AttributeError. -/
def loadMd (load : MatrixFile K → Region → σ → Except PyErr (Option (Grid K)) × σ)
    (md : Option (MatrixFile K × Region)) (d : σ) : Except PyErr (Option (Grid K)) × σ :=
  match md with
  | none => (.error .attributeError, d)
  | some (file, r) => load file r d

/-- `try_load_distance_matrix(spt_region)` — spta/distance/__init__.py:82-90. -/
def tryLoad (load : MatrixFile K → Region → σ → Except PyErr (Option (Grid K)) × σ)
    (md : Option (MatrixFile K × Region)) (d : σ) : Except PyErr (Option (Grid K)) × σ :=
  match md with
  | some _ => loadMd load md d
  | none => (.ok none, d)

/-- `distances_to_point_with_matrix` — spta/distance/__init__.py:143-165, including its assertion. -/
def distancesWithMatrix (matrix : Option (Grid K)) (yLen : Nat) (p : Point) (indices : List Nat) :
    Except PyErr (List K) :=
  match matrix with
  | none => .error .assertionError
  | some m => distancesToPointWithMatrix m yLen p indices

/-- `distances_to_point(...)` — spta/distance/__init__.py:92-141, for an object with state `d`, whose
class loads with `load` and computes with `compute`; `yLen` is the last dimension of the region. -/
def distancesToPoint (matrixOf : σ → Option (Grid K))
    (load : MatrixFile K → Region → σ → Except PyErr (Option (Grid K)) × σ)
    (compute : σ → Except PyErr (Option (Grid K)) × σ)
    (md : Option (MatrixFile K × Region)) (yLen : Nat) (p : Point) (indices : List Nat)
    (useMatrix onlyIfPrecalculated : Bool) (d : σ) : Except PyErr (List K) × σ :=
  if !useMatrix then (.error .notImplementedError, d)
  else
    match matrixOf d with
    | some m => (distancesWithMatrix (some m) yLen p indices, d)
    | none =>
      match loadMd load md d with
      | (.ok _, d') => (distancesWithMatrix (matrixOf d') yLen p indices, d')
      | (.error _, d') =>
        if onlyIfPrecalculated then (.error .valueError, d')
        else
          match compute d' with
          | (.error e, d'') => (.error e, d'')
          | (.ok _, d'') => (distancesWithMatrix (matrixOf d'') yLen p indices, d'')

/-- The methods of the plain distance, whose state is the matrix alone. -/
def plainCompute (outcome : Except PyErr (Grid K)) (d : Option (Grid K)) :
    Except PyErr (Option (Grid K)) × Option (Grid K) :=
  match outcome with
  | .error e => (.error e, d)
  | .ok m => (.ok (some m), some m)

end

end Spta
