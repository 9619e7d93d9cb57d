import Verif.Model.Distance
import Verif.Model.Dataset

/-!
# Model of experiments/region/distance.py: the files of distance matrices

The regions have the default `dataset_dir`, so that the file of a matrix is found from the metadata of the
region alone. `np.save` does not change a name that ends in `.npy`. Logging and the drawing of the plots are
dropped; the matrix row that is drawn is modelled.
-/

namespace Spta

variable {S V : Type}

/-- A run of the program: the region and the option `--parallel` — experiments/region/distance.py:34-36. -/
structure DistanceRun where
  md : RegionMeta
  workers : Option Int
  deriving DecidableEq

/-- `distances_filename` of a metadata with the default `dataset_dir` — spta/region/metadata.py:54, 73-78. -/
def distancesPath (md : RegionMeta) : Str := DirMeta.distancesFile ⟨md, ['r', 'a', 'w']⟩

/-- The files of matrices: what `np.load` finds under a name. -/
abbrev MatrixFiles (V : Type) := Str → MatrixFile V

/-- `np.save(filename, matrix)` -/
def MatrixFiles.save (files : MatrixFiles V) (path : Str) (m : Grid V) : MatrixFiles V :=
  fun q => if q = path then .matrix m else files q

/-- The matrix of a run — experiments/region/distance.py:55-68: with a number of workers other than 0 it is
computed in parallel (`mp.Pool` raises ValueError for a negative number), otherwise in one process, into an
uninitialised array. -/
def DistanceRun.Matrix [Zero V] [Add V] (measure : S → S → V) (run : DistanceRun) (g : Grid S)
    (outcome : Except PyErr (Grid V)) : Prop :=
  match run.workers with
  | none => ∃ junk : Grid V, junk.WF ∧ junk.xLen = g.xLen * g.yLen ∧ junk.yLen = g.xLen * g.yLen ∧
      outcome = sequentialMatrix measure g junk
  | some n =>
    if n = 0 then ∃ junk : Grid V, junk.WF ∧ junk.xLen = g.xLen * g.yLen ∧ junk.yLen = g.xLen * g.yLen ∧
      outcome = sequentialMatrix measure g junk
    else if n < 0 then outcome = .error .valueError
    else ParallelMatrix measure g n.toNat outcome

/-- `calculate_distances_with_args(args, logger)` — experiments/region/distance.py:45-76: the files before and
after a run. `region` is `create_instance()`. -/
inductive DistanceRun.Runs [Zero V] [Add V] (measure : S → S → V) (region : RegionMeta → Except PyErr (Grid S))
    (run : DistanceRun) : MatrixFiles V → MatrixFiles V → Prop where
  | noRegion {e : PyErr} (h : region run.md = .error e) (files : MatrixFiles V) :
      Runs measure region run files files
  | failed {g : Grid S} {e : PyErr} (h : region run.md = .ok g) (hm : run.Matrix measure g (.error e))
      (files : MatrixFiles V) : Runs measure region run files files
  | saved {g : Grid S} {m : Grid V} (h : region run.md = .ok g) (hm : run.Matrix measure g (.ok m))
      (files : MatrixFiles V) : Runs measure region run files (files.save (distancesPath run.md) m)

/-- The files before and after some runs. -/
inductive DistanceSession [Zero V] [Add V] (measure : S → S → V) (region : RegionMeta → Except PyErr (Grid S)) :
    List DistanceRun → MatrixFiles V → MatrixFiles V → Prop where
  | nil (files : MatrixFiles V) : DistanceSession measure region [] files files
  | cons {run : DistanceRun} {runs : List DistanceRun} {files files' files'' : MatrixFiles V}
      (h : run.Runs measure region files files') (hs : DistanceSession measure region runs files' files'') :
      DistanceSession measure region (run :: runs) files files''

/-- The index of the center — experiments/region/distance.py:104-107. `int(n / 2)` divides floats, exact for
regions of less than 2^53 points. -/
def centerIndex (xLen yLen : Nat) : Nat :=
  let center := xLen * yLen / 2
  if xLen % 2 = 0 then center + yLen / 2 else center

/-- `SpatialRegion(distance_matrix[index].reshape((x_len, y_len)))` — experiments/region/distance.py:95, 108. -/
def distancesAsRegion (m : Grid V) (index xLen yLen : Nat) : Except PyErr (Grid V) :=
  match m.rowAt index with
  | .error e => .error e
  | .ok row => if row.length = xLen * yLen then .ok ⟨xLen, yLen, row⟩ else .error .valueError

/-- The two regions drawn by `show_distances` — experiments/region/distance.py:79-114. -/
def shownDistances (m : Grid V) (xLen yLen : Nat) : Except PyErr (Grid V × Grid V) :=
  match distancesAsRegion m 0 xLen yLen with
  | .error e => .error e
  | .ok first =>
    match distancesAsRegion m (centerIndex xLen yLen) xLen yLen with
    | .error e => .error e
    | .ok center => .ok (first, center)

end Spta
