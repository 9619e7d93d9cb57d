import Verif.Model.Clustering
import Verif.Model.Scaling
import Verif.Model.Util

/-!
# Model of the dataset files and of the creation of regions from metadata

spta/dataset/temp_brazil.py, spta/region/metadata.py, `save` in spta/region/temporal.py and
spta/region/scaling.py.

The hdf5 file is a 3d array (or missing); the numpy files are a map from paths to arrays, where a path
is the string that the code passes to numpy (two strings for the same file, such as `raw//x` and
`raw/x`, are different paths here). `np.load` returns what `np.save` stored; writing never fails.
-/

namespace Spta

variable {K : Type} [Field K] [LinearOrder K]

/-- The content of a numpy file: an array, or something that `np.load` rejects. -/
abbrev NpyFile (K : Type) := Option (Cube (Option K))

/-- The files: the field `real` of the hdf5 file if it exists, and the numpy files. -/
structure Disk (K : Type) where
  raw : Option (Cube (Option K))
  npy : Str → Option (NpyFile K)

/-- `np.save(path, array)` -/
def Disk.write (d : Disk K) (path : Str) (c : Cube (Option K)) : Disk K :=
  { d with npy := fun q => if q = path then some (some c) else d.npy q }

/-- `'raw'` -/
def sRaw : Str := ['r', 'a', 'w']
/-- `'.npy'` -/
def sNpy : Str := ['.', 'n', 'p', 'y']
/-- `DATASET_NAME = 'SouthAmerica'` — spta/dataset/temp_brazil.py:13 -/
def datasetName : Str := ['S', 'o', 'u', 't', 'h', 'A', 'm', 'e', 'r', 'i', 'c', 'a']
/-- `DATASET_YEAR_START` — spta/dataset/temp_brazil.py:14 -/
def datasetYearStart : Int := 1979
/-- `DATASET_YEAR_END` — spta/dataset/temp_brazil.py:15 -/
def datasetYearEnd : Int := 2015
/-- `DATASET_SAMPLES_PER_DAY` — spta/dataset/temp_brazil.py:16 -/
def datasetSpd : Int := 4

/-- `FORMAT_BY_YEAR.format(name, year_start, year_end, spd)` — spta/dataset/temp_brazil.py:19, 76, 91 -/
def formatByYear (name : Str) (yearStart yearEnd spd : Int) : Str :=
  sRaw ++ '/' :: (name ++ '_' :: (intStr yearStart ++ '_' :: (intStr yearEnd ++ '_' ::
    (intStr spd ++ 's' :: 'p' :: 'd' :: sNpy))))

/-- `real[series_start:series_end, :, :]` with integer bounds. -/
def Cube.timeSlice {α : Type} (c : Cube α) (a b : Int) : Cube α :=
  ⟨pyBound c.tLen b - pyBound c.tLen a,
    ⟨c.grid.xLen, c.grid.yLen, c.grid.data.map fun s => pySlice s a b⟩⟩

/-- `read_hdf5_dataset(series_start, series_end, dataset_source)` — spta/dataset/temp_brazil.py:22-43 -/
def readHdf5 (raw : Option (Cube (Option K))) (seriesStart seriesEnd : Int) :
    Except PyErr (Cube (Option K)) :=
  match raw with
  | none => .error .valueError
  | some real => .ok (real.timeSlice seriesStart seriesEnd)

/-- `read_hdf5_dataset_by_year(year_start, year_end)` — spta/dataset/temp_brazil.py:46-61 -/
def readHdf5ByYear (raw : Option (Cube (Option K))) (yearStart yearEnd : Int) :
    Except PyErr (Cube (Option K)) :=
  if yearEnd < yearStart ∨ yearStart < datasetYearStart ∨ datasetYearEnd < yearEnd then
    .error .valueError
  else
    match yearsToSeriesInterval yearStart yearEnd datasetYearStart datasetSpd with
    | .error e => .error e
    | .ok (a, b) => readHdf5 raw a b

/-- `try_load_dataset_interval(name, year_start, year_end, spd)` — spta/dataset/temp_brazil.py:85-106.
For a missing file, line 101 raises AttributeError (a string has no `dataset_filename`), and the
exception handler swallows it, as any exception of `np.load`: the result is None. -/
def tryLoadInterval (d : Disk K) (name : Str) (yearStart yearEnd spd : Int) : Option (Cube (Option K)) :=
  match d.npy (formatByYear name yearStart yearEnd spd) with
  | none => none
  | some none => none
  | some (some c) => some c

/-- `np.mean(np.reshape(point_series, (new_series_len, 4)), axis=1)` — spta/dataset/temp_brazil.py:
159-161: row `i` of the reshaped array are the values `4 i .. 4 i + 3`; ValueError if the sizes differ. -/
def averagePoint (newLen : Nat) (s : List (Option K)) : Except PyErr (List (Option K)) :=
  if s.length = newLen * 4 then
    .ok ((List.range newLen).map fun i => floatMean ((s.drop (i * 4)).take 4))
  else .error .valueError

/-- `average_4spd_to_1spd(numpy_dataset)` — spta/dataset/temp_brazil.py:142-169. The loops visit the
points in row-major order; `int(series_len / 4)` is exact for the lengths that fit in memory. The
values of `np.empty` are NaN here. -/
def averageDaily (c : Cube (Option K)) : Except PyErr (Cube (Option K)) :=
  let newLen := c.tLen / 4
  match Stack.itemsAt c.grid.get (Stack.allPoints c.grid.xLen c.grid.yLen) with
  | .error e => .error e
  | .ok items =>
    match applyWith (fun _ s => averagePoint newLen s) items
        (Grid.const c.grid.xLen c.grid.yLen (List.replicate newLen none)) with
    | .error e => .error e
    | .ok g => .ok ⟨newLen, g⟩

/-- `retrieve_dataset_interval(year_start, year_end, spd, name)` — spta/dataset/temp_brazil.py:109-139.
The dataset that is read does not depend on the name. -/
def retrieve (d : Disk K) (yearStart yearEnd spd : Int) (name : Str) :
    Except PyErr (Cube (Option K)) × Disk K :=
  if spd = 1 ∨ spd = 4 then
    match tryLoadInterval d name yearStart yearEnd spd with
    | some c => (.ok c, d)
    | none =>
      match readHdf5ByYear d.raw yearStart yearEnd with
      | .error e => (.error e, d)
      | .ok c4 =>
        match (if spd = 1 then averageDaily c4 else .ok c4) with
        | .error e => (.error e, d)
        | .ok c => (.ok c, d.write (formatByYear name yearStart yearEnd spd) c)
  else (.error .assertionError, d)

/-! ### Regions from metadata -/

/-- `SpatioTemporalRegionMetadata` with its `dataset_dir` — spta/region/metadata.py:53-64. -/
structure DirMeta extends RegionMeta where
  dir : Str
  deriving DecidableEq

/-- `'distances_'` -/
def sDistances : Str := ['d', 'i', 's', 't', 'a', 'n', 'c', 'e', 's', '_']

/-- `dataset_filename` — spta/region/metadata.py:66-71. -/
def DirMeta.datasetFile (m : DirMeta) : Str := m.dir ++ '/' :: (m.repr ++ sNpy)

/-- `distances_filename` — spta/region/metadata.py:73-78. -/
def DirMeta.distancesFile (m : DirMeta) : Str := m.dir ++ '/' :: (sDistances ++ m.repr ++ sNpy)

/-- `scaled_min_filename` — spta/region/metadata.py:80-85. -/
def DirMeta.minFile (m : DirMeta) : Str := m.dir ++ '/' :: (m.repr ++ ['_', 'm', 'i', 'n'] ++ sNpy)

/-- `scaled_max_filename` — spta/region/metadata.py:87-92. -/
def DirMeta.maxFile (m : DirMeta) : Str := m.dir ++ '/' :: (m.repr ++ ['_', 'm', 'a', 'x'] ++ sNpy)

/-- A region with the `region_metadata` of the region and of the innermost (undecorated) region. -/
structure LoadedRegion (K : Type) where
  stack : Stack K
  md : Option DirMeta
  innerMd : Option DirMeta

/-- `create_instance()` — spta/region/metadata.py:134-164. The region created by `region_subset` gets the
metadata at line 154; for a scaled region, the scaled region has the metadata
(spta/region/scaling.py:81-84), but the region that it decorates comes from
`new_spatio_temporal_region` (spta/region/spatial.py:24-30), which sets no metadata. -/
def createInstance (d : Disk K) (m : DirMeta) : Except PyErr (LoadedRegion K) × Disk K :=
  if m.spd = 1 ∨ m.spd = 4 then
    match retrieve d m.yearStart m.yearEnd m.spd datasetName with
    | (.error e, d') => (.error e, d')
    | (.ok c, d') =>
      match (Stack.plain c).regionSubset m.region with
      | .error e => (.error e, d')
      | .ok sub =>
        if m.scaled then
          match scaleApply sub sub.data.tLen with
          | .error e => (.error e, d')
          | .ok s => (.ok ⟨s, some m, none⟩, d')
        else (.ok ⟨sub, some m, some m⟩, d')
  else (.error .assertionError, d)

/-- `save()` — spta/region/temporal.py:121-130 (plain), 256-257 (decorators delegate),
spta/region/scaling.py:202-219 (scaled): after the dataset is saved, the scaled region asks its metadata
for `scale_min_filename`, an attribute that does not exist (AttributeError). -/
def LoadedRegion.save (r : LoadedRegion K) (d : Disk K) : Except PyErr Unit × Disk K :=
  go r.stack
where
  /-- `save()` of one layer. -/
  go : Stack K → Except PyErr Unit × Disk K
  | .plain c =>
    match r.innerMd with
    | none => (.error .valueError, d)
    | some m => (.ok (), d.write m.datasetFile c)
  | .scaled inner _ _ =>
    match go inner with
    | (.error e, d') => (.error e, d')
    | (.ok _, d') => (.error .attributeError, d')
  | .cluster inner _ _ => go inner

/-- `np.load(dataset_filename)` as in `__load_saved_spt_region` — spta/kmedoids/silhouette.py:158-160. -/
def loadSaved (d : Disk K) (m : DirMeta) : Except PyErr (Stack K) :=
  match d.npy m.datasetFile with
  | none => .error .ioError
  | some none => .error .valueError
  | some (some c) => .ok (.plain c)

end Spta
