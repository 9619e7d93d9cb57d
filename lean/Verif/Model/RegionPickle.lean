import Verif.Model.Dataset
import Verif.Model.Extrema

/-!
# Model of the metadata of regions and of their pickle files

spta/region/temporal.py, spta/region/scaling.py, spta/region/base.py: each layer of a region has its own
`region_metadata`. What the layers do with the data is in `Verif.Model.Scaling`, `Verif.Model.Extrema`; here also the
metadata are followed. A pickled object is its value, without the cursor of iterations and without the centroid; the
directories can be created and the files can be written. The dataset of a region does not depend on the time of its creation
(C70): `world m` are the samples of the years of `m` at all points, or the exception.
-/

namespace Spta

variable {K : Type} [Field K] [LinearOrder K]

/-- Spatio-temporal regions with the `region_metadata` of every layer: `SpatioTemporalRegion`
(spta/region/temporal.py:22-28), `SpatioTemporalScaled` (spta/region/scaling.py:106-118) and `SpatioTemporalCluster`
(spta/region/temporal.py:300-320). -/
inductive MdRegion (K : Type) where
  | plain (c : Cube (Option K)) (md : Option DirMeta)
  | scaled (inner : MdRegion K) (smin smax : SpStack (Option K)) (md : Option DirMeta)
  | cluster (inner : MdRegion K) (part : Partition) (index : Nat) (md : Option DirMeta)
  deriving DecidableEq

namespace MdRegion

/-- The region without its metadata. -/
def stack : MdRegion K → Stack K
  | plain c _ => .plain c
  | scaled inner smin smax _ => .scaled inner.stack smin smax
  | cluster inner part i _ => .cluster inner.stack part i

/-- `region_metadata` -/
def md : MdRegion K → Option DirMeta
  | plain _ m => m
  | scaled _ _ _ m => m
  | cluster _ _ _ m => m

/-- `region.region_metadata = m` -/
def setMd (m : Option DirMeta) : MdRegion K → MdRegion K
  | plain c _ => plain c m
  | scaled inner smin smax _ => scaled inner smin smax m
  | cluster inner part i _ => cluster inner part i m

/-- `new_spatio_temporal_region(numpy_dataset)` — spta/region/spatial.py:24-30: without metadata;
spta/region/scaling.py:120-132, spta/region/temporal.py:322-334: with the metadata of the decorator. -/
def new : MdRegion K → Cube (Option K) → MdRegion K
  | plain _ _, c => plain c none
  | scaled inner smin smax m, c => scaled (inner.new c) smin smax m
  | cluster inner part i m, c => cluster (inner.new c) part i m

/-- `interval_subset(ti)` — spta/region/temporal.py:67-72, 340-355: a cluster drops the metadata of the result. -/
def intervalSubset : MdRegion K → TimeInterval → MdRegion K
  | plain c m, ti => (plain c m).new (c.intervalSlice ti)
  | scaled inner smin smax m, ti => (scaled inner smin smax m).new (inner.stack.data.intervalSlice ti)
  | cluster inner part i m, ti =>
    ((cluster inner part i m).new (inner.intervalSubset ti).stack.data).setMd none

/-- `region_subset(region)` — spta/region/temporal.py:60-65, 336-338, spta/region/scaling.py:134-151. -/
def regionSubset : MdRegion K → Region → Except PyErr (MdRegion K)
  | plain c m, r => .ok ((plain c m).new (c.regionSlice r))
  | scaled inner smin smax _, r =>
    match inner.regionSubset r with
    | .error e => .error e
    | .ok sub => match smin.regionSubset r with
      | .error e => .error e
      | .ok smin' => match smax.regionSubset r with
        | .error e => .error e
        | .ok smax' => .ok (scaled sub smin' smax' none)
  | cluster _ _ _ _, _ => .error .notImplementedError

/-- `subset(region, ti)` — spta/region/temporal.py:74-81. -/
def subset (s : MdRegion K) (r : Region) (ti : TimeInterval) : MdRegion K := s.new (s.stack.data.bothSlice r ti)

/-- `repeat_series(series)` — spta/region/temporal.py:83-90. -/
def repeatSeries (s : MdRegion K) (series : List (Option K)) : Except PyErr (MdRegion K) :=
  match copyArrayAsMatrixElements series s.stack.data.grid.xLen s.stack.data.grid.yLen with
  | .error e => .error e
  | .ok c => .ok (s.new c)

/-- `apply_function_series(function, output_len)` — spta/region/spatial.py:67-95. -/
def applySeries (s : MdRegion K) (f : Point → List (Option K) → Except PyErr (List (Option K))) (outLen : Nat) :
    Except PyErr (MdRegion K) :=
  match s.stack.applySeries f outLen with
  | .error e => .error e
  | .ok r => .ok (s.new r.data)

/-- `ScaleFunction(x_len, y_len).apply_to(spt_region, series_len)` — spta/region/scaling.py:56-85: the scaled region has the
metadata of the region. -/
def scale (s : MdRegion K) : Except PyErr (MdRegion K) :=
  match s.stack.applyScalar (fun _ => nanMin) with
  | .error e => .error e
  | .ok smin =>
    match s.stack.applyScalar (fun _ => nanMax) with
    | .error e => .error e
    | .ok smax =>
      match s.applySeries (scaleAt s.stack.data.tLen smin smax) s.stack.data.tLen with
      | .error e => .error e
      | .ok r => .ok (scaled r smin smax s.md)

/-- `descale()` — spta/region/temporal.py:152-158, 266-283, spta/region/scaling.py:159-200. -/
def descale : MdRegion K → Except PyErr (MdRegion K)
  | plain _ _ => .error .notImplementedError
  | scaled inner smin smax m =>
    match (scaled inner smin smax m).applySeries (descaleAt smin smax) inner.stack.data.tLen with
    | .error e => .error e
    | .ok r => .ok (inner.new r.stack.data)
  | cluster inner part i m =>
    match inner.descale with
    | .error e => .error e
    | .ok r => .ok ((cluster inner part i m).new r.stack.data)

/-- `partition.create_spt_cluster(spt_region, cluster_index)` — spta/region/partition.py:146-157: the cluster has the
metadata of the region. -/
def createCluster (s : MdRegion K) (pt : Partition) (i : Nat) : Except PyErr (MdRegion K) :=
  if pt.labels.xLen = s.stack.data.grid.xLen ∧ pt.labels.yLen = s.stack.data.grid.yLen then .ok (cluster s pt i s.md)
  else .error .assertionError

/-- `save()` — spta/region/temporal.py:121-130, 256-257, spta/region/scaling.py:202-219; see `LoadedRegion.save`. -/
def save (d : Disk K) : MdRegion K → Except PyErr Unit × Disk K
  | plain _ none => (.error .valueError, d)
  | plain c (some m) => (.ok (), d.write m.datasetFile c)
  | scaled inner _ _ _ =>
    match inner.save d with
    | (.error e, d') => (.error e, d')
    | (.ok _, d') => (.error .attributeError, d')
  | cluster inner _ _ _ => inner.save d

end MdRegion

/-- What is done with a region. -/
inductive RegionOp (K : Type) where
  | interval (ti : TimeInterval)
  | region (r : Region)
  | subset (r : Region) (ti : TimeInterval)
  | repeatSeries (series : List (Option K))
  | apply (f : Point → List (Option K) → Except PyErr (List (Option K))) (outLen : Nat)
  | scale
  | descale
  | cluster (pt : Partition) (i : Nat)

/-- One of the methods above. -/
def RegionOp.run : RegionOp K → MdRegion K → Except PyErr (MdRegion K)
  | .interval ti, s => .ok (s.intervalSubset ti)
  | .region r, s => s.regionSubset r
  | .subset r ti, s => .ok (s.subset r ti)
  | .repeatSeries series, s => s.repeatSeries series
  | .apply f n, s => s.applySeries f n
  | .scale, s => s.scale
  | .descale, s => s.descale
  | .cluster pt i, s => s.createCluster pt i

/-- The methods, one after the other. -/
def runRegionOps : List (RegionOp K) → MdRegion K → Except PyErr (MdRegion K)
  | [], s => .ok s
  | o :: os, s =>
    match o.run s with
    | .error e => .error e
    | .ok s' => runRegionOps os s'

/-- `create_instance()` — spta/region/metadata.py:134-164, see `createInstance`. -/
def createRegion (world : DirMeta → Except PyErr (Cube (Option K))) (m : DirMeta) : Except PyErr (MdRegion K) :=
  match world m with
  | .error e => .error e
  | .ok c =>
    match (MdRegion.plain c none).regionSubset m.region with
    | .error e => .error e
    | .ok sub => if m.scaled then (sub.setMd (some m)).scale else .ok (sub.setMd (some m))

/-! ### Pickle files -/

/-- `pickle_filename(pickle_home)` — spta/region/metadata.py:174-185. -/
def DirMeta.pickleFile (m : DirMeta) (home : Str) : Str := osJoin home m.repr ++ '/' :: (m.repr ++ ".pickle".toList)

/-- The objects that are pickled: regions and partitions. -/
inductive PickledObj (K : Type) where
  | region (r : MdRegion K)
  | partition (p : Partition)
  deriving DecidableEq

/-- The files. -/
abbrev PickledFiles (K : Type) := Str → Option (PickledObj K)

/-- `pickle_to(filename)` of a region — spta/region/base.py:68-74, and `to_pickle(pickle_full_path)` of a partition
— spta/region/partition.py:200-212. -/
def pickleTo (files : PickledFiles K) (path : Str) (o : PickledObj K) : PickledFiles K :=
  Function.update files path (some o)

/-- `from_pickle(filename)` — spta/region/base.py:113-126, and `try_from_pickle(pickle_full_path)`
— spta/region/partition.py:214-226: the class of the object is not checked. -/
def fromPickle (files : PickledFiles K) (path : Str) : Except PyErr (PickledObj K) :=
  match files path with
  | none => .error .ioError
  | some o => .ok o

/-- `pickle(pickle_home)` — spta/region/temporal.py:132-144: inherited by all decorators. -/
def MdRegion.pickle (r : MdRegion K) (home : Str) (files : PickledFiles K) : Except PyErr Unit × PickledFiles K :=
  match r.md with
  | none => (.error .valueError, files)
  | some m => (.ok (), pickleTo files (m.pickleFile home) (.region r))

/-- A program that creates a region, derives another one from it and pickles that. -/
structure PickleRun (K : Type) where
  m : DirMeta
  ops : List (RegionOp K)
  home : Str

/-- The region that the program pickles. -/
def PickleRun.result (world : DirMeta → Except PyErr (Cube (Option K))) (run : PickleRun K) : Except PyErr (MdRegion K) :=
  match createRegion world run.m with
  | .error e => .error e
  | .ok r => runRegionOps run.ops r

/-- The program, on the files. -/
def PickleRun.exec (world : DirMeta → Except PyErr (Cube (Option K))) (run : PickleRun K) (files : PickledFiles K) :
    Except PyErr Unit × PickledFiles K :=
  match run.result world with
  | .error e => (.error e, files)
  | .ok r => r.pickle run.home files

/-- The files after several programs. -/
def runPickles (world : DirMeta → Except PyErr (Cube (Option K))) (session : List (PickleRun K)) (files : PickledFiles K) :
    PickledFiles K :=
  session.foldl (fun fs run => (run.exec world fs).2) files

/-! ### The program of spta/region/temporal.py -/

/-- `sp_small_md` — spta/region/temporal.py:482-483, with the default directory. -/
def spSmallScaled : DirMeta := ⟨⟨"sp_small".toList, ⟨40, 50, 50, 60⟩, 2015, 2015, 4, true⟩, sRaw⟩

/-- The file that the program reads — spta/region/temporal.py:495. -/
def spSmallPickle : Str := "pickle/sp_small_1y_4ppd_first_norm.pickle".toList

/-- The program with the metadata `m` — spta/region/temporal.py:480-496: create, save, pickle, load, compare the shapes. -/
def temporalProgram (world : DirMeta → Except PyErr (Cube (Option K))) (m : DirMeta) (x : Disk K × PickledFiles K) :
    Except PyErr Unit × Disk K × PickledFiles K :=
  match createRegion world m with
  | .error e => (.error e, x)
  | .ok r =>
    match r.save x.1 with
    | (.error e, d) => (.error e, d, x.2)
    | (.ok _, d) =>
      match r.pickle sPickle x.2 with
      | (.error e, fs) => (.error e, d, fs)
      | (.ok _, fs) =>
        match fromPickle fs spSmallPickle with
        | .error e => (.error e, d, fs)
        | .ok (.partition _) => (.error .assertionError, d, fs)
        | .ok (.region r') =>
          if r'.stack.data.tLen = r.stack.data.tLen ∧ r'.stack.data.grid.xLen = r.stack.data.grid.xLen ∧
              r'.stack.data.grid.yLen = r.stack.data.grid.yLen then (.ok (), d, fs)
          else (.error .assertionError, d, fs)

end Spta
