import Verif.Model.Silhouette
import Verif.Model.Parallel
import Verif.Model.Dataset

/-!
# Model of the commands of `KmedoidsWithSilhouette`, spta/kmedoids/silhouette.py:28-160

The numpy files are one map from paths to arrays. The commands of several analyses run in one process; all
analyses share one distance measure, as those made by `silhouette_default_metadata` without an own measure do
(the default argument `DistanceByDTW()` at line 296 is evaluated once). The distances are numbers: series with
NaN, whose distances are NaN, are not represented. A matrix that is found under the name of a dataset counts as
a file that cannot be read. Drawing and the files of the figures of the single clusterings are dropped, logging
too. The program at the end of the file (315-343) is not modelled: it creates its metadata with too few
arguments (TypeError).
-/

namespace Spta

/-- What `np.load` finds under a name: nothing, no array, a dataset or a matrix. -/
inductive StoredArray (K : Type) where
  | missing
  | broken
  | cube (c : Cube (Option K))
  | matrix (m : Grid K)

/-- The files, and `distance_matrix` of the distance measure. -/
structure AnalysisWorld (K : Type) where
  raw : Option (Cube (Option K))
  file : Str → StoredArray K
  held : Option (Grid K)

section

variable {K : Type}

/-- The files as datasets. -/
def AnalysisWorld.disk (w : AnalysisWorld K) : Disk K :=
  ⟨w.raw, fun q =>
    match w.file q with
    | .missing => none
    | .broken => some none
    | .cube c => some (some c)
    | .matrix _ => some none⟩

/-- The files after datasets were written. -/
def AnalysisWorld.written (w : AnalysisWorld K) (d : Disk K) : AnalysisWorld K :=
  { w with file := fun q =>
      match d.npy q with
      | some (some c) => .cube c
      | _ => w.file q }

/-- A file as a matrix. -/
def StoredArray.asMatrix : StoredArray K → MatrixFile K
  | .missing => .unreadable
  | .broken => .malformed
  | .cube _ => .otherDims
  | .matrix m => .matrix m

/-- `np.save(path, distance_matrix)` -/
def AnalysisWorld.saveMatrix (w : AnalysisWorld K) (path : Str) (m : Grid K) : AnalysisWorld K :=
  { w with file := fun q => if q = path then .matrix m else w.file q }

/-- `np.empty((n, n))`: the elements are arbitrary. -/
def npEmpty (junk : Nat → K) (n : Nat) : Grid K := ⟨n, n, (List.range (n * n)).map junk⟩

end

/-- `KmedoidsWithSilhouette(sptr_metadata, silhouette_metadata)` — spta/kmedoids/silhouette.py:37-39. -/
structure KmedoidsAnalysis (K : Type) where
  md : DirMeta
  params : SilhouetteMeta
  tol : K
  verbose : Bool
  showGraphs : Bool

/-- The keys of `self.commands` — spta/kmedoids/silhouette.py:42-47. -/
inductive AnalysisCommand where
  | save
  | distances
  | kmedoids
  | showDistances
  deriving DecidableEq

/-- What a command gives: nothing, the best clustering with its figure, or the figures of distances. -/
inductive AnalysisOutput (K : Type) where
  | nothing
  | best (result : (Nat × Option Int × Option (List Nat) × List Nat) × SilhouetteFigure K)
  | figures (l : List (Str × Grid K))
  deriving DecidableEq

variable {K : Type} [Field K] [LinearOrder K]

/-- The measure, and the random choices of initial medoids for a number of clusters and a seed. -/
structure AnalysisEnv (K : Type) where
  measure : List (Option K) → List (Option K) → K
  outcome : Nat → Int → List Nat

/-- `save_sptr()` — spta/kmedoids/silhouette.py:51-59. -/
def saveCommand (a : KmedoidsAnalysis K) (w : AnalysisWorld K) :
    Except PyErr (AnalysisOutput K) × AnalysisWorld K :=
  match createInstance w.disk a.md with
  | (.error e, d) => (.error e, w.written d)
  | (.ok r, d) =>
    match r.save d with
    | (.error e, d') => (.error e, w.written d')
    | (.ok _, d') => (.ok .nothing, w.written d')

/-- `compute_distance_matrix(spt_region)` for a region — spta/distance/dtw.py:34-60, 83-111: the measure keeps
the matrix. -/
def computeMatrix (env : AnalysisEnv K) (junk : Nat → K) (g : Grid (List (Option K))) (w : AnalysisWorld K) :
    Except PyErr (Grid K) × AnalysisWorld K :=
  match sequentialMatrix env.measure g (npEmpty junk (g.xLen * g.yLen)) with
  | .error e => (.error e, w)
  | .ok m => (.ok m, { w with held := some m })

/-- `calculate_distance_matrix()` — spta/kmedoids/silhouette.py:61-72. -/
def distancesCommand (env : AnalysisEnv K) (junk : Nat → K) (a : KmedoidsAnalysis K) (w : AnalysisWorld K) :
    Except PyErr (AnalysisOutput K) × AnalysisWorld K :=
  match loadSaved w.disk a.md with
  | .error e => (.error e, w)
  | .ok s =>
    match computeMatrix env junk s.data.grid w with
    | (.error e, w') => (.error e, w')
    | (.ok m, w') => (.ok .nothing, w'.saveMatrix a.md.distancesFile m)

/-- `silhouette_analysis()` — spta/kmedoids/silhouette.py:74-109: after loading, the measure has the matrix of
the file, or else (without file, 186-189) the one that it had before, or else a computed one. -/
def kmedoidsCommand (env : AnalysisEnv K) (junk : Nat → K) (a : KmedoidsAnalysis K) (w : AnalysisWorld K) :
    Except PyErr (AnalysisOutput K) × AnalysisWorld K :=
  match loadSaved w.disk a.md with
  | .error e => (.error e, w)
  | .ok s =>
    let file := (w.file a.md.distancesFile).asMatrix
    match loadMatrix2d file a.md.region w.held with
    | (.error e, held) => (.error e, { w with held := held })
    | (.ok _, some m) =>
      match silhouetteCommand file a.md.region (.ok m) s.data.grid env.outcome a.params a.tol a.verbose
          a.showGraphs with
      | .error e => (.error e, { w with held := some m })
      | .ok r => (.ok (.best r), { w with held := some m })
    | (.ok _, none) =>
      match computeMatrix env junk s.data.grid w with
      | (.error e, w') => (.error e, w')
      | (.ok m, w') =>
        match silhouetteCommand file a.md.region (.ok m) s.data.grid env.outcome a.params a.tol a.verbose
            a.showGraphs with
        | .error e => (.error e, w')
        | .ok r => (.ok (.best r), w')

/-- `show_distances()` — spta/kmedoids/silhouette.py:111-153. -/
def showCommand (a : KmedoidsAnalysis K) (w : AnalysisWorld K) :
    Except PyErr (AnalysisOutput K) × AnalysisWorld K :=
  match loadSaved w.disk a.md with
  | .error e => (.error e, w)
  | .ok s =>
    let file := (w.file a.md.distancesFile).asMatrix
    let w' : AnalysisWorld K := { w with held := (loadMatrix2d file a.md.region w.held).2 }
    match showDistances file a.md.region a.md.name s.data.grid.xLen s.data.grid.yLen with
    | .error e => (.error e, w')
    | .ok l => (.ok (.figures l), w')

/-- One `execute_command`: the analysis, the command, and the elements of the uninitialised array. -/
structure CommandRun (K : Type) where
  analysis : KmedoidsAnalysis K
  command : AnalysisCommand
  junk : Nat → K

/-- `execute_command(command)` — spta/kmedoids/silhouette.py:155-156. -/
def executeCommand (env : AnalysisEnv K) (run : CommandRun K) (w : AnalysisWorld K) :
    Except PyErr (AnalysisOutput K) × AnalysisWorld K :=
  match run.command with
  | .save => saveCommand run.analysis w
  | .distances => distancesCommand env run.junk run.analysis w
  | .kmedoids => kmedoidsCommand env run.junk run.analysis w
  | .showDistances => showCommand run.analysis w

/-- The files and the measure after some commands, which may have raised exceptions. -/
def runCommands (env : AnalysisEnv K) (runs : List (CommandRun K)) (w : AnalysisWorld K) : AnalysisWorld K :=
  runs.foldl (fun w run => (executeCommand env run w).2) w

end Spta
