import Verif.Model.MedoidChoice
import Verif.Model.CsvText
import Verif.Model.SuiteFiles

/-!
# Model of the program experiments/clustering/extraction_lstm.py

`TrainDataWithRandomPoints.evaluate_score_of_random_points` and `MedoidSeriesFormatter.produce_csv`
(spta/classifier/train_input.py:52-175, 468-611) on the texts of the files. The files are a function from paths to
texts. `'{:0.3f}'.format(x)`, the outcome of the random generator, and the errors and clusters of the solvers are
parameters. The arguments `--random` and `--tp` are taken to be at least 0. The directory of the files exists because
the file of the analysis is read from it; other failures of `open` are not modelled.
-/

namespace Spta

section

variable {K : Type} [Field K] [LinearOrder K]

/-- The penalties of the two strategies — spta/classifier/train_input.py:58-63: for `min_error` the errors and the
clusters found by the solver of each clustering. -/
inductive ChoiceRule (K : Type) where
  | minDistance
  | minError (params : ModelParams) (testLen : Nat) (errorType : Str)
      (error : Point → Str → Except PyErr (Option K)) (label : Point → Str → Except PyErr Nat)

/-- The settings that appear in the names of the files — spta/classifier/train_input.py:349-357, 442-452. -/
def ChoiceRule.criterion : ChoiceRule K → ChoiceCriterion
  | .minDistance => .minDistance
  | .minError params testLen errorType _ _ => .minError params testLen errorType

/-- `get_medoid_penalties(clustering_repr, medoids, point)` — spta/classifier/train_input.py:324-347, 388-440. -/
def ChoiceRule.penalties (rule : ChoiceRule K) (matrix : Option (Grid (Option K))) (r : Region) (p : Point) (repr : Str)
    (medoids : List AbsPoint) : Except PyErr (List (Score K)) :=
  match rule with
  | .minDistance => minDistancePenalties matrix r p medoids
  | .minError _ _ _ error label => minErrorPenalties (error p repr) (label p repr) medoids

/-- The arguments of the program, its input files other than the CSV, and the random outcome
— experiments/clustering/extraction_lstm.py:22-140. -/
structure Extraction (K : Type) where
  md : RegionMeta
  suite : SuiteId
  rule : ChoiceRule K
  count : Nat
  seed : Int
  threshold : Int
  /-- The file `region_metadata.distances_filename`. -/
  matrixFile : MatrixFile (Option K)
  /-- `region_metadata.create_instance()` -/
  region : Except PyErr (Stack K)
  /-- The permutation drawn by `np.random.choice` for the seed. -/
  perm : List Nat
  /-- `'{:0.3f}'.format(x)` -/
  show3 : Option K → Str

namespace Extraction

/-- `output_home = 'outputs'` — experiments/clustering/extraction_lstm.py:88. -/
def home : Str := "outputs".toList

/-- The file of the analysis of the suite — spta/clustering/suite.py:184-190. -/
def analysisPath (x : Extraction K) : Str := x.suite.analysisPath home x.md .dtw

/-- `choice_csv` and `hist_csv` — spta/classifier/train_input.py:92-95. -/
def path (x : Extraction K) (f : ChoiceFile) : Str :=
  ChoiceRun.path ⟨x.md, .dtw, x.suite, x.rule.criterion, x.count, x.seed, x.threshold.toNat⟩ home f

/-- The file of the medoids — spta/classifier/train_input.py:566-569. -/
def medoidPath (x : Extraction K) : Str := x.suite.medoidPath home x.md .dtw

/-- The text of a cell; only texts, integers and samples occur — spta/classifier/train_input.py:112-130, 585-604. -/
def cellText (show3 : Option K → Str) : Cell K → Str
  | .text s => s
  | .index i => intStr i
  | .number v => show3 v
  | _ => []

/-- The row for a point and the medoid chosen for it — spta/classifier/train_input.py:112-130. -/
def choiceRow (regionId : Str) (s : Stack K) (p : Point) (c : Str × Nat × AbsPoint) : Except PyErr (List (Cell K)) :=
  match trainRow regionId c.1 c.2.1 c.2.2 [] with
  | .error e => .error e
  | .ok row =>
    match s.seriesAt p with
    | .error e => .error e
    | .ok v => .ok (row ++ v.map .number)

/-- The loop over the random points — spta/classifier/train_input.py:104-132: the histogram or the exception, and the
text written so far. -/
def choiceLoop (x : Extraction K) (matrix : Option (Grid (Option K))) (s : Stack K) (suite : SuiteResult) :
    List Point → MedoidHist → Except PyErr MedoidHist × Str
  | [], hist => (.ok hist, [])
  | p :: ps, hist =>
    match chooseMedoid (x.rule.penalties matrix x.md.region p) x.threshold suite hist with
    | (.error e, _) => (.error e, [])
    | (.ok c, hist') =>
      match choiceRow x.md.repr s p c with
      | .error e => (.error e, [])
      | .ok row =>
        ((x.choiceLoop matrix s suite ps hist').1,
          csvRecord (row.map (cellText x.show3)) ++ (x.choiceLoop matrix s suite ps hist').2)

/-- The rows of the histogram — spta/classifier/train_input.py:142-147. -/
def histRow (e : MedoidKey × Nat) : List Str := [e.1.1, natStr e.1.2, natStr e.2]

/-- The header of the histogram — spta/classifier/train_input.py:142. -/
def histHeader : List Str := ["clustering_repr".toList, "cluster_index".toList, "count".toList]

/-- `evaluate_score_of_random_points(..)` — spta/classifier/train_input.py:65-152: the result and the files. The header
is calculated after the file has been opened for writing. -/
def evaluate (x : Extraction K) (matrix : Option (Grid (Option K))) (s : Stack K) (files : Str → Option Str) :
    Except PyErr Unit × (Str → Option Str) :=
  match retrieveSuiteText (files x.analysisPath) with
  | .error e => (.error e, files)
  | .ok suite =>
    match randomPoints x.count x.perm (allMedoidIndices suite s.data.grid.yLen) s.data.grid.xLen s.data.grid.yLen with
    | .error e => (.error e, files)
    | .ok points =>
      match trainHeader (K := K) suite s.data.tLen with
      | .error e => (.error e, Function.update files (x.path .choice) (some []))
      | .ok header =>
        let body := x.choiceLoop matrix s suite points []
        let files1 := Function.update files (x.path .choice) (some (csvRecord header ++ body.2))
        match body.1 with
        | .error e => (.error e, files1)
        | .ok hist =>
          (.ok (), Function.update files1 (x.path .hist) (some (csvWrite (histHeader :: hist.map histRow))))

/-- The row of a medoid — spta/classifier/train_input.py:582-604. -/
def medoidRecord (x : Extraction K) (e : Str × Nat × AbsPoint × List (Option K)) : Except PyErr (List Str) :=
  (trainRow x.md.repr e.1 e.2.1 e.2.2.1 e.2.2.2).map (·.map (cellText x.show3))

/-- `produce_csv(output_home)` — spta/classifier/train_input.py:554-611. -/
def produceCsv (x : Extraction K) (s : Stack K) (files : Str → Option Str) :
    Except PyErr Unit × (Str → Option Str) :=
  match retrieveSuiteText (files x.analysisPath) with
  | .error e => (.error e, files)
  | .ok suite =>
    match medoidData s x.md.region suite with
    | .error e => (.error e, files)
    | .ok data =>
      match trainHeader (K := K) suite s.data.tLen with
      | .error e => (.error e, Function.update files x.medoidPath (some []))
      | .ok header =>
        let body := writeRecords x.medoidRecord (data.flatMap fun e => e.2.map fun m => (e.1, m))
        (body.1, Function.update files x.medoidPath (some (csvRecord header ++ body.2)))

/-- `analyze_suite(args, logger)` — experiments/clustering/extraction_lstm.py:83-113. A file of distances that cannot
be opened is no error of `load_distance_matrix_2d`. -/
def run (x : Extraction K) (files : Str → Option Str) : Except PyErr Unit × (Str → Option Str) :=
  match (loadMatrix2d x.matrixFile x.md.region none).1 with
  | .error e => (.error e, files)
  | .ok matrix =>
    match x.region with
    | .error e => (.error e, files)
    | .ok s =>
      match x.evaluate matrix s files with
      | (.error e, files') => (.error e, files')
      | (.ok _, files') => x.produceCsv s files'

end Extraction

end

end Spta
