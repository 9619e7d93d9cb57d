import Verif.Model.Result
import Verif.Model.MedoidErrors

/-!
# Model of the text of the CSV files and of the lines on the screen

The files are written with `csv.writer(csv_file, delimiter=' ', quotechar='|', quoting=csv.QUOTE_MINIMAL)` on files
opened with `newline=''`, and read with `csv.reader` with the same parameters (spta/clustering/suite.py:128-130). The
csv module of python 3.7 is modelled as in Modules/_csv.c: a field that spans several lines, the limit of 131072
characters per field and the rejection of NUL are included. Field and line are text; `str(array)`, which may break the
line, and `'{:.2f}'`, `'{:.3f}'` are parameters.
-/

namespace Spta

/-! ### Writer -/

/-- `csv_writer.writerow(fields)`: the field of a row with a single empty field is quoted. -/
def csvRecord (fields : List Str) : Str :=
  (if fields = [[]] then ['|', '|'] else csvRow fields) ++ ['\r', '\n']

/-- The text that several calls of `writerow` leave in the file. -/
def csvWrite (rows : List (List Str)) : Str := (rows.map csvRecord).flatten

/-! ### Reader -/

/-- States of the parser. -/
inductive CsvMode where
  | startRecord | startField | inField | inQuoted | quoteInQuoted | eatCrnl
  deriving DecidableEq, Repr

/-- The parser: its state, the characters of the field and the fields of the record, both reversed. -/
structure CsvReader where
  mode : CsvMode
  field : Str
  fields : List Str

/-- `csv.field_size_limit()`, the default. -/
def csvFieldLimit : Nat := 131072

namespace CsvReader

/-- The parser before a record. -/
def start : CsvReader := ⟨.startRecord, [], []⟩

/-- `parse_add_char` -/
def addChar (r : CsvReader) (c : Char) (mode : CsvMode) : Except PyErr CsvReader :=
  if csvFieldLimit ≤ r.field.length then .error .valueError else .ok ⟨mode, c :: r.field, r.fields⟩

/-- `parse_save_field` -/
def save (r : CsvReader) (mode : CsvMode) : CsvReader := ⟨mode, [], r.field.reverse :: r.fields⟩

/-- The start of a field. -/
def fieldChar (r : CsvReader) : Option Char → Except PyErr CsvReader
  | none => .ok (r.save .startRecord)
  | some c =>
    if c = '\n' ∨ c = '\r' then .ok (r.save .eatCrnl)
    else if c = '|' then .ok { r with mode := .inQuoted }
    else if c = ' ' then .ok (r.save .startField)
    else r.addChar c .inField

/-- `parse_process_char`; `none` is the end of a line. -/
def process (r : CsvReader) (t : Option Char) : Except PyErr CsvReader :=
  if t = some '\x00' then .error .valueError else
  match r.mode with
  | .startRecord =>
    match t with
    | none => .ok r
    | some c => if c = '\n' ∨ c = '\r' then .ok { r with mode := .eatCrnl } else r.fieldChar t
  | .startField => r.fieldChar t
  | .inField =>
    match t with
    | none => .ok (r.save .startRecord)
    | some c =>
      if c = '\n' ∨ c = '\r' then .ok (r.save .eatCrnl)
      else if c = ' ' then .ok (r.save .startField)
      else r.addChar c .inField
  | .inQuoted =>
    match t with
    | none => .ok r
    | some c => if c = '|' then .ok { r with mode := .quoteInQuoted } else r.addChar c .inQuoted
  | .quoteInQuoted =>
    match t with
    | none => .ok (r.save .startRecord)
    | some c =>
      if c = '|' then r.addChar c .inQuoted
      else if c = ' ' then .ok (r.save .startField)
      else if c = '\n' ∨ c = '\r' then .ok (r.save .eatCrnl)
      else r.addChar c .inField
  | .eatCrnl =>
    match t with
    | none => .ok { r with mode := .startRecord }
    | some c => if c = '\n' ∨ c = '\r' then .ok r else .error .valueError

end CsvReader

/-- The characters of a text read line by line from a file opened with `newline=''`, with a mark after each line:
lines end with `\n`, `\r` or `\r\n`. -/
def csvTokens : Str → List (Option Char)
  | [] => []
  | [c] => [some c, none]
  | c :: d :: cs =>
    if c = '\n' ∨ (c = '\r' ∧ d ≠ '\n') then some c :: none :: csvTokens (d :: cs)
    else some c :: csvTokens (d :: cs)

/-- The records of `csv.reader`, and the error that ends them. A text that ends within quotes is a record. -/
def csvRun : List (Option Char) → CsvReader → List (List Str) × Option PyErr
  | [], r => if r.field ≠ [] ∨ r.mode = .inQuoted then ([(r.save .startRecord).fields.reverse], none) else ([], none)
  | t :: ts, r =>
    match r.process t with
    | .error e => ([], some e)
    | .ok r' =>
      if t = none ∧ r'.mode = .startRecord then
        (r'.fields.reverse :: (csvRun ts .start).1, (csvRun ts .start).2)
      else csvRun ts r'

/-- The loop over `csv.reader(csv_file, ..)`. -/
def csvReadText (text : Str) : List (List Str) × Option PyErr := csvRun (csvTokens text) .start

/-- The loop of `retrieve_suite_result_csv` over the rows — spta/clustering/suite.py:134-157. -/
def readSuiteRecords : List (List Str) → List (Str × List (Int × Int)) → Except PyErr (List (Str × List (Int × Int)))
  | [], result => .ok result
  | row :: rows, result =>
    match listAt row 0 with
    | .error e => .error e
    | .ok key =>
      match listAt row 2 with
      | .error e => .error e
      | .ok column =>
        match parseMedoids column with
        | .error e => .error e
        | .ok medoids => readSuiteRecords rows (dictSet key medoids result)

/-- `retrieve_suite_result_csv` on the text of the file — spta/clustering/suite.py:102-159: a missing file is a
ValueError; a file without any line ends with StopIteration (a ValueError here). -/
def retrieveSuiteText (file : Option Str) : Except PyErr (List (Str × List (Int × Int))) :=
  match file with
  | none => .error .valueError
  | some text =>
    match csvReadText text with
    | ([], some e) => .error e
    | ([], none) => .error .valueError
    | (_ :: rows, err) =>
      match readSuiteRecords rows [] with
      | .error e => .error e
      | .ok result => match err with | some e => .error e | none => .ok result

/-- The text of a file whose records are the given lines. -/
def fileText (file : List Str) : Str := (file.map (· ++ ['\r', '\n'])).flatten

/-! ### Files of a prediction query -/

variable {K : Type} [Field K] [LinearOrder K]

/-- The texts of numbers: `'{:.2f}'.format(x)`, `'{:.3f}'.format(x)` and `str(array)`. -/
structure NumberText (K : Type) where
  show2 : Option K → Str
  show3 : ErrorVal K → Str
  showSeries : List (Option K) → Str

/-- The text of a cell: `str(..)` by the csv module, or the format of spta/solver/result.py:108, 130, 475. -/
def Cell.str (n : NumberText K) : Cell K → Str
  | .coords p => pointText p
  | .number v => n.show2 v
  | .errorValue v => n.show3 v
  | .series s => n.showSeries s
  | .index i => intStr i
  | .text s => s

/-- The records written one by one until one fails: what happened and what is in the file. -/
def writeRecords {A : Type} (record : A → Except PyErr (List Str)) : List A → Except PyErr Unit × Str
  | [] => (.ok (), [])
  | a :: rest =>
    match record a with
    | .error e => (.error e, [])
    | .ok row => ((writeRecords record rest).1, csvRecord row ++ (writeRecords record rest).2)

namespace Result

/-- `write_prediction_results` — spta/solver/result.py:196-212: the text of the file. -/
def writeResults (n : NumberText K) (r : Result K) : Except PyErr Unit × Str :=
  let body := writeRecords (fun p => (r.tuple p).map (·.map (Cell.str n))) r.points
  (body.1, csvRecord (r.header.map String.toList) ++ body.2)

/-- `write_prediction_summary` — spta/solver/result.py:220-236. -/
def writeSummary (measure : List (Option K) → List (Option K) → Option K)
    (combine : List (Option K) → Option K) (root : Option K → Option K) (n : NumberText K) (r : Result K) :
    Except PyErr Unit × Str :=
  match r.summaryTuple measure combine root with
  | .error e => (.error e, csvRecord (r.summaryHeader.map String.toList))
  | .ok row => (.ok (), csvRecord (r.summaryHeader.map String.toList) ++ csvRecord (row.map (Cell.str n)))

/-- `save_as_csv()` — spta/solver/result.py:162-194 on the files; the two paths are in Model/SolverFiles.lean. -/
def saveAsCsv (measure : List (Option K) → List (Option K) → Option K)
    (combine : List (Option K) → Option K) (root : Option K → Option K) (n : NumberText K)
    (resultPath summaryPath : Str) (r : Result K) (files : Str → Option Str) :
    Except PyErr Unit × (Str → Option Str) :=
  let res := r.writeResults n
  let files1 := Function.update files resultPath (some res.2)
  match res.1 with
  | .error e => (.error e, files1)
  | .ok _ =>
    let sum := r.writeSummary measure combine root n
    (sum.1, Function.update files1 summaryPath (some sum.2))

/-! ### Lines for the screen -/

/-- `'{:<20} {}'.format(name, text)` -/
def labelled (name text : Str) : Str := name ++ List.replicate (20 - name.length) ' ' ++ ' ' :: text

/-- `'Error ({}): {:.3f}'.format(..)` — spta/solver/result.py:71-73. -/
def errorLine (n : NumberText K) (errorType : Str) (v : ErrorVal K) : Str :=
  "Error (".toList ++ errorType ++ "): ".toList ++ n.show3 v

/-- `lines_for_point(relative_point)` — spta/solver/result.py:262-290, 331-353, 384-405, 612-635. `errorType` is that
of the solver metadata. -/
def lines (n : NumberText K) (errorType : Str) : Result K → Point → Except PyErr (List Str)
  | inSample b test, p =>
    match b.forecast.seriesAt p with
    | .error e => .error e
    | .ok f =>
      match test.seriesAt p with
      | .error e => .error e
      | .ok s =>
        match b.errors.valueAt p with
        | .error e => .error e
        | .ok v =>
          .ok ["Point: ".toList ++ pointText ((inSample b test).absolute ((inSample b test).toDomain p)),
            labelled "Forecast:".toList (n.showSeries f), labelled "Test:".toList (n.showSeries s),
            errorLine n errorType v]
  | outOfSample b, p =>
    match b.forecast.seriesAt p with
    | .error e => .error e
    | .ok f =>
      match b.errors.valueAt p with
      | .error e => .error e
      | .ok v =>
        .ok ["Point: ".toList ++ pointText ((outOfSample b).absolute ((outOfSample b).toDomain p)),
          labelled "Forecast (future):".toList (n.showSeries f), errorLine n errorType v]
  | withPartition d pt ms cl, p =>
    match d.lines n errorType p with
    | .error e => .error e
    | .ok ls =>
      match clusterIndexOf pt ((withPartition d pt ms cl).toDomain p) with
      | .error e => .error e
      | .ok i =>
        match ls with
        | [] => .error .indexError
        | _ :: rest =>
          .ok (("Point: ".toList ++ pointText (d.absolute ((withPartition d pt ms cl).toDomain p)) ++
            " (cluster ".toList ++ natStr i ++ [')']) :: rest)
  | fromClassifier d suite labels, p =>
    match d.lines n errorType p with
    | .error e => .error e
    | .ok ls =>
      match dictGet (d.toRelative ((fromClassifier d suite labels).toDomain p))
          (labels.map fun w => ((⟨w.1.x, w.1.y⟩ : IPoint), w.2)) with
      | .error e => .error e
      | .ok l =>
        match ls with
        | [] => .error .indexError
        | _ :: rest =>
          .ok (("Point: ".toList ++ pointText (d.absolute ((fromClassifier d suite labels).toDomain p)) ++
            " (label ".toList ++ l ++ [')']) :: rest)

/-- What the solver programs print for a result — experiments/auto_arima/solver.py:217-223 and the same lines of the
other programs: a list of lines per point. -/
def printed (n : NumberText K) (errorType : Str) (r : Result K) : Except PyErr (List (List Str)) :=
  r.points.mapM fun p =>
    match r.lines n errorType p with
    | .error e => .error e
    | .ok ls => .ok (List.replicate 33 '*' :: ls)

end Result

end Spta
