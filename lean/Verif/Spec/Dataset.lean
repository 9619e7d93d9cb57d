import Verif.Spec.Util
import Verif.Model.Dataset

/-!
# Specifications for the dataset files
-/

namespace Spta

variable {K : Type} [Field K] [LinearOrder K]

/-- `out` has one value per day of `s`, which has four samples per day: the mean of the four samples of
the day, NaN if one of them is NaN. -/
structure DailyMeans (s out : List (Option K)) : Prop where
  len : out.length * 4 = s.length
  mean : ∀ (day : Nat) (a b c e : K), s[4 * day]? = some (some a) → s[4 * day + 1]? = some (some b) →
    s[4 * day + 2]? = some (some c) → s[4 * day + 3]? = some (some e) →
    out[day]? = some (some ((a + b + c + e) / 4))
  nan : ∀ (day k : Nat), k < 4 → s[4 * day + k]? = some none → out[day]? = some none

/-- `out` are the samples of the years `yearStart .. yearEnd` of a series with `spd` samples per day that
starts on 1 January of `firstYear`. -/
structure YearSamples {α : Type} (firstYear yearStart yearEnd : Int) (spd : Nat) (s out : List α) :
    Prop where
  len : (out.length : Int) = daysOfYears yearStart (yearEnd + 1 - yearStart).toNat * spd
  samples : ∀ t < out.length,
    out[t]? = s[(daysOfYears firstYear (yearStart - firstYear).toNat * spd).toNat + t]?

/-- The series that belongs to the years `yearStart .. yearEnd` and to `spd` samples per day (1 or 4),
for a raw series with 4 samples per day from 1979 on. -/
def IsYearSeries (yearStart yearEnd spd : Int) (s out : List (Option K)) : Prop :=
  (spd = 4 ∧ YearSamples 1979 yearStart yearEnd 4 s out) ∨
  (spd = 1 ∧ ∃ mid, YearSamples 1979 yearStart yearEnd 4 s mid ∧ DailyMeans mid out)

/-- The raw dataset covers the years 1979 to 2015 with 4 samples per day. -/
def CoversAllYears (raw : Cube (Option K)) : Prop :=
  raw.WF ∧ (raw.tLen : Int) = daysOfYears 1979 37 * 4

/-- What a program can do with the dataset: retrieve an interval, create a region, create a region and
save it. -/
inductive DiskOp where
  | retrieve (yearStart yearEnd spd : Int)
  | load (m : DirMeta)
  | save (m : DirMeta)

/-- The files after one operation (which may raise an exception). -/
def DiskOp.run (d : Disk K) : DiskOp → Disk K
  | .retrieve ys ye spd => (Spta.retrieve d ys ye spd datasetName).2
  | .load m => (createInstance d m).2
  | .save m =>
    match createInstance d m with
    | (.ok r, d') => (r.save d').2
    | (.error _, d') => d'

/-- The files after a history of operations. -/
def runOps (d : Disk K) (ops : List DiskOp) : Disk K := ops.foldl DiskOp.run d

/-- Saving this region does not overwrite a cached dataset: its file has another name. -/
def DiskOp.Safe : DiskOp → Prop
  | .save m => m.scaled = true ∨ m.dir ≠ ['r', 'a', 'w'] ∨
      m.name ≠ ['S', 'o', 'u', 't', 'h', 'A', 'm', 'e', 'r', 'i', 'c', 'a']
  | _ => True

/-- The disk holds no (readable) cached interval of the dataset. -/
def NoCache (d : Disk K) : Prop :=
  ∀ ys ye spd c, d.npy (formatByYear datasetName ys ye spd) ≠ some (some c)

/-- The kinds of numpy files of a region. -/
inductive NpyKind where
  | dataset | distances | scaleMin | scaleMax
  deriving DecidableEq

/-- The file of a kind. -/
def NpyKind.file (m : DirMeta) : NpyKind → Str
  | .dataset => m.datasetFile
  | .distances => m.distancesFile
  | .scaleMin => m.minFile
  | .scaleMax => m.maxFile

end Spta
