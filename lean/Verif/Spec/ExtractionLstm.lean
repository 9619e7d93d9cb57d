import Mathlib.Data.Int.Interval
import Verif.Model.ExtractionLstm
import Verif.Spec.CsvText

/-!
# Specification of the files of the extraction program (C141)

The rows are those that a csv reader finds in the files.
-/

namespace Spta

/-- The medoid that a row of the training files names, as text. -/
structure MedoidRef where
  repr : Str
  index : Str
  x : Str
  y : Str
  deriving DecidableEq

/-- What a row says: after the region come the columns of the clustering, which are `type k` for a regular clustering
and `type k seed mode` otherwise, then the index and the coordinates of the medoid, and the samples. -/
def medoidRef : List Str → Option (MedoidRef × List Str)
  | _ :: type :: k :: rest =>
    if type = "regular".toList then
      match rest with
      | i :: x :: y :: samples => some (⟨type ++ "_k".toList ++ k, i, x, y⟩, samples)
      | _ => none
    else
      match rest with
      | seed :: mode :: i :: x :: y :: samples =>
        some (⟨type ++ "_k".toList ++ k ++ "_seed".toList ++ seed ++ "_".toList ++ mode, i, x, y⟩, samples)
      | _ => none
  | _ => none

/-- The row names the medoid with this index in this clustering. -/
def Names (repr index : Str) (row : List Str) : Bool :=
  match medoidRef row with
  | some (ref, _) => ref.repr = repr ∧ ref.index = index
  | none => false

/-- The three files fit together; the rows are without the headers. -/
structure TrainingFiles (count : Nat) (choice medoids : List (List Str)) (hist : List (Str × Str × Nat)) : Prop where
  /-- There is a row for each of the points. -/
  rows : choice.length = count
  /-- Each names a medoid that has exactly one row in the file of medoids, with the same coordinates. -/
  named : ∀ row ∈ choice, ∃ ref samples, medoidRef row = some (ref, samples) ∧
    ∃ j mrow msamples, medoids[j]? = some mrow ∧ medoidRef mrow = some (ref, msamples) ∧
      ∀ (j' : Nat) mrow', medoids[j']? = some mrow' → Names ref.repr ref.index mrow' → j' = j
  /-- The histogram has one line for each medoid that was chosen. -/
  chosen : ∀ row ∈ choice, ∃ h ∈ hist, Names h.1 h.2.1 row
  once : (hist.map fun h => (h.1, h.2.1)).Nodup
  /-- It is the number of its rows. -/
  counted : ∀ h ∈ hist, h.2.2 = choice.countP (Names h.1 h.2.1) ∧ 0 < h.2.2
  total : (hist.map fun h => h.2.2).sum = count

/-- A suite whose keys are representations of clusterings without initial medoids. -/
def CanonicalSuite (suite : SuiteResult) : Prop :=
  ∀ e ∈ suite, ∃ cl : ClusterMeta, e.1 = cl.repr ∧ ∀ m, cl = .kmedoids m → '_' ∉ m.mode ∧ m.initial = none

/-- Texts and numbers that are not too long for a csv reader. -/
def ShortSuite (suite : SuiteResult) : Prop :=
  ∀ e ∈ suite, Readable e.1 ∧ e.2.length < 10 ^ 9 ∧ ∀ m ∈ e.2, m.1.natAbs < 10 ^ 9 ∧ m.2.natAbs < 10 ^ 9

namespace Extraction

variable {K : Type} [Field K] [LinearOrder K]

/-- The random generator draws a permutation of the positions of the indices that are not excluded. -/
def Draws (x : Extraction K) (suite : SuiteResult) (s : Stack K) : Prop :=
  x.perm.Perm (List.range (Finset.Icc (0 : Int) ((s.data.grid.xLen * s.data.grid.yLen : Nat) - 1) \
    (allMedoidIndices suite s.data.grid.yLen).toFinset).card)

/-- The number of points of the region whose index is not excluded from the draw. -/
noncomputable def available (suite : SuiteResult) (s : Stack K) : Nat :=
  (Finset.Icc (0 : Int) ((s.data.grid.xLen * s.data.grid.yLen : Nat) - 1) \
    (allMedoidIndices suite s.data.grid.yLen).toFinset).card

end Extraction

end Spta
