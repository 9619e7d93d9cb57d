import Verif.Model.SuiteFiles
import Verif.Props.SolverFiles

/-!
# Specification of the names of files
-/

namespace Spta

/-- Two metadata objects that differ at most in the rectangle and the settings of the dataset. -/
def SameRegion (md md' : RegionMeta) : Prop :=
  md.name = md'.name ∧ md.yearStart = md'.yearStart ∧ md.yearEnd = md'.yearEnd ∧ md.spd = md'.spd ∧
    md.scaled = md'.scaled

/-- Names without path separators; the name of the algorithm has no hyphen. -/
def SuiteId.Good (s : SuiteId) : Prop := '/' ∉ s.name ∧ '/' ∉ s.identifier ∧ '-' ∉ s.name

/-- The type of the error is a plain word. -/
def ChoiceCriterion.Good : ChoiceCriterion → Prop
  | .minDistance => True
  | .minError _ _ errorType => '/' ∉ errorType ∧ '_' ∉ errorType

/-- The same criterion with the same settings, up to the distance of k nearest neighbours. -/
def ChoiceCriterion.Same : ChoiceCriterion → ChoiceCriterion → Prop
  | .minDistance, .minDistance => True
  | .minError p t e, .minError p' t' e' => SameParams p p' ∧ t = t' ∧ e = e'
  | _, _ => False

/-- Names without path separators. -/
def AnyResult.Good (q : AnyResult) : Prop :=
  '/' ∉ q.md.name ∧ '/' ∉ q.errorType ∧
    match q.kind with
    | .basic => True
    | .suite s _ => s.Good
    | .clustering c _ => GoodNames q.md c

/-- The same kind of solver, with the same suite or the same settings of the clustering. -/
def SolverKind.Same (md md' : RegionMeta) : SolverKind → SolverKind → Prop
  | .basic, .basic => True
  | .suite s _, .suite s' _ => s = s'
  | .clustering c _, .clustering c' _ => SameSettings md md' c c'
  | _, _ => False

end Spta
