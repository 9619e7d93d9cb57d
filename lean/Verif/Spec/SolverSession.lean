import Verif.Model.SolverSession

/-!
# Specification of sessions: what the programs would do without files
-/

namespace Spta

variable {K : Type} [Field K] [LinearOrder K] {P Q M : Type}

/-- The solver for some metadata, trained from scratch without looking at any file, with its partition and
medoids. -/
def freshSolver (w : SolverWorld K P Q M) (m : SolverMeta) :
    Except PyErr (Solver K M × (Partition × List Point)) := do
  w.matrix m.md
  let spt ← w.region m.md
  let p ← w.partition m.md m.dist m.clustering
  let sv ← trainCompleteSolver (w.trainer m.params m.md) (w.refitter m.params m.md) w.forecast
    (String.ofList m.errorType) m.md.scaled spt m.testLen p.1 p.2 w.zero w.junk
  return (sv, p)

/-- The answer of that solver to a query. -/
def freshAnswer (w : SolverWorld K P Q M) (m : SolverMeta) (r : Region) (forecastLen : Int) :
    Except PyErr (Result K) := do
  let (sv, p) ← freshSolver w m
  sv.queryResult w.forecast m.md.region p.1 (some p.2) m.clustering r forecastLen

/-- The arguments that the programs accept: a region of the catalogue and the name of a type of error. -/
def SolverArgs.Accepted (regions : List RegionMeta) (a : SolverArgs) : Prop :=
  a.region ∈ regions ∧ a.errorType ∈ ["MASE".toList, "sMAPE".toList, "MSE".toList]

/-- A catalogue of regions: the names are names of files, and there are not two regions that differ in their
rectangle only. -/
def GoodCatalogue (regions : List RegionMeta) : Prop :=
  (∀ md ∈ regions, '/' ∉ md.name) ∧
  ∀ md ∈ regions, ∀ md' ∈ regions, md.name = md'.name → md.yearStart = md'.yearStart →
    md.yearEnd = md'.yearEnd → md.spd = md'.spd → md.scaled = md'.scaled → md = md'

/-- In the session there is a run of the train command for these metadata. -/
def TrainedIn (session : List SolverCommand) (m : SolverMeta) : Prop :=
  ∃ a, SolverCommand.train a ∈ session ∧ a.metadata = m

/-- Metadata that differ at most in the number of test samples and the type of error. -/
def SameButTest (m m' : SolverMeta) : Prop :=
  m.md = m'.md ∧ m.params = m'.params ∧ m.clustering = m'.clustering ∧ m.dist = m'.dist

/-- The models of the whole series do not depend on what was trained before: the trainer is its own
refitter. -/
def OwnRefitter (w : SolverWorld K P P M) (params : ModelParams) : Prop :=
  ∀ md g, w.refitter params md g = w.trainer params md

end Spta
