import Verif.Model.RegionPickle

/-!
# Specifications for the pickle files of regions
-/

namespace Spta

variable {K : Type} [Field K] [LinearOrder K]

/-- The method adds a decorator. -/
def RegionOp.Decorates : RegionOp K → Prop
  | .scale => True
  | .cluster _ _ => True
  | _ => False

/-- The names are names of files, and no two metadata differ in their rectangle or directory only. -/
def GoodDirs (ms : List DirMeta) : Prop :=
  (∀ m ∈ ms, '/' ∉ m.name) ∧
  ∀ m ∈ ms, ∀ m' ∈ ms, m.name = m'.name → m.yearStart = m'.yearStart → m.yearEnd = m'.yearEnd → m.spd = m'.spd →
    m.scaled = m'.scaled → m = m'

/-- The run pickles `r` to `path`. -/
def PickleRun.Writes (world : DirMeta → Except PyErr (Cube (Option K))) (run : PickleRun K) (path : Str) (r : MdRegion K) :
    Prop :=
  run.result world = .ok r ∧ ∃ m, r.md = some m ∧ path = m.pickleFile run.home

/-- The metadata of no layer are others than `m`. -/
def MdRegion.OnlyMd (m : DirMeta) : MdRegion K → Prop
  | .plain _ md => md = none ∨ md = some m
  | .scaled inner _ _ md => (md = none ∨ md = some m) ∧ inner.OnlyMd m
  | .cluster inner _ _ md => (md = none ∨ md = some m) ∧ inner.OnlyMd m

end Spta
