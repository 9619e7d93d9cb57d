import Verif.Model.DistanceFiles
import Verif.Spec.SolverSession

/-!
# Specification of the files of distance matrices
-/

namespace Spta

variable {S V : Type}

/-- A square matrix that holds the distances between the series of a region: the element of two different
points is the distance of their series; the element of a point and itself is the distance of its series to
itself, or zero. -/
structure HoldsDistances [Zero V] (measure : S → S → V) (g : Grid S) (m : Grid V) : Prop where
  wf : m.WF
  xLen : m.xLen = g.xLen * g.yLen
  yLen : m.yLen = g.xLen * g.yLen
  other : ∀ p q : Point, ∀ s t, g.get p = .ok s → g.get q = .ok t → p ≠ q →
    m.get ⟨p.x * g.yLen + p.y, q.x * g.yLen + q.y⟩ = .ok (measure s t)
  self : ∀ p : Point, ∀ s, g.get p = .ok s →
    m.get ⟨p.x * g.yLen + p.y, p.x * g.yLen + p.y⟩ = .ok (measure s s) ∨
    m.get ⟨p.x * g.yLen + p.y, p.x * g.yLen + p.y⟩ = .ok 0

/-- The measure is symmetric on the series of a region. -/
def SymmetricOn (measure : S → S → V) (g : Grid S) : Prop :=
  ∀ p q : Point, ∀ s t, g.get p = .ok s → g.get q = .ok t → measure s t = measure t s

/-- The region of a metadata has the size of its rectangle. -/
def RegionFits (g : Grid S) (md : RegionMeta) : Prop :=
  g.WF ∧ g.xLen = md.region.x2 - md.region.x1 ∧ g.yLen = md.region.y2 - md.region.y1

end Spta
