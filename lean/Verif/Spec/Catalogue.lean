import Verif.Model.Catalogue
import Verif.Props.RegularPartition

/-!
# Specification of the catalogues and of the analysis of regular suites
-/

namespace Spta

/-- A region has room for `k` rectangles if the most balanced factors of `k` fit in its sides. -/
def RoomFor (xLen yLen k : Nat) : Prop :=
  ∃ a b, MostBalanced k a b ∧ b ≤ max xLen yLen ∧ a ≤ min xLen yLen

/-- The sides of the rectangle of a region have room for all these numbers of clusters. -/
def RoomForAll (r : Region) (ks : List Int) : Prop :=
  ∀ k ∈ ks, RoomFor (r.x2 - r.x1) (r.y2 - r.y1) k.toNat

end Spta
