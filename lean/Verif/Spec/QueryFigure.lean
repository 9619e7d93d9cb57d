import Verif.Model.QueryFigure
import Verif.Spec.Classifier

/-!
# Specifications about the figure of a query, independent of the modelled functions
-/

namespace Spta

variable {K : Type} [Field K] [LinearOrder K]

/-- The position (horizontal `u`, vertical `v`) belongs to the square of point `p` in the image: `imshow` of
matplotlib draws element (i, j) of the array as the square with side 1 around horizontal j, vertical i. -/
def InSquare (p : Point) (u v : K) : Prop :=
  (p.y : K) - 1 / 2 ≤ u ∧ u ≤ (p.y : K) + 1 / 2 ∧ (p.x : K) - 1 / 2 ≤ v ∧ v ≤ (p.x : K) + 1 / 2

/-- The position belongs to the rectangle. -/
def Rectangle.Covers (t : Rectangle K) (u v : K) : Prop :=
  t.left ≤ u ∧ u ≤ t.left + t.width ∧ t.base ≤ v ∧ v ≤ t.base + t.height

end Spta
