import Verif.Model.Distance

/-!
# Specifications for distance objects
-/

namespace Spta

variable {K : Type}

/-- Number of points of a rectangle. -/
def Region.points (r : Region) : Nat := (r.x2 - r.x1) * (r.y2 - r.y1)

/-- A matrix with one row and one column per point. -/
def FitsRegion (g : Grid K) (r : Region) : Prop := g.xLen = r.points ∧ g.yLen = r.points

instance (g : Grid K) (r : Region) : Decidable (FitsRegion g r) :=
  inferInstanceAs (Decidable (_ ∧ _))

/-- The matrix that the history of requests established last: that of the last file that fitted its
rectangle or of the last successful computation. -/
def lastPlain : List (DistOp K) → Option (Grid K)
  | [] => none
  | op :: ops =>
    match lastPlain ops with
    | some g => some g
    | none =>
      match op with
      | .load (.matrix g) r => if FitsRegion g r then some g else none
      | .compute (.ok g) => some g
      | _ => none

/-- Squared Euclidean distance between grid points. -/
def sqDist (p q : Point) : Nat :=
  ((p.x : Int) - q.x).natAbs ^ 2 + ((p.y : Int) - q.y).natAbs ^ 2

/-- `m` is `plain` plus `weight` times the Euclidean distance, for the points of `r`. -/
def WeightedOnce [Add K] [Mul K] (root : Nat → K) (weight : K) (r : Region) (plain m : Grid K) :
    Prop :=
  m.WF ∧ m.xLen = plain.xLen ∧ m.yLen = plain.yLen ∧
    ∀ p q : Point, p.x < r.x2 - r.x1 → p.y < r.y2 - r.y1 → q.x < r.x2 - r.x1 → q.y < r.y2 - r.y1 →
      ∃ v, plain.get ⟨p.x * (r.y2 - r.y1) + p.y, q.x * (r.y2 - r.y1) + q.y⟩ = .ok v ∧
        m.get ⟨p.x * (r.y2 - r.y1) + p.y, q.x * (r.y2 - r.y1) + q.y⟩ =
          .ok (v + weight * root (sqDist p q))

/-- The matrices of a request are well formed and square. -/
def DistOp.OK : DistOp K → Prop
  | .load (.matrix g) _ => g.WF
  | .compute (.ok g) => g.WF ∧ g.xLen = g.yLen
  | _ => True

end Spta
