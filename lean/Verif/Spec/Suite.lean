import Mathlib.Algebra.Order.Field.Basic

/-!
# Specification of elbows (C53)
-/

namespace Spta

variable {K : Type} [Field K] [LinearOrder K]

/-- Second divided difference (times 2) of three points: the second derivative of the parabola through
them (see `curvature_parabola`). -/
def curvature (p1 p2 p3 : Int × K) : K :=
  2 * (((p3.2 - p2.2) / ((p3.1 : K) - p2.1) - (p2.2 - p1.2) / ((p2.1 : K) - p1.1)) /
    ((p3.1 : K) - p1.1))

/-- The second derivative of three points whose values may be missing. -/
def curvatureOf : Int × Option K → Int × Option K → Int × Option K → Option K
  | (x1, some y1), (x2, some y2), (x3, some y3) => some (curvature (x1, y1) (x2, y2) (x3, y3))
  | _, _, _ => none

/-- The discrete second derivative at position `i` of a list of points; none at the two ends, and none if one of
the three values is missing. -/
def curvatureAt (pts : List (Int × Option K)) : Nat → Option K
  | 0 => none
  | i + 1 =>
    match pts[i]?, pts[i + 1]?, pts[i + 2]? with
    | some a, some b, some c => curvatureOf a b c
    | _, _, _ => none

/-- Position `i` is the first interior position where the second derivative is largest, of the ones that have
one. -/
def IsElbow (pts : List (Int × Option K)) (i : Nat) : Prop :=
  ∃ d, curvatureAt pts i = some d ∧ (∀ j e, curvatureAt pts j = some e → e ≤ d) ∧
    ∀ j e, j < i → curvatureAt pts j = some e → e < d

/-- The elbow, or the last position if there is no second derivative at all. -/
def ElbowPosition (pts : List (Int × Option K)) (i : Nat) : Prop :=
  IsElbow pts i ∨ ((∀ j, curvatureAt pts j = none) ∧ i + 1 = pts.length)

end Spta
