import Mathlib.Algebra.Group.Defs
import Verif.Spec.Extrema
import Verif.Spec.Region
import Verif.Model.Centroid

/-!
# Specification of the centroids of regions and clusters
-/

namespace Spta

variable {S V : Type}

/-- The distance of the series of two points of a region. -/
def seriesDistance (measure : S → S → Option V) (g : Grid S) (p q : Point) : Option V :=
  match g.get p, g.get q with
  | .ok s, .ok t => measure s t
  | _, _ => none

/-- `res` is the centroid of a region for a measure: the first of its points, in the order of the rows, for
which the sum of the distances of its series to the series of all points is a number below `+inf` and minimal;
none exactly when no point has such a sum. -/
def CentroidOf [LinearOrder V] [AddCommMonoid V] [OrderTop V] (measure : S → S → Option V) (g : Grid S)
    (res : Option Point) : Prop :=
  ∃ full, IsCentroid (seriesDistance measure g) (rowMajor g.xLen g.yLen) full ∧ res = full.map Prod.fst

/-- Addition of floats, where NaN is absorbing. -/
@[reducible] def nanAddZero [AddCommMonoid V] : AddZeroClass (Option V) where
  zero := some 0
  add a b := a.bind fun x => b.map fun y => x + y
  zero_add a := by
    show (some (0 : V)).bind (fun x => a.map fun y => x + y) = a
    cases a <;> simp
  add_zero a := by
    show a.bind (fun x => (some (0 : V)).map fun y => x + y) = a
    cases a <;> simp

/-- The centroid that a chain of a region and its decorators has: the first one that is set, from the outside
to the inside. -/
inductive Holder.Has : Holder → Point → Prop where
  | base (p : Point) : Holder.Has (.base (some p)) p
  | here (p : Point) (h : Holder) : Holder.Has (.decorator (some p) h) p
  | inner {h : Holder} {p : Point} (hp : h.Has p) : Holder.Has (.decorator none h) p

end Spta
