import Mathlib.Order.BoundedOrder.Basic
import Mathlib.Algebra.BigOperators.Group.List.Basic
import Verif.Model.Basic

/-!
# Specification of first extrema and centroids
-/

namespace Spta

variable {V : Type} [LinearOrder V]

/-- `res` is the first of the points `ps` with the smallest number stored in `g` (NaN, `none`, does
not count), with that number; no point exactly when no number is below `+inf`. -/
def FirstMin [OrderTop V] (g : Grid (Option V)) (ps : List Point) : Option Point × V → Prop
  | (none, v) => v = ⊤ ∧ ∀ p ∈ ps, ∀ w, g.get p = .ok (some w) → w = ⊤
  | (some p, v) => v < ⊤ ∧ g.get p = .ok (some v) ∧
      (∀ q ∈ ps, ∀ w, g.get q = .ok (some w) → v ≤ w) ∧
      ∃ pre post, ps = pre ++ p :: post ∧ ∀ q ∈ pre, g.get q ≠ .ok (some v)

/-- Dual of `FirstMin`. -/
def FirstMax [OrderBot V] (g : Grid (Option V)) (ps : List Point) : Option Point × V → Prop
  | (none, v) => v = ⊥ ∧ ∀ p ∈ ps, ∀ w, g.get p = .ok (some w) → w = ⊥
  | (some p, v) => ⊥ < v ∧ g.get p = .ok (some v) ∧
      (∀ q ∈ ps, ∀ w, g.get q = .ok (some w) → w ≤ v) ∧
      ∃ pre post, ps = pre ++ p :: post ∧ ∀ q ∈ pre, g.get q ≠ .ok (some v)

/-- The sum of some distances is the number `s` (in particular none of them is NaN). -/
def SumIs [AddCommMonoid V] (ds : List (Option V)) (s : V) : Prop :=
  ∃ vs : List V, ds = vs.map some ∧ s = vs.sum

/-- `res` is the centroid of the points `ps` for the distances `d`: the first point whose sum of
distances to all points of `ps` is a number below `+inf` and minimal, with its distances to all of
them; none exactly when no point has such a sum. -/
def IsCentroid [AddCommMonoid V] [OrderTop V] (d : Point → Point → Option V) (ps : List Point) :
    Option (Point × List (Option V)) → Prop
  | none => ∀ p ∈ ps, ∀ s, SumIs (ps.map (d p)) s → s = ⊤
  | some (c, ds) => ds = ps.map (d c) ∧ ∃ s, SumIs ds s ∧ s < ⊤ ∧
      (∀ q ∈ ps, ∀ s', SumIs (ps.map (d q)) s' → s ≤ s') ∧
      ∃ pre post, ps = pre ++ c :: post ∧ ∀ q ∈ pre, ¬ SumIs (ps.map (d q)) s

end Spta
