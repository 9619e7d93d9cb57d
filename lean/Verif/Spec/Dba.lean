import Mathlib.Algebra.Order.Field.Basic
import Mathlib.Data.List.Chain

/-!
# Specification of warping paths (C39, C40, C58-C60)
-/

namespace Spta

/-- One step of a warping path: one forward in the first series, in the second, or in both. -/
def IsStep (a b : Nat × Nat) : Prop :=
  b = (a.1 + 1, a.2) ∨ b = (a.1, a.2 + 1) ∨ b = (a.1 + 1, a.2 + 1)

/-- A warping path from (0, 0) to (m, n). -/
structure IsWarpingPath (w : List (Nat × Nat)) (m n : Nat) : Prop where
  chain : w.IsChain IsStep
  start : w.head? = some (0, 0)
  stop : w.getLast? = some (m, n)

variable {K : Type} [Field K]

/-- Sum of the squared differences along a path. -/
def pathCost (s t : List K) (w : List (Nat × Nat)) : K :=
  (w.map fun p => (s.getD p.1 0 - t.getD p.2 0) ^ 2).sum

/-- `v` is the least cost of a warping path aligning all of `s` with all of `t`. -/
def IsDTW [LinearOrder K] (s t : List K) (v : K) : Prop :=
  (∃ w, IsWarpingPath w (s.length - 1) (t.length - 1) ∧ pathCost s t w = v) ∧
  ∀ w, IsWarpingPath w (s.length - 1) (t.length - 1) → v ≤ pathCost s t w

/-- `v` is the sum of the least costs of aligning `s` with each of the series. -/
def IsDTWSum [LinearOrder K] (s : List K) (series : List (List K)) (v : K) : Prop :=
  ∃ vs, List.Forall₂ (fun t u => IsDTW s t u) series vs ∧ vs.sum = v

/-- The pairs (position of the centre, value) of all values aligned to the centre by the paths `ws` of
the series. -/
def alignedPairs (series : List (List K)) (ws : List (List (Nat × Nat))) : List (Nat × K) :=
  (List.zip series ws).flatMap fun sw => sw.2.map fun p => (p.1, sw.1.getD p.2 0)

/-- The values aligned to position `i` of the centre. -/
def alignedAt (series : List (List K)) (ws : List (List (Nat × Nat))) (i : Nat) : List K :=
  ((alignedPairs series ws).filter fun p => p.1 = i).map Prod.snd

end Spta
