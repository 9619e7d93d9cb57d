import Verif.Model.Pareto

/-!
# Specification of optimal models
-/

namespace Spta

variable {B K : Type} [Field K] [LinearOrder K]

/-- What `oapackage` documents: the indices of the points that no other point dominates; greater values are
better. -/
def IsPareto (pareto : List (K × K) → List Nat) : Prop :=
  ∀ ws, (pareto ws).Nodup ∧ ∀ i : Nat, i ∈ pareto ws ↔ ∃ w, ws[i]? = some w ∧
    ∀ w' ∈ ws, ¬ (w.1 ≤ w'.1 ∧ w.2 ≤ w'.2 ∧ w' ≠ w)

/-- One model is better than another: not slower and not less precise, and not equal in both. -/
def PerfRow.Better (r r' : PerfRow B K) : Prop :=
  r.time ≤ r'.time ∧ r.error ≤ r'.error ∧ (r.time < r'.time ∨ r.error < r'.error)

/-- A list of models with positive time and error. -/
def PositiveRows (rows : List (PerfRow B K)) : Prop := ∀ r ∈ rows, 0 < r.time ∧ 0 < r.error

/-- `Cost = alpha * computational + beta * error` — the documentation in spta/arima/optimize.py:86-87. -/
def PerfRow.cost (alpha beta : K) (r : PerfRow B K) : K := alpha * r.time + beta * r.error

end Spta
