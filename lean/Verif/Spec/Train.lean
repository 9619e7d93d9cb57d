import Mathlib.Order.Defs.LinearOrder

/-!
# Specifications for the training of models
-/

namespace Spta

/-- The contract of `np.argpartition(values, k)`: an ordering of all positions such that no value at
the first `k` of them is larger than a value at one of the others. -/
structure IsArgPartition {V : Type} [LinearOrder V] (values : List V) (k : Nat) (order : List Nat) : Prop where
  perm : order.Perm (List.range values.length)
  split : ∀ (i j a b : Nat) (x y : V), i < k → k ≤ j → order[i]? = some a → order[j]? = some b →
    values[a]? = some x → values[b]? = some y → x ≤ y

/-- `idx` are `k` different positions below `n`, and no position outside of `idx` has a smaller
distance than one in `idx`. -/
structure AreNearest {V : Type} [LinearOrder V] (dist : Nat → V) (n k : Nat) (idx : List Nat) : Prop where
  length : idx.length = k
  nodup : idx.Nodup
  lt : ∀ i ∈ idx, i < n
  nearest : ∀ i ∈ idx, ∀ j < n, j ∉ idx → dist i ≤ dist j

end Spta
