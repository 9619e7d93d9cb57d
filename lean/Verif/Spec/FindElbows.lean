import Verif.Spec.Suite

/-!
# Specification of the elbows that are printed
-/

namespace Spta

variable {K : Type} [Field K] [LinearOrder K]

/-- `c` is the sum over all samples of the squared distance to the nearest medoid. -/
def SquaredCost (d : Nat → Nat → K) (n : Nat) (ms : List Nat) (c : K) : Prop :=
  ∃ near : Nat → K, (∀ i < n, (∃ m ∈ ms, near i = d m i) ∧ ∀ m ∈ ms, near i ≤ d m i) ∧
    c = ((List.range n).map fun i => near i ^ 2).sum

end Spta
