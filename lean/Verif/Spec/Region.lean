import Verif.Model.Region

/-!
# Specifications about regions, independent of the modelled functions
-/

namespace Spta

/-- The points of an `xLen` by `yLen` region in row-major order. -/
def rowMajor (xLen yLen : Nat) : List Point :=
  (List.range xLen).flatMap fun x => (List.range yLen).map fun y => ⟨x, y⟩

/-- `items` lists the points `ps`, in that order, with the values of `g` there. -/
def ItemsOf {α : Type} (g : Grid α) (ps : List Point) (items : List (Point × α)) : Prop :=
  items.map Prod.fst = ps ∧ ∀ it ∈ items, g.get it.1 = .ok it.2

/-- A crisp partition as the constructor leaves it (up to the meaning of numpy shapes): a
well-formed membership matrix with labels below `k`. -/
structure Partition.Valid (pt : Partition) : Prop where
  wf : pt.labels.WF
  pos : 0 < pt.k
  lt : ∀ l ∈ pt.labels.data, l < pt.k

end Spta
