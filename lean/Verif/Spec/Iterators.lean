import Verif.Model.Iterators
import Verif.Spec.Region

/-!
# What several iterations at once should do

A region is known by what it decorates. No cursors here: the number of calls of `__next__` decides what the next call gives.
-/

namespace Spta

variable {α : Type}

/-- The partitions and indices of the clusters among the layers of region `i`, the outermost first. -/
def layersOf : List (IterKind α) → Nat → List (Partition × Nat)
  | [], _ => []
  | k :: older, i =>
    if i = older.length then
      match k with
      | .plain _ => []
      | .delegate j => layersOf older j
      | .cluster j pt c => (pt, c) :: layersOf older j
    else layersOf older i

/-- The dataset under all layers of region `i`. -/
def bottomOf : List (IterKind α) → Nat → Option (Grid α)
  | [], _ => none
  | k :: older, i =>
    if i = older.length then
      match k with
      | .plain g => some g
      | .delegate j => bottomOf older j
      | .cluster j _ _ => bottomOf older j
    else bottomOf older i

/-- The region whose iterations those of region `i` are: a scaled region and an error region use the iterator of the region
that they decorate. -/
def ownerOf : List (IterKind α) → Nat → Nat
  | [], i => i
  | k :: older, i =>
    if i = older.length then
      match k with
      | .delegate j => ownerOf older j
      | _ => i
    else ownerOf older i

/-- The point has the label of each of the clusters. -/
def InsideAll (layers : List (Partition × Nat)) (p : Point) : Prop := ∀ l ∈ layers, l.1.labels.get p = .ok l.2

instance (layers : List (Partition × Nat)) (p : Point) : Decidable (InsideAll layers p) :=
  inferInstanceAs (Decidable (∀ l ∈ layers, _))

/-- What a complete iteration over region `i` should give: in row-major order, the points of its outermost cluster, or all
points if there is none, with the values of the dataset, and a ValueError at points outside of another cluster. -/
def yieldsOf (ks : List (IterKind α)) (i : Nat) : List (Except PyErr (Point × α)) :=
  match bottomOf ks i with
  | none => []
  | some g =>
    ((rowMajor g.xLen g.yLen).filter fun p => decide (InsideAll ((layersOf ks i).take 1) p)).map fun p =>
      if InsideAll (layersOf ks i) p then (g.get p).map fun v => (p, v) else .error .valueError

/-- What call number `n` gives if a complete iteration gives `l`: the items in turn, then the end, then again from the start. -/
def turnOf (l : List (Except PyErr (Point × α))) (n : Nat) : Except PyErr (Option (Point × α)) :=
  match l[n % (l.length + 1)]? with
  | none => .ok none
  | some (.error e) => .error e
  | some (.ok it) => .ok (some it)

/-- The regions of a program and, for each region with its own iterator, the number of calls so far. -/
structure IterSpec (α : Type) where
  kinds : List (IterKind α)
  calls : Nat → Nat

/-- Region `i` is called. -/
def IterSpec.call (s : IterSpec α) (i : Nat) : IterSpec α :=
  ⟨s.kinds, Function.update s.calls (ownerOf s.kinds i) (s.calls (ownerOf s.kinds i) + 1)⟩

/-- One event. -/
def IterSpec.step (s : IterSpec α) : IterEvent α → Except PyErr (Option (Point × α)) × IterSpec α
  | .make (.plain g) => (.ok none, { s with kinds := .plain g :: s.kinds })
  | .make (.delegate j) =>
    if j < s.kinds.length then (.ok none, { s with kinds := .delegate j :: s.kinds }) else (.error .nameError, s)
  | .make (.cluster j pt k) =>
    match bottomOf s.kinds j with
    | none => (.error .nameError, s)
    | some g =>
      if pt.labels.xLen = g.xLen ∧ pt.labels.yLen = g.yLen then (.ok none, { s with kinds := .cluster j pt k :: s.kinds })
      else (.error .assertionError, s)
  | .next i =>
    if i < s.kinds.length then (turnOf (yieldsOf s.kinds i) (s.calls (ownerOf s.kinds i)), s.call i)
    else (.error .nameError, s)

/-- A program. -/
def IterSpec.run : List (IterEvent α) → IterSpec α → List (Except PyErr (Option (Point × α))) × IterSpec α
  | [], s => ([], s)
  | e :: es, s => ((s.step e).1 :: (IterSpec.run es (s.step e).2).1, (IterSpec.run es (s.step e).2).2)

/-- No region yet. -/
def IterSpec.start : IterSpec α := ⟨[], fun _ => 0⟩

/-- numpy arrays have one element for each cell. -/
def IterEvent.Good : IterEvent α → Prop
  | .make (.plain g) => g.WF
  | .make (.delegate _) => True
  | .make (.cluster _ pt _) => pt.labels.WF
  | .next _ => True

end Spta
