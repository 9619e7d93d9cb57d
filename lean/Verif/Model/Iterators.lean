import Verif.Model.Region

/-!
# Model of several iterations at once

spta/region/base.py:76-101: a region is its own iterator (`__iter__` returns the region and does not reset its cursor
`point_index`). A scaled region and an error region iterate by calling `__next__` of the region that they decorate; a cluster
has its own cursor. Here are the regions of a program as objects that refer to each other: the list of objects, the newest
first; an object is referred to by the number of objects that are older. `Grid α` stands for both kinds of regions, see
`Verif.Model.Region`.
-/

namespace Spta

variable {α : Type}

/-- What a region is. -/
inductive IterKind (α : Type) where
  /-- `SpatialRegion`, `SpatioTemporalRegion`, with the dataset -/
  | plain (g : Grid α)
  /-- `SpatioTemporalScaled` (spta/region/scaling.py:106-118), `ErrorRegion` (spta/model/error.py:49-52), with the region that
  is decorated -/
  | delegate (inner : Nat)
  /-- `SpatialCluster`, `SpatioTemporalCluster`, with the region that is decorated, the partition and the index -/
  | cluster (inner : Nat) (pt : Partition) (index : Nat)
  deriving DecidableEq

/-- A region as an object: what it is, the shape of its dataset and `point_index`. -/
structure IterObj (α : Type) where
  kind : IterKind α
  xLen : Nat
  yLen : Nat
  cursor : Nat
  deriving DecidableEq

/-- `value_at(point)`, `series_at(point)` of object `i` — spta/region/spatial.py:134-139, 252-253, 353-364,
spta/region/temporal.py:53-58, 237-238, 357-369. -/
def heapValueAt : List (IterObj α) → Nat → Point → Except PyErr α
  | [], _, _ => .error .nameError
  | o :: older, i, p =>
    if i = older.length then
      match o.kind with
      | .plain g => g.get p
      | .delegate j => heapValueAt older j p
      | .cluster j pt k =>
        match pt.isMember p k with
        | .error e => .error e
        | .ok true => heapValueAt older j p
        | .ok false => .error .valueError
    else heapValueAt older i p

/-- The `while True` loop of a cluster — spta/region/spatial.py:375-394, spta/region/temporal.py:399-417: the next member of
the cluster and `point_index` after it. -/
def findMember (pt : Partition) (k xLen yLen : Nat) : Nat → Nat → Except PyErr (Option Point) × Nat
  | 0, c => (.error .diverges, c)
  | fuel + 1, c =>
    match baseNext xLen yLen c with
    | (none, c') => (.ok none, c')
    | (some p, c') =>
      match pt.isMember p k with
      | .error e => (.error e, c')
      | .ok true => (.ok (some p), c')
      | .ok false => findMember pt k xLen yLen fuel c'

/-- `__next__` of object `i` — spta/region/spatial.py:107-117, 366-397, spta/region/temporal.py:30-51, 393-420,
spta/region/scaling.py:221-226, spta/model/error.py:70-75. `none` is StopIteration. When the value cannot be read, the cursor
has already been moved. -/
def heapNext : List (IterObj α) → Nat → Except PyErr (Option (Point × α)) × List (IterObj α)
  | [], _ => (.error .nameError, [])
  | o :: older, i =>
    if i = older.length then
      match o.kind with
      | .plain g =>
        match baseNext o.xLen o.yLen o.cursor with
        | (none, c) => (.ok none, { o with cursor := c } :: older)
        | (some p, c) =>
          match g.get p with
          | .error e => (.error e, { o with cursor := c } :: older)
          | .ok v => (.ok (some (p, v)), { o with cursor := c } :: older)
      | .delegate j =>
        match heapNext older j with
        | (r, older') => (r, o :: older')
      | .cluster _ pt k =>
        match findMember pt k o.xLen o.yLen (o.xLen * o.yLen + 1) o.cursor with
        | (.error e, c) => (.error e, { o with cursor := c } :: older)
        | (.ok none, c) => (.ok none, { o with cursor := c } :: older)
        | (.ok (some p), c) =>
          match heapValueAt (o :: older) i p with
          | .error e => (.error e, { o with cursor := c } :: older)
          | .ok v => (.ok (some (p, v)), { o with cursor := c } :: older)
    else
      match heapNext older i with
      | (r, older') => (r, o :: older')

/-- `x_len`, `y_len` of object `i` — spta/region/base.py:16-31, spta/region/spatial.py:229-233: a decorator has the dataset of
the region that it decorates. -/
def heapShape : List (IterObj α) → Nat → Option (Nat × Nat)
  | [], _ => none
  | o :: older, i => if i = older.length then some (o.xLen, o.yLen) else heapShape older i

/-- What a program does: it creates a region, or `__next__` of a region is called (by a loop). -/
inductive IterEvent (α : Type) where
  | make (kind : IterKind α)
  | next (i : Nat)

/-- One event. A cluster is made by the partition, which compares the shapes — spta/region/partition.py:121-132, 146-157. -/
def iterStep (h : List (IterObj α)) : IterEvent α → Except PyErr (Option (Point × α)) × List (IterObj α)
  | .make (.plain g) => (.ok none, ⟨.plain g, g.xLen, g.yLen, 0⟩ :: h)
  | .make (.delegate j) =>
    match heapShape h j with
    | none => (.error .nameError, h)
    | some s => (.ok none, ⟨.delegate j, s.1, s.2, 0⟩ :: h)
  | .make (.cluster j pt k) =>
    match heapShape h j with
    | none => (.error .nameError, h)
    | some s =>
      if pt.labels.xLen = s.1 ∧ pt.labels.yLen = s.2 then (.ok none, ⟨.cluster j pt k, s.1, s.2, 0⟩ :: h)
      else (.error .assertionError, h)
  | .next i => heapNext h i

/-- The results of a program and the objects after it. (An exception is caught by the program.) -/
def runIter : List (IterEvent α) → List (IterObj α) → List (Except PyErr (Option (Point × α))) × List (IterObj α)
  | [], h => ([], h)
  | e :: es, h =>
    match iterStep h e with
    | (r, h') =>
      match runIter es h' with
      | (rs, h'') => (r :: rs, h'')

/-- `for item in region_i: ...`: the items, `fuel` bounds the number of calls. -/
def heapLoop (i : Nat) : Nat → List (IterObj α) → Except PyErr (List (Point × α)) × List (IterObj α)
  | 0, h => (.error .diverges, h)
  | fuel + 1, h =>
    match heapNext h i with
    | (.error e, h') => (.error e, h')
    | (.ok none, h') => (.ok [], h')
    | (.ok (some it), h') =>
      match heapLoop i fuel h' with
      | (.error e, h'') => (.error e, h'')
      | (.ok its, h'') => (.ok (it :: its), h'')

/-- `for a in region_i: for b in region_j: ...`: what the inner loop sees for each item of the outer one. -/
def nestedLoop (i j : Nat) (inner : Nat) : Nat → List (IterObj α) →
    Except PyErr (List ((Point × α) × List (Point × α))) × List (IterObj α)
  | 0, h => (.error .diverges, h)
  | fuel + 1, h =>
    match heapNext h i with
    | (.error e, h') => (.error e, h')
    | (.ok none, h') => (.ok [], h')
    | (.ok (some it), h') =>
      match heapLoop j inner h' with
      | (.error e, h'') => (.error e, h'')
      | (.ok its, h'') =>
        match nestedLoop i j inner fuel h'' with
        | (.error e, h''') => (.error e, h''')
        | (.ok rest, h''') => (.ok ((it, its) :: rest), h''')

end Spta
