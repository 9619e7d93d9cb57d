/-!
# Basic notions shared by all models

Python exceptions as values, points, regions and 2d arrays.
-/

namespace Spta

/-- The python exceptions that the modelled functions may raise. -/
inductive PyErr where
  | valueError
  | assertionError
  | indexError
  | zeroDivisionError
  | attributeError
  | unboundLocalError
  | nameError
  | notImplementedError
  | typeError
  | keyError
  | ioError
  /-- not a python exception: marks a loop that did not finish within the given fuel -/
  | diverges
  deriving DecidableEq, Repr

/-- Results compare decidably (core has no such instance); used by the concrete examples. -/
instance decEqExcept {ε α : Type} [DecidableEq ε] [DecidableEq α] :
    DecidableEq (Except ε α) := fun a b =>
  match a, b with
  | .ok x, .ok y => if h : x = y then isTrue (by rw [h]) else isFalse (by intro e; cases e; exact h rfl)
  | .error x, .error y =>
      if h : x = y then isTrue (by rw [h]) else isFalse (by intro e; cases e; exact h rfl)
  | .ok _, .error _ => isFalse (by intro e; cases e)
  | .error _, .ok _ => isFalse (by intro e; cases e)

/-- `Point = namedtuple('Point', 'x y')` — spta/region/__init__.py:5.
Coordinates are naturals: python would let negative ones wrap around, no caller does that. -/
structure Point where
  x : Nat
  y : Nat
  deriving DecidableEq, Repr

/-- `Region = namedtuple('Region', 'x1, x2, y1, y2')` — spta/region/__init__.py:6. -/
structure Region where
  x1 : Nat
  x2 : Nat
  y1 : Nat
  y2 : Nat
  deriving DecidableEq, Repr

/-- `TimeInterval = namedtuple('TimeInterval', 't1 t2')` — spta/region/__init__.py:7. -/
structure TimeInterval where
  t1 : Nat
  t2 : Nat
  deriving DecidableEq, Repr

/-- Python's normalisation of a slice bound `i` for a sequence of length `n`:
negative bounds count from the end, everything is clamped to `[0, n]`. -/
def pyBound (n : Nat) (i : Int) : Nat :=
  if i < 0 then (i + n).toNat else min i.toNat n

/-- Python slice `l[a:b]` (step 1) of a list, with integer bounds. -/
def pySlice {α : Type} (l : List α) (a b : Int) : List α :=
  (l.take (pyBound l.length b)).drop (pyBound l.length a)

/-- A 2d numpy array: its shape and its elements in row-major order. -/
structure Grid (α : Type) where
  xLen : Nat
  yLen : Nat
  data : List α
  deriving DecidableEq, Repr

namespace Grid

variable {α : Type}

/-- The invariant that numpy enforces on construction/reshape: one element per cell. -/
def WF (g : Grid α) : Prop := g.data.length = g.xLen * g.yLen

instance (g : Grid α) : Decidable g.WF := inferInstanceAs (Decidable (_ = _))

/-- `array[x, y]` with in-bounds check (IndexError otherwise), row-major layout. -/
def get (g : Grid α) (p : Point) : Except PyErr α :=
  if p.x < g.xLen ∧ p.y < g.yLen then
    match g.data[p.x * g.yLen + p.y]? with
    | some v => .ok v
    | none => .error .indexError
  else .error .indexError

/-- `np.zeros((x_len, y_len))`, more generally a constant array. -/
def const (xLen yLen : Nat) (v : α) : Grid α := ⟨xLen, yLen, List.replicate (xLen * yLen) v⟩

/-- The array whose cell `(i, j)` is `f i j`. -/
def ofFn (xLen yLen : Nat) (f : Nat → Nat → α) : Grid α :=
  ⟨xLen, yLen, (List.range (xLen * yLen)).map fun n => f (n / yLen) (n % yLen)⟩

/-- `array[xs:xe, ys:ye] = v` with python slice semantics (bounds normalised by `pyBound`). -/
def setSlice (g : Grid α) (xs xe ys ye : Int) (v : α) : Grid α :=
  { g with
    data := g.data.mapIdx fun n old =>
      if pyBound g.xLen xs ≤ n / g.yLen ∧ n / g.yLen < pyBound g.xLen xe ∧
         pyBound g.yLen ys ≤ n % g.yLen ∧ n % g.yLen < pyBound g.yLen ye
      then v else old }

/-- `array[p.x, p.y] = v` (IndexError when out of bounds). -/
def set (g : Grid α) (p : Point) (v : α) : Except PyErr (Grid α) :=
  if p.x < g.xLen ∧ p.y < g.yLen then
    .ok { g with data := g.data.set (p.x * g.yLen + p.y) v }
  else .error .indexError

end Grid

end Spta
