import Mathlib.Data.Nat.Find
import Mathlib.Data.List.Sort
import Mathlib.Data.List.Dedup
import Verif.Model.Basic

/-!
# Model of spta/util/maths.py (divisors) and of regular partitioning (spta/util/arrays.py)
-/

namespace Spta

/-- `int(sqrt(n))` — spta/util/maths.py:11: the largest `r` with `r * r ≤ n` (the float square root
is exact enough for n below 2^52). -/
def isqrt (n : Nat) : Nat := Nat.findGreatest (fun r => r * r ≤ n) n

/-- `divisors(n)` — spta/util/maths.py:6-14. The python set `{1, n}` updated with `i` and
`n // i` for each `i` in `range(2, int(sqrt(n)) + 1)` dividing `n`, then `sorted`. -/
def divisors (n : Nat) : List Nat :=
  let found := ((List.range' 2 (isqrt n + 1 - 2)).filter (fun i => n % i == 0)).flatMap
    (fun i => [i, n / i])
  ((1 :: n :: found).dedup).insertionSort (· ≤ ·)

/-- The loop of `find_two_balanced_divisors` — spta/util/maths.py:32-37: stops at the first `div`
whose quotient is not bigger, otherwise keeps the values of the last iteration.
`n / div` is exact since `div` divides `n`. -/
def balancedLoop (n : Nat) : List Nat → Except PyErr (Nat × Nat)
  | [] => .error .unboundLocalError
  | [d] => .ok (n / d, d)
  | d :: d' :: ds => if n / d ≤ d then .ok (n / d, d) else balancedLoop n (d' :: ds)

/-- `find_two_balanced_divisors(n)` — spta/util/maths.py:17-37. -/
def findTwoBalancedDivisors (n : Nat) : Except PyErr (Nat × Nat) :=
  match divisors n with
  | [a, b] => .ok (a, b)          -- "handle prime case"
  | ds => balancedLoop n ds

/-- `two_balanced_divisors_order_x_y(n, x_len, y_len)` — spta/util/maths.py:40-52. -/
def twoBalancedDivisorsOrderXY (n xLen yLen : Nat) : Except PyErr (Nat × Nat) := do
  let (d1, d2) ← findTwoBalancedDivisors n
  if xLen < yLen then return (d1, d2) else return (d2, d1)

/-- `lines_per_row`/`residue_row` (and the same for columns) of `regular_partitioning`
— spta/util/arrays.py:165-197. `residue > lines / 2` is a float comparison, i.e.
`2 * residue > lines`. The second component becomes negative in the "increase" scenario. -/
def bandLines (len div : Nat) : Nat × Int :=
  let lines := len / div
  let residue := len % div
  if 2 * residue > lines ∧ (residue : Int) > (div : Int) * ((div : Int) - lines - 1) then
    (lines + 1, (len : Int) - ((lines + 1) * div : Nat))
  else (lines, (residue : Int))

/-- The start of band `row` — spta/util/arrays.py:213-214. -/
def bandStart (lines row : Nat) : Int := ((lines * row : Nat) : Int)

/-- The end of band `row` — spta/util/arrays.py:216-217 and 225-231 (the last band gets the
residue). -/
def bandEnd (lines : Nat) (residue : Int) (div row : Nat) : Int :=
  if row + 1 = div then bandStart lines row + lines + residue else bandStart lines row + lines

/-- `regular_partitioning(x_len, y_len, k)` — spta/util/arrays.py:138-236. `int(x_len / div_x)`
raises ZeroDivisionError when a divisor is 0 (k = 0). -/
def regularPartitioning (xLen yLen k : Nat) : Except PyErr (Grid Nat) := do
  let (divX, divY) ← twoBalancedDivisorsOrderXY k xLen yLen
  if xLen < divX ∨ yLen < divY then throw .valueError
  if divX = 0 ∨ divY = 0 then throw .zeroDivisionError
  let (linesRow, residueRow) := bandLines xLen divX
  let (linesCol, residueCol) := bandLines yLen divY
  let cells := (List.range divX).flatMap fun row => (List.range divY).map fun col => (row, col)
  return cells.foldl (fun m (row, col) =>
    m.setSlice (bandStart linesRow row) (bandEnd linesRow residueRow divX row)
      (bandStart linesCol col) (bandEnd linesCol residueCol divY col) (row * divY + col))
    (Grid.const xLen yLen 0)

end Spta
