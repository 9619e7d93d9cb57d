import Mathlib.Algebra.Order.Field.Basic
import Verif.Model.Basic

/-!
# Model of the utilities: sliding windows, calendar, error measures, random integers

spta/util/arrays.py, spta/util/maths.py, spta/util/error.py, spta/classifier/sliding_window.py
-/

namespace Spta

/-! ### Sliding windows -/

/-- The elements of `range(i, stop, stride)` for a positive stride. -/
def rangeStep (stop : Int) (stride : Nat) (i : Nat) : List Nat :=
  if h : (i : Int) < stop ∧ 0 < stride then i :: rangeStep stop stride (i + stride) else []
  termination_by (stop - i).toNat
  decreasing_by omega

/-- `sliding_window(array, window_len, stride)` — spta/util/arrays.py:239-250. `range` raises ValueError
for stride 0; negative strides and window lengths are not modelled. All windows have the same length, so
`np.array(windows)` is the 2d array with these rows. -/
def slidingWindow {A : Type} (array : List A) (windowLen stride : Nat) : Except PyErr (List (List A)) :=
  if stride = 0 then .error .valueError
  else .ok ((rangeStep ((array.length : Int) - windowLen + 1) stride 0).map fun i : Nat =>
    pySlice array i (i + windowLen))

/-- The windows on which `Series.rolling(window_size).apply(f, raw=True)` calls `f`, in order: at each
position the last `window_size` values, if there are that many and none is NaN. (pandas) -/
def rollingCalls {K : Type} (values : List (Option K)) (windowSize : Nat) : List (List (Option K)) :=
  ((List.range values.length).map fun i =>
    if windowSize ≤ i + 1 then some ((values.drop (i + 1 - windowSize)).take windowSize) else none)
    |>.filterMap id |>.filter fun w => w.all (·.isSome)

/-- `extract_windows_from_one_tuple(df_one, window_size, series_len)` — spta/classifier/
sliding_window.py:62-87. A tuple is a label with its `series_len` values `s0, s1, ...`; the result is the
list of rows `(label, window, offset)`. `np.zeros((window_size - 1,))` raises ValueError for window size 0,
assigning a column of the wrong length raises ValueError (lines 75 and 83). -/
def extractWindows {L K : Type} (label : L) (series : List (Option K)) (windowSize : Nat) :
    Except PyErr (List (L × List (Option K) × Nat)) :=
  if windowSize = 0 then .error .valueError
  else
    -- the zeros in front stand for rows that are cut off at line 78
    let elems : List (Option (List (Option K))) :=
      List.replicate (windowSize - 1) none ++ (rollingCalls series windowSize).map some
    if elems.length ≠ series.length then .error .valueError
    else
      let kept := (elems.drop (windowSize - 1)).filterMap id
      let numWindows : Int := (series.length : Int) - windowSize + 1
      if (numWindows.toNat : Nat) ≠ kept.length then .error .valueError
      else .ok ((kept.zip (List.range numWindows.toNat)).map fun w => (label, w.1, w.2))

/-- `apply_sliding_window_to_labeled_series(df, window_size)` — spta/classifier/sliding_window.py:49-60.
`pd.concat` of an empty list raises ValueError. -/
def labeledWindows {L K : Type} (tuples : List (L × List (Option K))) (windowSize : Nat) :
    Except PyErr (List (L × List (Option K) × Nat)) := do
  let partials ← tuples.mapM fun t => extractWindows t.1 t.2 windowSize
  if partials = [] then .error .valueError else .ok partials.flatten

/-! ### Calendar -/

/-- The proleptic Gregorian ordinal of 1 January of a year, as `datetime` computes it
(`_days_before_year`, python standard library); years outside 1..9999 raise ValueError. -/
def januaryFirst (year : Int) : Except PyErr Int :=
  if 1 ≤ year ∧ year ≤ 9999 then
    let y := year - 1
    .ok (y * 365 + y / 4 - y / 100 + y / 400 + 1)
  else .error .valueError

/-- `years_to_series_interval` — spta/util/maths.py:77-128. -/
def yearsToSeriesInterval (yearStart yearEnd firstYear samplesPerDay : Int) :
    Except PyErr (Int × Int) := do
  let dateFirst ← januaryFirst firstYear
  let dateStart ← januaryFirst yearStart
  let dateEnd ← januaryFirst (yearEnd + 1)
  .ok ((dateStart - dateFirst) * samplesPerDay, (dateEnd - dateFirst) * samplesPerDay)

/-! ### Error measures

A value is `Option K`: `none` is NaN, and for the results of a division also an infinity. -/

section

variable {K : Type} [Field K] [LinearOrder K]

/-- Arithmetic on floats: NaN if one operand is NaN. -/
def liftOp (f : K → K → K) (a b : Option K) : Option K :=
  match a, b with
  | some x, some y => some (f x y)
  | _, _ => none

/-- Division of numpy floats: not a number (NaN or infinite) if the divisor is 0. -/
def floatDiv (a b : Option K) : Option K :=
  match a, b with
  | some x, some y => if y = 0 then none else some (x / y)
  | _, _ => none

/-- An element-wise operation of two 1d arrays: broadcasts arrays of length 1, ValueError for other
differences of length. -/
def broadcastOp (f : Option K → Option K → Option K) (a b : List (Option K)) :
    Except PyErr (List (Option K)) :=
  if a.length = b.length then .ok (List.zipWith f a b)
  else
    match a, b with
    | [x], b => .ok (b.map (f x))
    | a, [y] => .ok (a.map (f · y))
    | _, _ => .error .valueError

/-- `np.abs` of a value -/
def floatAbs (a : Option K) : Option K := a.map fun x => if x < 0 then -x else x

/-- Sum of values: NaN if one of them is NaN. -/
def floatSum : List (Option K) → Option K
  | [] => some 0
  | a :: l => liftOp (· + ·) a (floatSum l)

/-- `np.mean(a)`: NaN for an empty array and if an element is NaN. -/
def floatMean (l : List (Option K)) : Option K :=
  floatDiv (floatSum l) (some (l.length : K))

/-- `np.nanmean(a)`: ignores NaN, NaN if there is nothing else. -/
def nanMean (l : List (Option K)) : Option K :=
  floatMean (l.filter (·.isSome))

/-- `squared(array)` — spta/util/arrays.py:86-87. -/
def squared (l : List (Option K)) : List (Option K) := l.map fun a => liftOp (· * ·) a a

/-- `sum_squared(array)` — spta/util/arrays.py:90-91. -/
def sumSquared (l : List (Option K)) : Option K := floatSum (squared l)

/-- `mean_squared(array)` — spta/util/arrays.py:98-103. -/
def meanSquared (l : List (Option K)) : Option K := nanMean (squared l)

/-- `mse(forecast_series, observation_series)` — spta/util/error.py:39-46. -/
def mse (forecast observation : List (Option K)) : Except PyErr (Option K) :=
  match broadcastOp (liftOp (· - ·)) forecast observation with
  | .error e => .error e
  | .ok et => .ok (meanSquared et)

/-- `smape(forecast_series, observation_series)` — spta/util/error.py:25-36. -/
def smape (forecast observation : List (Option K)) : Except PyErr (Option K) :=
  match broadcastOp (liftOp (· - ·)) forecast observation,
      broadcastOp (liftOp (· + ·)) forecast observation with
  | .ok et, .ok total =>
    match broadcastOp floatDiv (et.map floatAbs) total with
    | .ok q => .ok (floatMean (q.map (liftOp (· * ·) (some 200))))
    | .error e => .error e
  | .error e, _ => .error e
  | _, .error e => .error e

/-- The loop of `mase` at spta/util/error.py:18-20: `sum_Yi` over `i in range(1, n)`. -/
def sumSteps (training : List (Option K)) : Option K :=
  floatSum ((List.range' 1 (training.length - 1)).map fun i =>
    floatAbs (liftOp (· - ·) (training[i]?.join) (training[i - 1]?.join)))

/-- `mase(forecast_series, observation_series, training_series)` — spta/util/error.py:6-22. With one
training value, `sum_Yi / (n - 1)` is the python division 0 / 0, which raises; with none it is 0 / -1,
and then the numpy division by 0 gives no number. -/
def mase (forecast observation training : List (Option K)) : Except PyErr (Option K) :=
  match broadcastOp (liftOp (· - ·)) forecast observation with
  | .error e => .error e
  | .ok et =>
    if training.length = 1 then .error .zeroDivisionError
    else
      let scale := floatDiv (sumSteps training) (some ((training.length : K) - 1))
      .ok (floatMean ((et.map fun e => floatDiv e scale).map floatAbs))

end

/-! ### Random integers -/

/-- `np.random.choice(allowed, size=n, replace=False)`: numpy takes the first `n` elements of a random
permutation of the positions, and raises ValueError if there are fewer than `n`. The random outcome is
the parameter `perm`, a permutation of the positions. Negative `n` is not modelled. -/
def randomChoice {A : Type} (allowed : List A) (n : Nat) (perm : List Nat) : Except PyErr (List A) :=
  if allowed.length < n then .error .valueError
  else (perm.take n).mapM fun i =>
    match allowed[i]? with
    | some a => .ok a
    | none => .error .indexError

/-- `set(l)` as a list without repetition; its order is irrelevant because `randomChoice` permutes it. -/
def pySet (l : List Int) : List Int := l.eraseDups

/-- `allowed`: the integers between the bounds which are not blacklisted — spta/util/maths.py:71-73. -/
def allowedIntegers (minValue maxValue : Int) (blacklist : List Int) : List Int :=
  ((List.range (maxValue + 1 - minValue).toNat).map fun i : Nat => minValue + (i : Int)).filter
    fun v => !(pySet blacklist).contains v

/-- `random_integers_with_blacklist(n, min_value, max_value, blacklist)` — spta/util/maths.py:55-74. -/
def randomIntegersWithBlacklist (n : Nat) (minValue maxValue : Int) (blacklist : List Int)
    (perm : List Nat) : Except PyErr (List Int) :=
  randomChoice (allowedIntegers minValue maxValue blacklist) n perm

end Spta
