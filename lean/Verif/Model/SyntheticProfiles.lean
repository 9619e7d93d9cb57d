import Verif.Model.Region
import Verif.Model.Util
import Verif.Model.Synthetic

/-!
# Model of the synthetic series of the k-medoids examples

`delayed_function_with_noise` in spta/dataset/synthetic_temporal.py, `alternating_functions_1d` in
spta/kmedoids/example1d.py and `alternating_functions_2d` in spta/kmedoids/example2d.py. A profile function is given
the index and the number of indices (all that the functions of the module use). The random delay and the outcomes of
the standard normal distribution are parameters.
-/

namespace Spta

/-- `int(min(30, 0.15 * series_len))` — spta/dataset/synthetic_temporal.py:19-21. (With floats the product is the
integer whenever it is one: the relative error of 0.15 is less than half a unit of the last place.) -/
def paddingLength (seriesLen : Nat) : Nat := min 30 (3 * seriesLen / 20)

variable {K : Type} [Field K] [LinearOrder K]

/-- A function of the index and of the number of indices. -/
abbrev Profile (K : Type) := Nat → Nat → K

/-- `np.pad(a, (left, right), mode='constant', constant_values=0)` -/
def padZeros (a : List K) (left right : Nat) : List K := List.replicate left 0 ++ a ++ List.replicate right 0

/-- `delayed_function_with_noise(main_profile_func, series_len)` — spta/dataset/synthetic_temporal.py:12-47.
`np.random.randint(0, padding_length)` is a ValueError if the padding is 0, and else `draw % padding_length`. -/
def delayedFunction (profile : Profile K) (seriesLen draw : Nat) (z : Nat → K) : Except PyErr (List K) :=
  let padding := paddingLength seriesLen
  let count := seriesLen - padding
  let main := (List.range count).map fun j => profile j count
  if padding = 0 then .error .valueError
  else
    let left := draw % padding
    let series := padZeros main left (padding - left)
    .ok ((series.zipIdx).map fun v => normalAt (2 / 100) v.1 (z v.2))

/-- `i % len(function_options)` and `function_options[index]`: ZeroDivisionError without options. -/
def optionAt (options : List (Profile K)) (i : Nat) : Except PyErr (Nat × Profile K) :=
  match options[i % options.length]? with
  | some f => .ok (i % options.length, f)
  | none => .error .zeroDivisionError

/-- `alternating_functions_1d(series_n, series_len, function_options)` — spta/kmedoids/example1d.py:14-36. -/
def alternating1d (count seriesLen : Nat) (options : List (Profile K)) (draw : Nat → Nat) (z : Nat → Nat → K) :
    Except PyErr (List (List K)) :=
  (List.range count).mapM fun i =>
    match optionAt options i with
    | .error e => .error e
    | .ok (_, f) => delayedFunction f seriesLen (draw i) (z i)

/-- The body of the loops of `alternating_functions_2d` — spta/kmedoids/example2d.py:46-58. -/
def alternatingCell (yLen seriesLen : Nat) (options : List (Profile K)) (draw : Nat → Nat) (z : Nat → Nat → K)
    (i j : Nat) : Except PyErr (List K × Nat) :=
  match optionAt options (i * j) with
  | .error e => .error e
  | .ok (index, f) =>
    match delayedFunction f seriesLen (draw (i * yLen + j)) (z (i * yLen + j)) with
    | .error e => .error e
    | .ok series => .ok (series, index)

/-- `alternating_functions_2d(spatial_region, series_len, function_options)` — spta/kmedoids/example2d.py:19-61: the
array of the series and the mask. -/
def alternating2d (xLen yLen seriesLen : Nat) (options : List (Profile K)) (draw : Nat → Nat) (z : Nat → Nat → K) :
    Except PyErr (Grid (List K) × Grid Nat) :=
  match ((List.range xLen).mapM fun i => (List.range yLen).mapM fun j =>
      alternatingCell yLen seriesLen options draw z i j) with
  | .error e => .error e
  | .ok rows => .ok (⟨xLen, yLen, rows.flatten.map (·.1)⟩, ⟨xLen, yLen, rows.flatten.map (·.2)⟩)

end Spta
