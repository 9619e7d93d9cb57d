import Verif.Spec.ErrorVal
import Verif.Model.Forecast
import Verif.Spec.Solver

/-!
# Specifications for forecast errors
-/

namespace Spta

variable {K : Type} [Field K] [LinearOrder K]

/-- At most one layer of the region is a scaling. -/
def Stack.OneScaling : Stack K → Prop
  | .plain _ => True
  | .scaled inner _ _ => inner.hasScaling = false
  | .cluster inner _ _ => inner.OneScaling

/-- The series `v` in the representation of the region at point `p` stands for the series `w` in the
original units: the same series if the region is not scaled, otherwise the series brought from [0, 1] to
the minimum and maximum of this point. -/
inductive InUnits : Stack K → Point → List (Option K) → List (Option K) → Prop
  | plain (c : Cube (Option K)) (p : Point) (v : List (Option K)) : InUnits (.plain c) p v v
  | cluster {inner : Stack K} (part : Partition) (i : Nat) {p : Point} {v w : List (Option K)} :
      InUnits inner p v w → InUnits (.cluster inner part i) p v w
  | scaled (inner : Stack K) {smin smax : SpStack (Option K)} {p : Point} {lo hi : Option K}
      {v w : List (Option K)} : smin.valueAt p = .ok lo → smax.valueAt p = .ok hi →
      DescaledWith lo hi v w → InUnits (.scaled inner smin smax) p v w

/-- What a model (or the absence of one) forecasts: `n` times NaN without a model. -/
inductive RawForecast {M : Type} (forecast : M → Nat → Except PyErr (List (Option K))) (n : Nat) :
    Option M → List (Option K) → Prop
  | missing : RawForecast forecast n none (List.replicate n none)
  | model {m : M} {w : List (Option K)} : forecast m n = .ok w → RawForecast forecast n (some m) w

/-- The sum of the absolute steps of a series. -/
def stepSum : List K → K
  | x :: y :: rest => |y - x| + stepSum (y :: rest)
  | _ => 0

/-- The textbook error of a forecast `f` for the observation `o`, given training data `t` (for MASE). -/
inductive ErrorIs : String → List K → List K → List K → K → Prop
  | mse (f o t : List K) :
      ErrorIs "MSE" f o t ((List.zipWith (fun x y => (x - y) ^ 2) f o).sum / f.length)
  | smape (f o t : List K) : (∀ (i : Nat) (x y : K), f[i]? = some x → o[i]? = some y → x + y ≠ 0) →
      ErrorIs "sMAPE" f o t ((List.zipWith (fun x y => 200 * |x - y| / (x + y)) f o).sum / f.length)
  | mase (f o t : List K) : stepSum t ≠ 0 →
      ErrorIs "MASE" f o t (((List.zipWith (fun x y => |x - y|) f o).sum / f.length) /
        (stepSum t / ((t.length : K) - 1)))

/-- The combination of the errors of a region: NaN are ignored, the result is NaN if there is nothing
else and infinite if one of the errors is; otherwise it is the root of the mean of the squares. -/
structure RmsOf (values : List (ErrorVal K)) (r : ErrorVal K) : Prop where
  nan : r = none ↔ ∀ v ∈ values, v = none
  infinite : r = some ⊤ ↔ some ⊤ ∈ values
  finite : ∀ xs : List K, xs ≠ [] → values.filter (·.isSome) = xs.map numVal →
    ∃ x : K, r = numVal x ∧ 0 ≤ x ∧ x * x * xs.length = (xs.map fun y => y * y).sum

/-- `root x` is the square root of `x`. -/
def IsRoot (root : K → K) : Prop := ∀ x, 0 ≤ x → 0 ≤ root x ∧ root x * root x = x

/-- The errors of all points of the region `s`, when `predicted` holds the forecast of the last `n`
samples in the representation of the region: the error function applied to forecast, last `n` samples and
the samples before, in the original units. -/
structure ErrorsOf (f : ErrorFun K) (s : Stack K) (n : Nat) (predicted : Point → List (Option K))
    (items : List (Point × ErrorVal K)) : Prop where
  nodup : (items.map Prod.fst).Nodup
  points : ∀ p, p ∈ items.map Prod.fst ↔ ∃ v, s.seriesAt p = .ok v
  value : ∀ it ∈ items, ∀ v past future wf wo wt, s.seriesAt it.1 = .ok v → v = past ++ future →
    future.length = n → InUnits s it.1 (predicted it.1) wf → InUnits s it.1 future wo →
    InUnits s it.1 past wt → f wf wo (some wt) = .ok it.2

/-- The errors of using the model of each point for the whole region: `predicted p` is the forecast of the
model of `p`; the value of `p` is NaN if this forecast is all NaN, otherwise the combination of the errors
that this one forecast makes at all points. -/
structure WholeErrors (f : ErrorFun K) (s : Stack K) (n : Nat) (predicted : Point → List (Option K))
    (whole : List (Point × ErrorVal K)) : Prop where
  nodup : (whole.map Prod.fst).Nodup
  points : ∀ p, p ∈ whole.map Prod.fst ↔ ∃ v, s.seriesAt p = .ok v
  nan : ∀ it ∈ whole, (∀ x ∈ predicted it.1, x = none) → it.2 = none
  value : ∀ it ∈ whole, (∃ x, some x ∈ predicted it.1) →
    ∃ items, ErrorsOf f s n (fun _ => predicted it.1) items ∧ RmsOf (items.map Prod.snd) it.2

/-- What `analyze_errors` reports, given the error `own` of each model at its own point and the error
`whole` of each model over the whole region. -/
structure Reports (own whole : List (Point × ErrorVal K)) (centroid : Option Point)
    (e : ForecastErrors K) : Prop where
  each : RmsOf (own.map Prod.snd) e.each
  min_le : ∀ it ∈ whole, ∀ v, it.2 = some v → e.minimum ≤ v
  min_attained : e.minimum = ⊤ ∨ ∃ p, (p, some e.minimum) ∈ whole
  le_max : ∀ it ∈ whole, ∀ v, it.2 = some v → WithBot.some v ≤ e.maximum
  max_attained : e.maximum = ⊥ ∨ ∃ p v, (p, some v) ∈ whole ∧ e.maximum = WithBot.some v
  /-- the model with the (first) least finite error at its own point -/
  min_local : ∀ pre p m post, own = pre ++ (p, some m) :: post → m < ⊤ →
    (∀ it ∈ pre, ∀ v, it.2 = some v → m < v) → (∀ it ∈ post, ∀ v, it.2 = some v → m ≤ v) →
    (p, e.minLocal) ∈ whole
  min_local_none : (∀ it ∈ own, ∀ v, it.2 = some v → v = ⊤) → e.minLocal = none
  centroid_none : centroid = none → e.centroid = none
  centroid_some : ∀ p, centroid = some p → (p, e.centroid) ∈ whole

end Spta
