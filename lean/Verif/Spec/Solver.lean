import Verif.Model.Solver

/-!
# Specifications for the predictions of a solver
-/

namespace Spta

variable {K : Type} [Field K] [LinearOrder K]

/-- `out` is the series `f` brought back from the interval [0, 1] to [lo, hi]; a sample is NaN where
`f` is, and everything is NaN if the scaling data is. -/
structure DescaledWith (lo hi : Option K) (f out : List (Option K)) : Prop where
  length : out.length = f.length
  value : ∀ (t : Nat) (a b x : K), lo = some a → hi = some b → f[t]? = some (some x) →
    out[t]? = some (some (a + x * (b - a)))
  nan : ∀ t < f.length, (lo = none ∨ hi = none ∨ f[t]? = some none) → out[t]? = some none

/-- The number of samples of the answer to a query: `forecast_len` when positive (out-of-sample),
otherwise the number of test samples. -/
def Solver.queryLen {M : Type} (sv : Solver K M) (forecastLen : Int) : Nat :=
  if 0 < forecastLen then forecastLen.toNat else sv.testLen

/-- The models that answer a query: those of the whole series for out-of-sample forecasts, otherwise
those of the training part. -/
def Solver.queryModels {M : Type} (sv : Solver K M) (forecastLen : Int) : Grid (Option M) :=
  if 0 < forecastLen then sv.whole else sv.training

/-- The shape of a solver after training: all regions have the shape of the spatio-temporal region,
which is a plain region, or a plain region with scaling data when the metadata says it is scaled
(spta/region/metadata.py:137-166). -/
structure Solver.OK {M : Type} (sv : Solver K M) (cube : Cube (Option K)) (ge : Grid (ErrorVal K)) : Prop where
  cubeWF : cube.WF
  errors : sv.errors = .plain ge
  errorsWF : ge.WF ∧ ge.xLen = cube.grid.xLen ∧ ge.yLen = cube.grid.yLen
  trainingWF : sv.training.WF ∧ sv.training.xLen = cube.grid.xLen ∧ sv.training.yLen = cube.grid.yLen
  wholeWF : sv.whole.WF ∧ sv.whole.xLen = cube.grid.xLen ∧ sv.whole.yLen = cube.grid.yLen
  test : sv.testLen ≤ cube.tLen

/-- A solver for data that is not scaled. -/
structure Solver.PlainOK {M : Type} (sv : Solver K M) (cube : Cube (Option K)) (ge : Grid (ErrorVal K)) : Prop
    extends Solver.OK sv cube ge where
  scaled : sv.scaled = false
  spt : sv.spt = .plain cube

/-- A solver for scaled data with minima `gmin` and maxima `gmax`. -/
structure Solver.ScaledOK {M : Type} (sv : Solver K M) (cube : Cube (Option K)) (ge : Grid (ErrorVal K)) (gmin gmax : Grid (Option K)) :
    Prop extends Solver.OK sv cube ge where
  scaled : sv.scaled = true
  spt : sv.spt = .scaled (.plain cube) (.plain gmin) (.plain gmax)
  minWF : gmin.WF ∧ gmin.xLen = cube.grid.xLen ∧ gmin.yLen = cube.grid.yLen
  maxWF : gmax.WF ∧ gmax.xLen = cube.grid.xLen ∧ gmax.yLen = cube.grid.yLen

end Spta
