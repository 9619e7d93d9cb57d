import Verif.Spec.SolverSession
import Verif.Spec.SolverTrain
import Verif.Spec.Train

/-!
# Specification of the answers of the baseline solvers
-/

namespace Spta

variable {K : Type} [Field K] [LinearOrder K]

/-- The samples that `--past` selects: the last `past` ones, or all if there are not as many; all for 0, and all but the
first ones for a negative number. -/
def pastSamples {A : Type} (past : Int) (v : List A) : List A :=
  if 0 < past then v.drop (v.length - past.toNat) else v.drop (-past).toNat

/-- The mean of some numbers; NaN if there are none. -/
def IsMean (values : List K) (m : Option K) : Prop :=
  (values = [] ∧ m = none) ∨ (values ≠ [] ∧ ∃ y, m = some y ∧ y * (values.length : K) = values.sum)

/-- What a region and its partition have to be for the solvers: as `create_instance()` gives the region, of the shape of its
metadata, without missing values; with a medoid in every cluster. -/
structure BaselineSetup (md : RegionMeta) (s : Stack K) (testLen : Nat) (pt : Partition) (medoids : List Point) : Prop where
  created : CreatedRegion md.scaled s
  numbers : ∀ p v, s.seriesAt p = .ok v → ∃ w : List K, v = w.map some
  enough : testLen ≤ s.data.tLen
  xLen : s.data.grid.xLen = md.region.x2 - md.region.x1
  yLen : s.data.grid.yLen = md.region.y2 - md.region.y1
  valid : pt.Valid
  pointIndex : pt.pointIndex = 0
  shape : pt.labels.xLen = s.data.grid.xLen ∧ pt.labels.yLen = s.data.grid.yLen
  count : medoids.length = pt.k
  member : ∀ i m, medoids[i]? = some m → pt.labels.get m = .ok i

/-- The series of the medoid of the cluster of `p`: `before` the test samples, and the test samples. -/
def MedoidSeries (s : Stack K) (testLen : Nat) (pt : Partition) (medoids : List Point) (p : Point) (l : Nat)
    (before future : List K) : Prop :=
  ∃ m, pt.labels.get p = .ok l ∧ medoids[l]? = some m ∧ s.seriesAt m = .ok ((before ++ future).map some) ∧
    future.length = testLen

/-- A forecast of `n` samples from the `k` windows of a series that are nearest to its last window: each sample is the mean
of the samples of these windows. -/
def NearestForecast {V : Type} [LinearOrder V] (measure : List (Option K) → List (Option K) → V) (k n : Nat)
    (series : List K) (raw : List (Option K)) : Prop :=
  ∃ starts, AreNearest (fun i => measure ((series.drop (series.length - n)).map some)
      (((series.drop i).take n).map some)) (series.length - n) k starts ∧
    raw.length = n ∧
    ∀ j < n, ∃ y, raw[j]? = some (some y) ∧
      ∃ values, List.Forall₂ (fun i a => series[i + j]? = some a) starts values ∧ y * (k : K) = values.sum

end Spta
