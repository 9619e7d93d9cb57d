import Verif.Model.Train
import Verif.Spec.Region
import Verif.Spec.Classifier

/-!
# Specifications for the complete training of a solver
-/

namespace Spta

variable {K : Type} [Field K] [LinearOrder K]

/-- What the training of a solver needs: a region as `create_instance()` gives it, a partition of its shape
with one medoid in every cluster, and trainers that cover the region and do not raise. -/
structure TrainingSetup {P Q M : Type} (t : Trainer K P M) (refitter : Grid (Option M) → Trainer K Q M)
    (scaled : Bool) (s : Stack K) (testLen : Nat) (pt : Partition) (medoids : List Point) : Prop where
  created : CreatedRegion scaled s
  enough : testLen ≤ s.data.tLen
  valid : pt.Valid
  pointIndex : pt.pointIndex = 0
  shape : pt.labels.xLen = s.data.grid.xLen ∧ pt.labels.yLen = s.data.grid.yLen
  count : medoids.length = pt.k
  member : ∀ i m, medoids[i]? = some m → pt.labels.get m = .ok i
  params : t.params.WF ∧ t.params.xLen = s.data.grid.xLen ∧ t.params.yLen = s.data.grid.yLen
  trains : ∀ m ∈ medoids, ∀ q v, t.params.get m = .ok q → s.seriesAt m = .ok v →
    ∃ x, t.train q (v.take (v.length - testLen)) = .ok x
  refits : ∀ g : Grid (Option M), g.WF → g.xLen = s.data.grid.xLen → g.yLen = s.data.grid.yLen →
    (refitter g).params.WF ∧ (refitter g).params.xLen = s.data.grid.xLen ∧
    (refitter g).params.yLen = s.data.grid.yLen ∧
    ∀ p q v, (refitter g).params.get p = .ok q → s.seriesAt p = .ok v →
      ∃ x, (refitter g).train q v = .ok x

/-- The models that a solver must have at the point `p`: those obtained from the medoid `m` of its cluster
`l`. The training model comes from the series of `m` without the last `testLen` samples, the model of the
whole series from refitting. -/
structure ModelsAt {P Q M : Type} (t : Trainer K P M) (refitter : Grid (Option M) → Trainer K Q M)
    (s : Stack K) (testLen : Nat) (pt : Partition) (medoids : List Point) (atMedoids : Grid (Option M))
    (p : Point) (l : Nat) (training whole : Option M) : Prop where
  label : pt.labels.get p = .ok l
  models : ∃ m past future q q', medoids[l]? = some m ∧ s.seriesAt m = .ok (past ++ future) ∧
    future.length = testLen ∧ t.params.get m = .ok q ∧ t.train q past = .ok training ∧
    atMedoids.get m = .ok training ∧ (refitter atMedoids).params.get m = .ok q' ∧
    (refitter atMedoids).train q' (past ++ future) = .ok whole

/-- `e` is the error of the forecast `shown` at the point `p`: computed in the original units of the data,
with the last `testLen` samples of `p` as `test` and the samples before them as training data. -/
def ErrorOf (f : ErrorFun K) (s : Stack K) (testLen : Nat) (p : Point) (shown test : List (Option K))
    (e : ErrorVal K) : Prop :=
  ∃ past future train, s.seriesAt p = .ok (past ++ future) ∧ future.length = testLen ∧
    InUnits s p future test ∧ InUnits s p past train ∧ f shown test (some train) = .ok e

end Spta
