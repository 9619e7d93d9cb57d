import Verif.Model.ClusterRun
import Verif.Spec.Classifier
import Verif.Spec.Region

/-!
# Specifications for clustering with medoids and the training of a solver with it
-/

namespace Spta

/-- The points of cluster `i`, in row-major order. -/
def membersOf (labels : Grid Nat) (i : Nat) : List Point :=
  (rowMajor labels.xLen labels.yLen).filter fun p => decide (labels.get p = .ok i)

/-- `m` is the medoid of the points `ps`: one of them, with the least sum of distances to all of them; of
several such points the first. -/
def IsMedoid {K : Type} [AddCommMonoid K] [LinearOrder K] (d : Point → Point → K) (ps : List Point)
    (m : Point) : Prop :=
  ∃ pre post, ps = pre ++ m :: post ∧ (∀ q ∈ ps, (ps.map (d m)).sum ≤ (ps.map (d q)).sum) ∧
    ∀ q ∈ pre, (ps.map (d m)).sum < (ps.map (d q)).sum

/-- The distance matrix of a region with `xLen` rows and `yLen` columns, all distances finite numbers. -/
def DistancesOf {K : Type} (xLen yLen : Nat) (d : Point → Point → K) (m : Grid (Option (WithTop K))) : Prop :=
  ∀ p q : Point, p.x < xLen → p.y < yLen → q.x < xLen → q.y < yLen →
    m.get ⟨p.x * yLen + p.y, q.x * yLen + q.y⟩ = .ok (some (d p q : WithTop K))

/-- What the training of a solver needs, apart from the clustering: a region as `create_instance()` gives it,
and trainers that cover the region and do not raise. -/
structure TrainersOK {K : Type} [Field K] [LinearOrder K] {P Q M : Type} (t : Trainer K P M)
    (refitter : Grid (Option M) → Trainer K Q M) (scaled : Bool) (s : Stack K) (testLen : Nat) : Prop where
  created : CreatedRegion scaled s
  enough : testLen ≤ s.data.tLen
  params : t.params.WF ∧ t.params.xLen = s.data.grid.xLen ∧ t.params.yLen = s.data.grid.yLen
  trains : ∀ p q v, t.params.get p = .ok q → s.seriesAt p = .ok v →
    ∃ x, t.train q (v.take (v.length - testLen)) = .ok x
  refits : ∀ g : Grid (Option M), g.WF → g.xLen = s.data.grid.xLen → g.yLen = s.data.grid.yLen →
    (refitter g).params.WF ∧ (refitter g).params.xLen = s.data.grid.xLen ∧
    (refitter g).params.yLen = s.data.grid.yLen ∧
    ∀ p q v, (refitter g).params.get p = .ok q → s.seriesAt p = .ok v →
      ∃ x, (refitter g).train q v = .ok x

end Spta
