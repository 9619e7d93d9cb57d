import Verif.Model.Catalogue
import Verif.Model.Cost

/-!
# Model of experiments/clustering/find_elbows.py
-/

namespace Spta

section

variable {K : Type} [Field K] [LinearOrder K] [IsStrictOrderedRing K] {α : Type}

/-- The arguments: a predefined region and the identifier of a k-medoids suite
— experiments/clustering/find_elbows.py:80-93. -/
def findElbowsArgs (region suiteId : Str) : Except PyErr (RegionMeta × List ClusterMeta) :=
  match dictAt predefinedRegions region with
  | .error e => .error e
  | .ok md =>
    match getSuite sKmedoids suiteId with
    | .error e => .error e
    | .ok suite => .ok (md, suite)

/-- What is printed about one seed: the seed, the values of k, and the elbow, which is the representation of a
clustering — experiments/clustering/find_elbows.py:73-77. -/
def elbowReport (ordered : List (Int × List ClusterMeta)) (e : Int × ClusterMeta) :
    Except PyErr (Int × List Int × Str) :=
  match ordered.lookup e.1 with
  | none => .error .keyError
  | some ms => .ok (e.1, ms.map ClusterMeta.k, e.2.repr)

/-- `analyze_suite(args, logger)` — experiments/clustering/find_elbows.py:52-77: `g` is the region and `m` the
loaded distances. `partitionOf` asks the algorithm of a metadata for its partition with medoids. -/
def findElbowsProgram (partitionOf : ClusterMeta → Except PyErr (Partition × List Point)) (g : Grid α)
    (m : Grid (Option K)) (suite : List ClusterMeta) : Except PyErr (List (Int × List Int × Str)) :=
  match calculateElbows partitionOf (fun q => intraClusterCost q.1 (some q.2) g m) suite with
  | .error e => .error e
  | .ok elbows =>
    match organizeSuite suite with
    | .error e => .error e
    | .ok ordered => elbows.mapM (elbowReport ordered)

end

end Spta
