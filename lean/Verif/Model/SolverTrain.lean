import Verif.Model.Forecast

/-!
# Model of the complete training of a solver

spta/solver/train.py: `train` with the generalization errors. The partition with its medoids is the outcome of
the clustering algorithm (lines 80-87, see Model/Clustering). Logging is dropped; `overall_error` of line 116
does not raise.
-/

namespace Spta

variable {K : Type} [Field K] [LinearOrder K]

/-- `model_region.apply_to(spt_region, output_len)` for a spatio-temporal domain — spta/model/base.py:51-56,
spta/region/function.py:93-110, spta/region/spatial.py:67-95: the result keeps the decorations of the
domain. -/
def applyModelsOver {M : Type} (forecast : M → Nat → Except PyErr (List (Option K)))
    (models : Grid (Option M)) (n : Nat) (domain : Stack K) : Except PyErr (Stack K) :=
  if domain.data.grid.xLen = models.xLen ∧ domain.data.grid.yLen = models.yLen then
    match domain.items with
    | .error e => .error e
    | .ok items =>
      match applyWith (fun p _ => forecastAt forecast n models p) items
          (Grid.const domain.data.grid.xLen domain.data.grid.yLen (List.replicate n (some 0))) with
      | .error e => .error e
      | .ok g => .ok (domain.new ⟨n, g⟩)
  else .error .assertionError

/-- `calculate_errors(model_region_training, training_region, test_region)`
— spta/solver/train.py:171-192. -/
def calculateErrors {M : Type} (forecast : M → Nat → Except PyErr (List (Option K))) (errorType : String)
    (models : Grid (Option M)) (training test : Stack K) : Except PyErr (SpStack (ErrorVal K)) :=
  match applyModelsOver forecast models test.data.tLen test with
  | .error e => .error e
  | .ok region =>
    match getErrorFunc errorType with
    | .error e => .error e
    | .ok f => measureError f test (some training) region

/-- `SolverTrainer.train` — spta/solver/train.py:71-139 after the partition; `scaled` is
`region_metadata.scaled` and `s` the region of `create_instance()`, which the solver reads again for
predictions (spta/solver/model.py:142). -/
def trainCompleteSolver {P Q M : Type} (t : Trainer K P M) (refitter : Grid (Option M) → Trainer K Q M)
    (forecast : M → Nat → Except PyErr (List (Option K))) (errorType : String) (scaled : Bool)
    (s : Stack K) (testLen : Nat) (pt : Partition) (medoids : List Point) (zero junk : Option M) :
    Except PyErr (Solver K M) :=
  match t.applyAtRepresentatives medoids zero (splitLast s testLen).1 with
  | .error e => .error e
  | .ok atMedoids =>
    match replicateModels atMedoids.1 pt medoids junk with
    | .error e => .error e
    | .ok training =>
      match calculateErrors forecast errorType training (splitLast s testLen).1 (splitLast s testLen).2 with
      | .error e => .error e
      | .ok errors =>
        match (refitter atMedoids.1).applyTo zero s with
        | .error e => .error e
        | .ok refitted =>
          match replicateModels refitted.1 pt medoids junk with
          | .error e => .error e
          | .ok whole => .ok ⟨training, whole, errors, testLen, scaled, s⟩

end Spta
