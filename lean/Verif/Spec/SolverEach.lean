import Verif.Spec.SolverTrain
import Verif.Spec.Forecast
import Verif.Model.Result

/-!
# Specification of the solvers with a model at each point
-/

namespace Spta

variable {K : Type} [Field K] [LinearOrder K]

/-- What the row of the point `p` of the region must contain: the position of `p` in the dataset, and the forecast
of the model trained with the samples of `p` itself before the last `n`, in the original units, with its error and
the last `n` samples of `p`. -/
def EachRow {P M : Type} (train : P → List (Option K) → Except PyErr (Option M))
    (forecast : M → Nat → Except PyErr (List (Option K))) (f : ErrorFun K) (s : Stack K) (n : Nat)
    (mdRegion : Region) (q : P) (p : Point) (row : List (Cell K)) : Prop :=
  ∃ past future model raw shown test e, s.seriesAt p = .ok (past ++ future) ∧ future.length = n ∧
    train q past = .ok model ∧ RawForecast forecast n model raw ∧ InUnits s p raw shown ∧
    ErrorOf f s n p shown test e ∧
    row = [.coords ⟨p.x + mdRegion.x1, p.y + mdRegion.y1⟩, .errorValue e, .series shown, .series test]

end Spta
