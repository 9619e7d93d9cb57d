import Verif.Model.Fuzzy

/-!
# Model of the report of fuzzy k-medoids

`show_report` in spta/kmedoids/kmedoids_fuzzy.py. The report is what is logged for each cluster: its medoid, the
number of its points with threshold 0, and the percentage. The rounding of the percentage to one digit is not modelled.
-/

namespace Spta

variable {S K : Type} [Field K] [LinearOrder K]

/-- The number of a membership. (A result has no other memberships, see `C140_finite`.) -/
def FVal.number : FVal K → K
  | .fin x => x
  | _ => 0

/-- The line of cluster `i` — spta/kmedoids/kmedoids_fuzzy.py:247-258. The matrix `uij` has one column for each
medoid, and is seen as a region of 1 by `total` points. -/
def fuzzyReportLine (medoids : List Nat) (uij : List (List K)) (i : Nat) : Except PyErr (Nat × Nat × K) :=
  match FuzzyMask.fromUij uij medoids.length 1 uij.length i 0 with
  | .error e => .error e
  | .ok mask =>
    match mask.clusterLen with
    | .error e => .error e
    | .ok (points, _) =>
      if uij.length = 0 then .error .zeroDivisionError
      else
        match medoids[i]? with
        | none => .error .indexError
        | some medoid => .ok (medoid, points, (points : K) * 100 / (uij.length : K))

/-- `show_report(result)` — spta/kmedoids/kmedoids_fuzzy.py:235-258. -/
def fuzzyReport (k : Nat) (r : FzResult K) : Except PyErr (List (Nat × Nat × K)) :=
  (List.range k).mapM (fuzzyReportLine r.medoids (r.uij.map fun row => row.map FVal.number))

end Spta
