import Verif.Model.KMedoids

/-!
# Model of spta/kmedoids/kmedoids_bad.py

`measure` is `distance_measure.measure` and `combine` is `distance_measure.combine`; NaN distances are not
modelled. The list of medoids is modified in place: `out_medoids` is the same object as `medoids`, and as the
list of the caller.
-/

namespace Spta

/-- `init_medoids(X, k)` — spta/kmedoids/kmedoids_bad.py:14-25; `outcome` is what
`choice(len(X), size=k, replace=False)` returns for the seed 1. ValueError for more medoids than series. -/
def badInit {S : Type} (X : List S) (k : Nat) (outcome : List Nat) : Except PyErr (List (Medoid S)) :=
  if k ≤ X.length then medoidsAt X outcome else .error .valueError

variable {S K : Type} [LinearOrder K]

/-- `assign_labels(compute_cluster_distances(X, medoids, distance_measure))`
— spta/kmedoids/kmedoids_bad.py:30-62; `np.argmin` raises ValueError when there are no medoids, also for no
series. -/
def badLabels (measure : S → S → K) (X : List S) (ms : List (Medoid S)) : Except PyErr (List Nat) :=
  if ms.isEmpty then .error .valueError
  else X.mapM fun x => argmin (ms.map fun m => measure x m.series)

/-- `distance_measure.combine(compute_cluster_distances(X, [medoid], distance_measure))`
— spta/kmedoids/kmedoids_bad.py:78-79, 97-98: over all of `X`, not only the cluster. -/
def badDissimilarity (measure : S → S → K) (combine : List K → K) (X : List S) (s : S) : K :=
  combine (X.map fun x => measure x s)

/-- The variables of `update_medoids` — spta/kmedoids/kmedoids_bad.py:67-112. -/
structure BadState (S K : Type) where
  medoids : List (Medoid S)
  labels : List Nat
  avg : K

/-- The loop over all series for the medoid at position `i` — spta/kmedoids/kmedoids_bad.py:85-110. -/
def badScan (measure : S → S → K) (combine : List K → K) (X : List S) (i : Nat) :
    List (Nat × S) → BadState S K → Except PyErr (BadState S K)
  | [], st => .ok st
  | (index, datap) :: rest, st =>
    match st.labels[index]?, st.medoids[i]? with
    | some l, some m =>
      if l ≠ i ∨ index = m.index then badScan measure combine X i rest st
      else if badDissimilarity measure combine X datap < st.avg then
        match badLabels measure X (st.medoids.set i ⟨index, datap⟩) with
        | .error e => .error e
        | .ok labels => badScan measure combine X i rest
            ⟨st.medoids.set i ⟨index, datap⟩, labels, badDissimilarity measure combine X datap⟩
      else badScan measure combine X i rest st
    | _, _ => .error .indexError

/-- The loop over the medoids — spta/kmedoids/kmedoids_bad.py:76-110. -/
def badScanAll (measure : S → S → K) (combine : List K → K) (X : List S) :
    List Nat → List (Medoid S) → List Nat → Except PyErr (List (Medoid S))
  | [], ms, _ => .ok ms
  | i :: is, ms, labels =>
    match ms[i]? with
    | none => .error .indexError
    | some m =>
      match badScan measure combine X i ((List.range X.length).zip X)
          ⟨ms, labels, badDissimilarity measure combine X m.series⟩ with
      | .error e => .error e
      | .ok st => badScanAll measure combine X is st.medoids st.labels

/-- `update_medoids(X, medoids, distance_measure)` — spta/kmedoids/kmedoids_bad.py:67-112. -/
def badUpdate (measure : S → S → K) (combine : List K → K) (X : List S) (ms : List (Medoid S)) :
    Except PyErr (List (Medoid S)) :=
  match badLabels measure X ms with
  | .error e => .error e
  | .ok labels => badScanAll measure combine X (List.range ms.length) ms labels

/-- The loop of `kmedoids` — spta/kmedoids/kmedoids_bad.py:129-145; `maxSteps` is none for `np.inf`. The loop
runs at most `fuel` times here, and `diverges` means that this was not enough. -/
def badLoop (measure : S → S → K) (combine : List K → K) (X : List S) (maxSteps : Option Nat) :
    Nat → Nat → List (Medoid S) → List Nat → Except PyErr (List (Medoid S) × List Nat)
  | 0, _, _, _ => .error .diverges
  | fuel + 1, i, ms, labels =>
    if maxSteps.all (i ≤ ·) then
      match badLabels measure X ms with
      | .error e => .error e
      | .ok labels' =>
        match badUpdate measure combine X ms with
        | .error e => .error e
        | .ok ms' =>
          if getMedoidIndices ms = getMedoidIndices ms' then .ok (ms', labels')
          else badLoop measure combine X maxSteps fuel (i + 1) ms' labels'
    else .ok (ms, labels)

/-- `kmedoids(X, k, distance_measure, starting_medoids, max_steps)` — spta/kmedoids/kmedoids_bad.py:120-145
for given (or randomly chosen) starting medoids: the medoids and labels returned. After the call the list of
the caller holds the medoids returned. -/
def badKMedoids (measure : S → S → K) (combine : List K → K) (X : List S) (maxSteps : Option Nat)
    (fuel : Nat) (start : List (Medoid S)) : Except PyErr (List (Medoid S) × List Nat) :=
  badLoop measure combine X maxSteps fuel 1 start (List.replicate X.length 0)

end Spta
