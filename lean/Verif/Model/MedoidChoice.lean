import Verif.Model.Util
import Verif.Model.Clustering
import Verif.Model.KMedoids
import Verif.Model.Result
import Verif.Model.Distance
import Mathlib.Order.WithBot

/-!
# Model of the choice of medoids for random points

spta/classifier/train_input.py. A medoid is a point in absolute coordinates, read from the CSV of a
suite (`retrieveSuiteResult`). A score is `none` (NaN), `some ⊤` (infinity) or a number; `-inf` is not
modelled. The format of the numbers in the CSV files is not modelled.
-/

namespace Spta

/-- A medoid of the suite CSV, in absolute coordinates. -/
abbrev AbsPoint := Int × Int

/-- `suite_result`: a dictionary in insertion order. -/
abbrev SuiteResult := List (Str × List AbsPoint)

/-- The keys of the histogram: clustering representation and cluster index. -/
abbrev MedoidKey := Str × Nat

/-- `medoid_histogram`: a dictionary in insertion order. -/
abbrev MedoidHist := List (MedoidKey × Nat)

/-- `medoid_histogram.get(key, 0)`. -/
def MedoidHist.count (h : MedoidHist) (key : MedoidKey) : Nat :=
  match h with
  | [] => 0
  | (a, n) :: rest => if a = key then n else MedoidHist.count rest key

section

variable {K : Type} [LinearOrder K]

/-- A penalization score. -/
abbrev Score (K : Type) := Option (WithTop K)

/-- A number, or NaN, as a score. -/
def toScore {K : Type} (v : Option K) : Score K := v.map WithTop.some

/-- `np.argmin(scores)`: the first NaN if there is one, otherwise the first minimum. -/
def scoreArgmin (scores : List (Score K)) : Except PyErr Nat :=
  match scores.findIdx? (·.isNone) with
  | some i => .ok i
  | none => argmin (scores.reduceOption)

/-- The loop of `supress_medoids_that_reached_threshold` — spta/classifier/train_input.py:282-291. -/
def suppressLoop (hist : MedoidHist) (repr : Str) (threshold : Int) :
    List AbsPoint → Nat → List (Score K) → Except PyErr (List (Score K))
  | [], _, scores => .ok scores
  | _ :: rest, i, scores =>
    if (hist.count (repr, i) : Int) ≤ threshold then
      if (hist.count (repr, i) : Int) = threshold then
        if i < scores.length then suppressLoop hist repr threshold rest (i + 1) (scores.set i (some ⊤))
        else .error .indexError
      else suppressLoop hist repr threshold rest (i + 1) scores
    else .error .assertionError

/-- `supress_medoids_that_reached_threshold` — spta/classifier/train_input.py:276-291. -/
def suppress (hist : MedoidHist) (repr : Str) (threshold : Int) (medoids : List AbsPoint)
    (scores : List (Score K)) : Except PyErr (List (Score K)) :=
  if threshold ≠ 0 then suppressLoop hist repr threshold medoids 0 scores else .ok scores

/-- `global_min_clustering_repr`, `global_min_cluster_index`, `global_min_medoid` (all None at first)
and `global_min_score` — spta/classifier/train_input.py:226-229. -/
structure Best (K : Type) where
  choice : Option (Str × Nat × AbsPoint)
  score : WithTop K

/-- The body of the loop of `choose_medoid` — spta/classifier/train_input.py:233-257; a comparison with NaN is false. -/
def chooseStep (penalties : Str → List AbsPoint → Except PyErr (List (Score K))) (threshold : Int)
    (hist : MedoidHist) (repr : Str) (medoids : List AbsPoint) (best : Best K) :
    Except PyErr (Best K) :=
  match penalties repr medoids with
  | .error e => .error e
  | .ok raw =>
    match suppress hist repr threshold medoids raw with
    | .error e => .error e
    | .ok scores =>
      match scoreArgmin scores with
      | .error e => .error e
      | .ok i =>
        match scores[i]?, medoids[i]? with
        | some (some v), some m => .ok (if v < best.score then ⟨some (repr, i, m), v⟩ else best)
        | some none, some _ => .ok best
        | _, _ => .error .indexError

/-- The loop of `choose_medoid` — spta/classifier/train_input.py:233-257. -/
def chooseLoop (penalties : Str → List AbsPoint → Except PyErr (List (Score K))) (threshold : Int)
    (hist : MedoidHist) : SuiteResult → Best K → Except PyErr (Best K)
  | [], best => .ok best
  | (repr, medoids) :: rest, best =>
    match chooseStep penalties threshold hist repr medoids best with
    | .error e => .error e
    | .ok best' => chooseLoop penalties threshold hist rest best'

/-- `choose_medoid` — spta/classifier/train_input.py:200-274, with the penalties of the point as a
parameter; returns the choice and the histogram. -/
def chooseMedoid (penalties : Str → List AbsPoint → Except PyErr (List (Score K))) (threshold : Int)
    (suite : SuiteResult) (hist : MedoidHist) :
    Except PyErr (Str × Nat × AbsPoint) × MedoidHist :=
  match chooseLoop penalties threshold hist suite ⟨none, ⊤⟩ with
  | .error e => (.error e, hist)
  | .ok best =>
    match best.score, best.choice with
    | ⊤, _ => (.error .valueError, hist)
    | _, none => (.error .valueError, hist)
    | _, some c => (.ok c, dictSet (c.1, c.2.1) (hist.count (c.1, c.2.1) + 1) hist)

/-- The loop over the random points of `evaluate_score_of_random_points`
— spta/classifier/train_input.py:104-132: one choice per point, stopping at the first exception. -/
def chooseAll {P : Type} (penalties : P → Str → List AbsPoint → Except PyErr (List (Score K)))
    (threshold : Int) (suite : SuiteResult) : List P → MedoidHist →
    Except PyErr (List (Str × Nat × AbsPoint)) × MedoidHist
  | [], hist => (.ok [], hist)
  | p :: ps, hist =>
    match chooseMedoid (penalties p) threshold suite hist with
    | (.error e, hist') => (.error e, hist')
    | (.ok c, hist') =>
      match chooseAll penalties threshold suite ps hist' with
      | (.error e, hist'') => (.error e, hist'')
      | (.ok cs, hist'') => (.ok (c :: cs), hist'')

end

/-! ### The random points -/

/-- `extract_all_medoid_indices_from_suite_result` — spta/classifier/train_input.py:614-631. The order
of the set is irrelevant because the result is only used as a blacklist. -/
def allMedoidIndices (suite : SuiteResult) (yLen : Nat) : List Int :=
  (suite.flatMap (·.2)).eraseDups.map fun m => m.1 * yLen + m.2

/-- `get_random_points_different_to_medoids` — spta/classifier/train_input.py:155-175; `perm` is the
random outcome. With `y_len = 0` there are no indices and no division takes place. -/
def randomPoints (count : Nat) (perm : List Nat) (medoidIndices : List Int) (xLen yLen : Nat) :
    Except PyErr (List Point) :=
  match randomIntegersWithBlacklist count 0 ((xLen * yLen : Nat) - 1) medoidIndices perm with
  | .error e => .error e
  | .ok is => .ok (is.map fun i => ⟨i.toNat / yLen, i.toNat % yLen⟩)

/-! ### Penalties -/

/-- A numpy index: negative ones count from the end. -/
def numpyIndex (i : Int) (n : Nat) : Except PyErr Nat :=
  if 0 ≤ i then (if i < n then .ok i.toNat else .error .indexError)
  else if -n ≤ i then .ok (i + n).toNat else .error .indexError

/-- `MedoidsChoiceMinDistance.get_medoid_penalties` — spta/classifier/train_input.py:324-347 with the
matrix of the measure (spta/distance/__init__.py:92-165; with no matrix to load it is a ValueError);
`r` is the rectangle of the metadata. NaN distances are `none`. -/
def minDistancePenalties {K : Type} (matrix : Option (Grid (Option K))) (r : Region) (p : Point)
    (medoids : List AbsPoint) : Except PyErr (List (Score K)) :=
  match matrix with
  | none => .error .valueError
  | some m =>
    medoids.mapM fun md =>
      match numpyIndex ((md.1 - r.x1) * (r.y2 - r.y1 : Nat) + (md.2 - r.y1)) m.yLen with
      | .error e => .error e
      | .ok j => (m.get ⟨p.x * (r.y2 - r.y1) + p.y, j⟩).map toScore

/-- `MedoidsChoiceMinPredictionError.get_medoid_penalties` — spta/classifier/train_input.py:388-438:
`error` is the generalization error of the solver for the 1x1 prediction region at the point, `label`
the cluster of the point. -/
def minErrorPenalties {K : Type} (error : Except PyErr (Option K)) (label : Except PyErr Nat)
    (medoids : List AbsPoint) : Except PyErr (List (Score K)) :=
  match error with
  | .error e => .error e
  | .ok v =>
    match label with
    | .error e => .error e
    | .ok l =>
      if l < medoids.length then
        .ok ((List.replicate medoids.length (some ⊤)).set l (toScore v))
      else .error .indexError

/-! ### The CSV files -/

section

variable {K : Type} [Field K] [LinearOrder K]

/-- `spt_region.series_at(Point(x, y))` for coordinates that may be negative: numpy counts these from
the end of the axis. -/
def seriesAtInt (s : Stack K) (x y : Int) : Except PyErr (List (Option K)) :=
  match numpyIndex x s.data.grid.xLen with
  | .error e => .error e
  | .ok a =>
    match numpyIndex y s.data.grid.yLen with
    | .error e => .error e
    | .ok b => s.seriesAt ⟨a, b⟩

/-- `calculate_csv_header_given_suite_result` — spta/classifier/train_input.py:634-666. -/
def trainHeader (suite : SuiteResult) (seriesLen : Nat) : Except PyErr (List Str) :=
  match suite with
  | [] => .error .indexError
  | (repr, _) :: _ =>
    match factoryFromRepr repr with
    | .error e => .error e
    | .ok cl => .ok (["region_id".toList] ++
        (Result.clusteringDict (K := K) cl).map (fun e => e.1.toList) ++
        ["cluster_index".toList, "medoid_x".toList, "medoid_y".toList] ++
        (List.range seriesLen).map fun i => 's' :: natStr i)

/-- A row of the CSV files — spta/classifier/train_input.py:112-130, 582-604. -/
def trainRow (regionId repr : Str) (index : Nat) (medoid : AbsPoint) (series : List (Option K)) :
    Except PyErr (List (Cell K)) :=
  match factoryFromRepr repr with
  | .error e => .error e
  | .ok cl => .ok ([.text regionId] ++ (Result.clusteringDict cl).map (·.2) ++
      [.index index, .index medoid.1, .index medoid.2] ++ series.map .number)

/-- The entries of one clustering of `retrieve_medoid_data` — spta/classifier/train_input.py:534-550:
cluster index, absolute medoid and its series. `r` is the rectangle of the metadata. -/
def medoidEntries (s : Stack K) (r : Region) (medoids : List AbsPoint) :
    Except PyErr (List (Nat × AbsPoint × List (Option K))) :=
  (List.range medoids.length).mapM fun i =>
    match medoids[i]? with
    | none => .error .indexError
    | some m =>
      match seriesAtInt s (m.1 - r.x1) (m.2 - r.y1) with
      | .error e => .error e
      | .ok v => .ok (i, m, v)

/-- `retrieve_medoid_data` — spta/classifier/train_input.py:488-552. -/
def medoidData (s : Stack K) (r : Region) (suite : SuiteResult) :
    Except PyErr (List (Str × List (Nat × AbsPoint × List (Option K)))) :=
  suite.mapM fun e =>
    match medoidEntries s r e.2 with
    | .error err => .error err
    | .ok entries => .ok (e.1, entries)

/-- The rows of one clustering — spta/classifier/train_input.py:582-604. -/
def entryRows (regionId : Str) (e : Str × List (Nat × AbsPoint × List (Option K))) :
    Except PyErr (List (List (Cell K))) :=
  e.2.mapM fun m => trainRow regionId e.1 m.1 m.2.1 m.2.2

/-- The data of the CSV of `produce_csv` — spta/classifier/train_input.py:554-607. -/
def medoidRows (regionId : Str) (s : Stack K) (r : Region) (suite : SuiteResult) :
    Except PyErr (List (List (Cell K))) :=
  match medoidData s r suite with
  | .error e => .error e
  | .ok data =>
    match data.mapM (entryRows regionId) with
    | .error e => .error e
    | .ok rows => .ok rows.flatten

/-- The rows of the CSV of `evaluate_score_of_random_points` — spta/classifier/train_input.py:104-132,
given the choice made for each random point. -/
def choiceRows (regionId : Str) (s : Stack K) (choices : List (Point × Str × Nat × AbsPoint)) :
    Except PyErr (List (List (Cell K))) :=
  choices.mapM fun c =>
    match s.seriesAt c.1 with
    | .error e => .error e
    | .ok v => trainRow regionId c.2.1 c.2.2.1 c.2.2.2 v

end

end Spta
