import Verif.Model.SyntheticProfiles
import Verif.Model.Silhouette
import Verif.Model.Parallel

/-!
# Model of the k-medoids examples

The programs spta/kmedoids/example1d.py and spta/kmedoids/example2d.py, with `plot_series_group` and
`plot_series_group_by_color` in spta/util/plot.py. A figure is the data given to the drawing functions of matplotlib,
which refuse a line with a different number of positions and values. The random outcomes are parameters; the distance
between two series is a parameter `measure`.
-/

namespace Spta

variable {K : Type} [Field K] [LinearOrder K]

/-- `PALETTE` — spta/util/plot.py:12. -/
def palette : List Char := ['b', 'g', 'r', 'c', 'm', 'y', 'k']

/-- `plot_series_group(series_group, series_len)` — spta/util/plot.py:15-26. -/
def plotSeriesGroup (seriesLen : Nat) (group : List (List K)) : Except PyErr (List (List K)) :=
  if group.any fun s => s.length ≠ seriesLen then .error .valueError else .ok group

/-- The loop of `plot_series_group_by_color` — spta/util/plot.py:40-41. -/
def colourLoop (seriesLen : Nat) (colours : List Nat) : List (List K × Nat) → Except PyErr (List (List K × Char))
  | [] => .ok []
  | (s, i) :: rest =>
    match colours[i]? with
    | none => .error .indexError
    | some c =>
      match palette[c]? with
      | none => .error .indexError
      | some colour =>
        if s.length ≠ seriesLen then .error .valueError
        else
          match colourLoop seriesLen colours rest with
          | .error e => .error e
          | .ok lines => .ok ((s, colour) :: lines)

/-- `plot_series_group_by_color(series_group, series_len, colors)` — spta/util/plot.py:29-43, 301-303. -/
def plotByColour (seriesLen : Nat) (group : List (List K)) (colours : List Nat) :
    Except PyErr (List (List K × Char)) :=
  if palette.length < colours.dedup.length then .error .valueError
  else colourLoop seriesLen colours group.zipIdx

/-- `compute_distance_matrix_series_array` as a matrix — spta/distance/dtw.py:60-79. -/
def seriesMatrix (measure : List K → List K → K) (X : List (List K)) : Grid K :=
  ⟨X.length, X.length, (seriesArrayMatrix measure X).flatten⟩

/-- `main()` — spta/kmedoids/example1d.py:39-66, there with 18 series of 200 samples and three functions. `outcome` is
the random choice of the initial medoids. -/
def example1d (count seriesLen : Nat) (options : List (Profile K)) (measure : List K → List K → K)
    (draw : Nat → Nat) (z : Nat → Nat → K) (outcome : List Nat) :
    Except PyErr (KmResult K × List (List K × Char)) :=
  match alternating1d count seriesLen options draw z with
  | .error e => .error e
  | .ok group =>
    match plotSeriesGroup seriesLen group with
    | .error e => .error e
    | .ok _ =>
      match runKmedoids group options.length (.matrix (seriesMatrix measure group)) none outcome .lite 1000 (1 / 1000)
          true with
      | .error e => .error e
      | .ok r =>
        match plotByColour seriesLen group r.labels with
        | .error e => .error e
        | .ok lines => .ok (r, lines)

/-- `main()` — spta/kmedoids/example2d.py:64-104, there with 8 by 8 points, 200 samples, three functions and the numbers
of clusters 2, 3 and 4; `junk` is the content of the new matrix of distances. Without a best clustering its membership
is None, and `set(None)` a TypeError. -/
def example2d (xLen yLen seriesLen : Nat) (options : List (Profile K)) (ks : List Nat)
    (measure : List K → List K → K) (junk : Grid K) (draw : Nat → Nat) (z : Nat → Nat → K)
    (outcome : Nat → Int → List Nat) :
    Except PyErr (Grid K × (Nat × Option Int × Option (List Nat)) × List (List K × Char)) :=
  match alternating2d xLen yLen seriesLen options draw z with
  | .error e => .error e
  | .ok (series, mask) =>
    match clusterColours (K := K) mask with
    | .error e => .error e
    | .ok map =>
      match plotSeriesGroup seriesLen series.data with
      | .error e => .error e
      | .ok _ =>
        match sequentialMatrix measure series junk with
        | .error e => .error e
        | .ok m =>
          let md : SilhouetteMeta := ⟨ks, [1], .lite, none, 1000⟩
          match doSilhouetteAnalysis (kmedoidsForSilhouette series.data m outcome md (1 / 1000) true)
              (silhouetteOfLabels (some m) xLen yLen true) md with
          | .error e => .error e
          | .ok (_, _, _, none) => .error .typeError
          | .ok (k, seed, medoids, some labels) =>
            match plotByColour seriesLen series.data labels with
            | .error e => .error e
            | .ok lines => .ok (map, (k, seed, medoids), lines)

end Spta
