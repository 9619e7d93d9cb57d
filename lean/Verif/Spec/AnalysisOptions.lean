import Verif.Model.AnalysisOptions
import Verif.Spec.StudySuites
import Verif.Spec.Silhouette
import Verif.Spec.Variance

/-!
# Specification of the analysis of a suite with its options (C147)
-/

namespace Spta

variable {K : Type} [Field K] [LinearOrder K] {P Q M A L : Type}

/-! ### What is needed -/

/-- The matrix of distances has a row and a column for every point, and the distances are as those of DTW. -/
structure FiguresReady (tools : ErrorTools K M) (a : AnalysisArgs) (s : Stack K) (d : Nat → Nat → K) : Prop where
  wf : (tools.distances a.region).WF
  x : (tools.distances a.region).xLen = s.data.grid.xLen * s.data.grid.yLen
  y : (tools.distances a.region).yLen = s.data.grid.xLen * s.data.grid.yLen
  zero : ZeroTransitive d (s.data.grid.xLen * s.data.grid.yLen)

/-- The number of random points that is asked for, and known bins. -/
structure OptionsReady (o : AnalysisOptions) (random : Option Nat) : Prop where
  random : o.random = random.map natStr
  bins : o.bins ∈ ["auto".toList, "fd".toList, "doane".toList, "scott".toList, "stone".toList, "rice".toList,
    "sturges".toList, "sqrt".toList]

/-- A partition for which histograms can be drawn: two or more clusters with two or more points each; the random choices
are permutations of the points outside of each cluster. -/
structure HistogramsReady (pt : Partition) (perms : List (List Nat) × List (List Nat)) : Prop where
  two : 2 ≤ pt.k
  points : ∀ i < pt.k, 2 ≤ pt.labels.data.count i
  first : ∀ i < pt.k, (perms.1.getD i []).Perm (List.range (pt.labels.data.length - pt.labels.data.count i))
  second : ∀ i < pt.k, (perms.2.getD i []).Perm (List.range (pt.labels.data.length - pt.labels.data.count i))

/-- A partition that has a silhouette score: two or more clusters, but fewer than points. -/
def ScoreReady (pt : Partition) : Prop := 2 ≤ pt.k ∧ pt.k < pt.labels.data.length

/-- Histograms cannot be drawn: there is one cluster, or a cluster with one point, or the bins are not known (a number is
not a name), or the number of random points is negative. -/
def CannotDraw (o : AnalysisOptions) (pt : Partition) : Prop :=
  pt.k = 1 ∨ (∃ i < pt.k, pt.labels.data.count i = 1) ∨
    o.bins ∉ ["auto".toList, "fd".toList, "doane".toList, "scott".toList, "stone".toList, "rice".toList,
      "sturges".toList, "sqrt".toList] ∨
    ∃ n : Int, n < 0 ∧ o.random = some (intStr n)

/-! ### Files -/

/-- The files after the analysis of some clusterings: the table with their rows, and the reports of their partitions; the
other files are as before. -/
structure AnalysisFiles (w : SolverWorld K P Q M) (tools : ErrorTools K M) (st : StudyTools K A L) (a : AnalysisArgs)
    (s : Stack K) (d : Nat → Nat → K) (rows reports : List ClusterMeta) (files files' : Str → Option Str) : Prop where
  table : ∃ text, files' (a.id.analysisPath "outputs".toList a.region .dtw) = some text ∧
    AnalysisText w st.showCost a.region s d rows text
  saved : ∀ c ∈ reports, ∀ pt medoids, w.partition a.region .dtw c = .ok (pt, medoids) →
    ∃ text, files' ((a.error.metadata c).reportPath "outputs".toList) = some text ∧ ReportText tools.show1 pt text
  others : ∀ path, path ≠ a.id.analysisPath "outputs".toList a.region .dtw →
    (∀ c ∈ reports, path ≠ (a.error.metadata c).reportPath "outputs".toList) → files' path = files path

/-! ### Figures -/

/-- The figure of the silhouettes of a partition: on the left the map of the clusters; on the right a band for each
cluster with the silhouettes of its points in ascending order, in the colour of the cluster on the map, one above the other
with a space of 10; and the line at the score. -/
def SilhouetteShown (d : Nat → Nat → K) (pt : Partition) (avg : K) (fig : SilhouetteFigure K) : Prop :=
  IsScore d pt.labels.data avg ∧ fig.plot.line = avg ∧ fig.map.xLen = pt.labels.xLen ∧ fig.map.yLen = pt.labels.yLen ∧
  fig.plot.bands.length = pt.k ∧ (∀ b, fig.plot.bands[0]? = some b → b.lower = 10) ∧
  ∃ f : Nat → K, (∀ i < pt.labels.data.length, IsSilhouette d pt.labels.data i (f i)) ∧
    ∀ (j : Nat) (b : Band K), fig.plot.bands[j]? = some b → b.cluster = j ∧
      (b.values : Multiset K) = (members pt.labels.data j).val.map f ∧ b.values.Pairwise (· ≤ ·) ∧
      b.upper = b.lower + (members pt.labels.data j).card ∧ b.upper ≤ fig.plot.yMax ∧
      (∀ b', fig.plot.bands[j + 1]? = some b' → b'.lower = b.upper + 10) ∧
      ∀ i : Nat, pt.labels.data[i]? = some j → fig.map.data[i]? = some b.colour

/-- The statistics of the distances of the points `inside` from the one with index `centre`. -/
structure StatisticsShown (d : Nat → Nat → K) (centre : Nat) (inside : List Nat) (t : Stats K) : Prop where
  n : t.n = inside.length
  max : IsMaxOf (inside.map (d centre)) t.max
  mean : t.mean * (inside.length : K) = (inside.map (d centre)).sum
  variance : t.variance * (inside.length : K) = (inside.map fun j => (d centre j - t.mean) ^ 2).sum
  median : IsMedianOf (inside.map (d centre)) t.median
  /-- the distance of the nearest of the other points -/
  min : ∃ j ∈ inside, j ≠ centre ∧ t.min = d centre j ∧ ∀ j' ∈ inside, j' ≠ centre → t.min ≤ d centre j'

/-- The histogram of cluster `i` with the medoid of index `centre`: the distances of all its points, and those of random
points of other clusters: as many as asked for, or as the cluster has if that is zero, if there are so many. -/
def HistogramShown (d : Nat → Nat → K) (labels : List Nat) (i centre : Nat) (random : Option Nat) (s : Subplot K) : Prop :=
  ∃ (inside : List Nat) (t : Stats K), inside.Nodup ∧ (∀ j, j ∈ inside ↔ labels[j]? = some i) ∧
    s.distances.cluster = inside.map (d centre) ∧ s.stats = some t ∧ StatisticsShown d centre inside t ∧
    (random = none → s.distances.random = none ∧ t.random = none) ∧
    ∀ n, random = some n → ∃ outside, OutsidePositions labels i outside ∧
      outside.length = min (if n = 0 then inside.length else n) (labels.length - inside.length) ∧
      s.distances.random = some (outside.map (d centre)) ∧
      t.random = some (outside.length,
        (outside.filter fun j => decide (∃ j' ∈ inside, d centre j < d centre j')).length)

/-- The figure of the histograms: one for each cluster, in row-major order in a grid that is as square as
possible, with the larger side along the longer side of the region; all have the same axis, which has room for the distances of the points of the clusters. -/
structure HistogramsShown (d : Nat → Nat → K) (pt : Partition) (medoids : List Point) (random : Option Nat)
    (fig : List (Subplot K)) : Prop where
  count : fig.length = pt.k
  grid : ∃ dx dy, dx * dy = pt.k ∧ (∀ a b, a * b = pt.k → a ≤ b → max dx dy - min dx dy ≤ b - a) ∧
    (pt.labels.xLen < pt.labels.yLen → dx ≤ dy) ∧ (pt.labels.yLen ≤ pt.labels.xLen → dy ≤ dx) ∧
    ∀ (i : Nat) s, fig[i]? = some s → s.position.1 < dx ∧ s.position.2 < dy ∧ s.position.1 * dy + s.position.2 = i
  shown : ∀ (i : Nat) m s, medoids[i]? = some m → fig[i]? = some s →
    HistogramShown d pt.labels.data i (m.x * pt.labels.yLen + m.y) random s
  axis : ∃ L, ∀ s ∈ fig, (L ≠ 0 → s.limit = some L) ∧ (L = 0 → s.limit = none) ∧ ∀ v ∈ s.distances.cluster, v ≤ L

/-- The best of the clusterings of a suite: the first one with the highest score. -/
def BestClustering (score : ClusterMeta → K) (suite : List ClusterMeta) (v : K) (best : ClusterMeta) : Prop :=
  ∃ pre post, suite = pre ++ best :: post ∧ v = score best ∧ (∀ c ∈ pre, score c < v) ∧ ∀ c ∈ post, score c ≤ v

end Spta
