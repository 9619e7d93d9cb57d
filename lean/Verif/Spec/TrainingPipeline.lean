import Verif.Spec.ExtractionLstm
import Verif.Spec.MedoidChoice
import Verif.Spec.StudySuites
import Verif.Spec.KMedoids

/-!
# Specification of the training data made from the analysis of a suite (C145)

The rows are those that a csv reader finds in the file of the choices.
-/

namespace Spta

variable {K : Type} [LinearOrder K]

/-- The rows name the medoid less often than the threshold; zero is no threshold. -/
def Free (threshold : Int) (rows : List (List Str)) (repr : Str) (i : Nat) : Prop :=
  threshold = 0 ∨ (rows.countP (Names repr (natStr i)) : Int) < threshold

/-- The position in the region of a point of the dataset. -/
def positionIn (r : Region) (m : Int × Int) : Nat := (m.1 - r.x1).toNat * (r.y2 - r.y1) + (m.2 - r.y1).toNat

/-- The row names the medoid `i` of the clustering `e`, which is the nearest to the point at the position `p` among those
that the rows before leave free, and the first of these in the order of the suite. -/
structure NearestFree (threshold : Int) (r : Region) (d : Nat → Nat → K) (suite : SuiteResult) (before : List (List Str))
    (p : Nat) (row : List Str) (a i : Nat) (e : Str × List (Int × Int)) (m : Int × Int) : Prop where
  clustering : suite[a]? = some e
  medoid : e.2[i]? = some m
  named : ∃ samples, medoidRef row = some (⟨e.1, natStr i, intStr m.1, intStr m.2⟩, samples)
  free : Free threshold before e.1 i
  nearest : ∀ (b : Nat) e' (j : Nat) m', suite[b]? = some e' → e'.2[j]? = some m' → Free threshold before e'.1 j →
    d p (positionIn r m) ≤ d p (positionIn r m') ∧ (Before b j a i → d p (positionIn r m) < d p (positionIn r m'))

/-! ### After the analysis -/

section

variable {K : Type} [Field K] [LinearOrder K] {P Q M : Type}

/-- The medoids of a clustering of the region. -/
def medoidsOf (w : SolverWorld K P Q M) (md : RegionMeta) (c : ClusterMeta) : List Point :=
  match w.partition md .dtw c with
  | .ok (_, medoids) => medoids
  | .error _ => []

/-- The clusterings with their medoids, in coordinates of the dataset. -/
def analysedSuite (w : SolverWorld K P Q M) (a : AnalysisArgs) : SuiteResult :=
  a.suite.map fun c => (c.repr, datasetPoints a.region.region (medoidsOf w a.region c))

/-- The extraction `x` is for the region and the suite of the analysis `a`, with the smallest distance as the criterion;
the texts can be read by the csv module. -/
structure ExtractionReady (w : SolverWorld K P Q M) (tools : ErrorTools K M) (a : AnalysisArgs) (s : Stack K)
    (x : Extraction K) : Prop where
  region : x.md = a.region
  suite : x.suite = a.id
  rule : x.rule = .minDistance
  loaded : x.region = .ok s
  file : x.matrixFile = .matrix (tools.distances a.region)
  shape : (tools.distances a.region).WF ∧ (tools.distances a.region).xLen = s.data.grid.xLen * s.data.grid.yLen ∧
    (tools.distances a.region).yLen = s.data.grid.xLen * s.data.grid.yLen
  sizes : s.data.grid.xLen = a.region.region.x2 - a.region.region.x1 ∧
    s.data.grid.yLen = a.region.region.y2 - a.region.region.y1
  draws : x.Draws (analysedSuite w a) s
  threshold : 0 ≤ x.threshold
  id : Readable a.region.repr
  show3 : ∀ v, Readable (x.show3 v)
  count : x.count < 10 ^ 9
  tLen : s.data.tLen < 10 ^ 9

/-- The row for the point `p`: its series, and the medoid of the suite that is nearest to it among those that the rows
before leave free, the first of these in the order of the suite. -/
def TrainingRow (w : SolverWorld K P Q M) (a : AnalysisArgs) (s : Stack K) (x : Extraction K) (d : Nat → Nat → K)
    (before : List (List Str)) (p : Point) (row : List Str) : Prop :=
  ∃ (b : Nat) (c : ClusterMeta) (i : Nat) (m : Point) (series : List (Option K)),
    a.suite[b]? = some c ∧ (medoidsOf w a.region c)[i]? = some m ∧ s.seriesAt p = .ok series ∧
    medoidRef row = some (⟨c.repr, natStr i, natStr (a.region.region.x1 + m.x), natStr (a.region.region.y1 + m.y)⟩,
      series.map x.show3) ∧
    Free x.threshold before c.repr i ∧
    ∀ (b' : Nat) (c' : ClusterMeta) (j : Nat) (m' : Point), a.suite[b']? = some c' →
      (medoidsOf w a.region c')[j]? = some m' → Free x.threshold before c'.repr j →
      d (p.x * s.data.grid.yLen + p.y) (m.x * s.data.grid.yLen + m.y) ≤
          d (p.x * s.data.grid.yLen + p.y) (m'.x * s.data.grid.yLen + m'.y) ∧
        (Before b' j b i → d (p.x * s.data.grid.yLen + p.y) (m.x * s.data.grid.yLen + m.y) <
          d (p.x * s.data.grid.yLen + p.y) (m'.x * s.data.grid.yLen + m'.y))

end

end Spta
