import Verif.Spec.Dataset
import Verif.Model.SilhouetteSession

/-!
# Specification of sessions of the silhouette analysis
-/

namespace Spta

variable {K : Type} [Field K] [LinearOrder K]

/-- The metadata can be turned into a region of the raw dataset: one or four samples per day, years of the
dataset, a rectangle inside of it. -/
structure CreatableFrom (raw : Cube (Option K)) (m : DirMeta) : Prop where
  spd : m.spd = 1 ∨ m.spd = 4
  first : 1979 ≤ m.yearStart
  order : m.yearStart ≤ m.yearEnd
  last : m.yearEnd ≤ 2015
  x : m.region.x1 < m.region.x2 ∧ m.region.x2 ≤ raw.grid.xLen
  y : m.region.y1 < m.region.y2 ∧ m.region.y2 ≤ raw.grid.yLen

/-- The region of the metadata in the raw dataset: the series of each point is the one of its absolute
position, for the years and the samples per day of the metadata. -/
structure RawRegion (raw : Cube (Option K)) (m : DirMeta) (g : Grid (List (Option K))) : Prop where
  wf : g.WF
  xLen : g.xLen = m.region.x2 - m.region.x1
  yLen : g.yLen = m.region.y2 - m.region.y1
  series : ∀ p s, p.x < m.region.x2 - m.region.x1 → p.y < m.region.y2 - m.region.y1 →
    raw.grid.get ⟨m.region.x1 + p.x, m.region.y1 + p.y⟩ = .ok s →
    ∃ out, g.get p = .ok out ∧ IsYearSeries m.yearStart m.yearEnd m.spd s out

/-- The matrix has the distance of every two points, in the order of the indices of the points. -/
structure AllDistances {S : Type} (measure : S → S → K) (g : Grid S) (m : Grid K) : Prop where
  wf : m.WF
  xLen : m.xLen = g.xLen * g.yLen
  yLen : m.yLen = g.xLen * g.yLen
  entry : ∀ p q : Point, ∀ s t, g.get p = .ok s → g.get q = .ok t →
    m.get ⟨p.x * g.yLen + p.y, q.x * g.yLen + q.y⟩ = .ok (measure s t)

/-- The names of the regions of a session tell their files apart: no slash, not the beginning of the names of
files of distances, not the name of the dataset itself; and regions that differ in their rectangle only do not
occur. -/
structure NamesApart (l : List DirMeta) : Prop where
  slash : ∀ m ∈ l, '/' ∉ m.name
  distances : ∀ m ∈ l, ∀ s, m.name ≠ "distances_".toList ++ s
  dataset : ∀ m ∈ l, m.name ≠ "SouthAmerica".toList
  rectangle : ∀ m ∈ l, ∀ m' ∈ l, m.dir = m'.dir → m.name = m'.name → m.yearStart = m'.yearStart →
    m.yearEnd = m'.yearEnd → m.spd = m'.spd → m.scaled = m'.scaled → m.region = m'.region

/-- The distance of the series with two indices. -/
def indexDistance {S : Type} (measure : S → S → K) (X : List S) (i j : Nat) : K :=
  match X[i]?, X[j]? with
  | some s, some t => measure s t
  | _, _ => 0

end Spta
