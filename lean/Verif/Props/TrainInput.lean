import Verif.Props.MedoidChoice
import Verif.Props.Clustering
import Verif.Lemmas.Grid
import Verif.Lemmas.Region
import Verif.Lemmas.Scaling

/-!
# Properties of the training input of the classifier: C62, C63

spta/classifier/train_input.py.
-/

set_option linter.unusedSectionVars false

namespace Spta

/-! ### C62: the two choice strategies -/

section

variable {K : Type} [LinearOrder K]

/-- A medoid that has reached the threshold. -/
def Reached (threshold : Int) (hist : MedoidHist) (key : MedoidKey) : Prop :=
  threshold ≠ 0 ∧ (hist.count key : Int) = threshold

/-- **C62** (least error): the criterion `min_error` always chooses the medoid of the cluster of the
point, in the first of the clusterings with the smallest error at the point among those with an error that
is a number and a medoid that has not reached the threshold; if there is none, a ValueError is raised. -/
theorem C62_min_error (error : Str → Option K) (label : Str → Nat) {threshold : Int} {suite : SuiteResult}
    {hist : MedoidHist} (hl : ∀ e ∈ suite, label e.1 < e.2.length)
    (hb : threshold ≠ 0 → ∀ e ∈ suite, ∀ i < e.2.length, (hist.count (e.1, i) : Int) ≤ threshold) :
    ((∀ e ∈ suite, error e.1 = none ∨ Reached threshold hist (e.1, label e.1)) ∧
      chooseMedoid (fun r ms => minErrorPenalties (.ok (error r)) (.ok (label r)) ms) threshold suite hist =
        (.error .valueError, hist)) ∨
    ∃ (a : Nat) (e : Str × List AbsPoint) (m : AbsPoint) (v : K) (hist' : MedoidHist),
      chooseMedoid (fun r ms => minErrorPenalties (.ok (error r)) (.ok (label r)) ms) threshold suite hist =
        (.ok (e.1, label e.1, m), hist') ∧
      suite[a]? = some e ∧ e.2[label e.1]? = some m ∧ error e.1 = some v ∧
      ¬ Reached threshold hist (e.1, label e.1) ∧
      ∀ (b : Nat) e' w, suite[b]? = some e' → error e'.1 = some w →
        ¬ Reached threshold hist (e'.1, label e'.1) → v ≤ w ∧ (b < a → v < w) := by
  let penalty : Str → Nat → Score K := fun r i => effective threshold (hist.count (r, i))
    (if i = label r then toScore (error r) else some ⊤)
  have hp : Penalizes (fun r ms => minErrorPenalties (.ok (error r)) (.ok (label r)) ms) threshold suite
      hist penalty := by
    refine ⟨fun e he h0 => ?_, fun e he => ⟨_, by rw [minErrorPenalties]; simp only [if_pos (hl e he)]; rfl,
      by simp, fun i s hi => ?_⟩, hb⟩
    · have := hl e he
      rw [h0] at this
      simp at this
    · rw [List.getElem?_set] at hi
      show effective threshold (hist.count (e.1, i)) _ = _
      congr 1
      by_cases hil : i = label e.1
      · rw [if_pos hil.symm] at hi
        rw [List.length_replicate, if_pos (hil ▸ hl e he)] at hi
        rw [if_pos hil]
        exact Option.some.inj hi
      · rw [if_neg (fun h => hil h.symm)] at hi
        obtain ⟨_, h2⟩ := List.getElem?_eq_some_iff.1 hi
        rw [List.getElem_replicate] at h2
        rw [if_neg hil, h2]
  have hother : ∀ r i, i ≠ label r → penalty r i = some ⊤ := by
    intro r i hi
    simp only [penalty, effective, if_neg hi, ite_self]
  have hreached : ∀ r, Reached threshold hist (r, label r) → penalty r (label r) = some ⊤ := by
    intro r hr
    exact if_pos hr
  have hnot : ∀ r, ¬ Reached threshold hist (r, label r) →
      penalty r (label r) = toScore (error r) := by
    intro r hr
    exact (if_neg hr).trans (if_pos rfl)
  have hcomp : ∀ e : Str × List AbsPoint, ∀ w, error e.1 = some w → Comparable penalty e := by
    intro e w hw i hi hn
    by_cases h1 : i = label e.1
    · subst h1
      by_cases hr : Reached threshold hist (e.1, label e.1)
      · rw [hreached _ hr] at hn; cases hn
      · rw [hnot _ hr, hw] at hn; cases hn
    · rw [hother _ _ h1] at hn; cases hn
  rcases C54_choice hp with ⟨h1, h2⟩ | ⟨a, i, e, m, v, hf, hist', h2, _⟩
  · refine .inl ⟨fun e he => ?_, h2⟩
    cases hw : error e.1 with
    | none => exact .inl rfl
    | some w =>
      right
      by_contra hr
      have := h1 e he (hcomp e w hw) _ (hl e he)
      rw [hnot _ hr, hw] at this
      exact absurd (Option.some.inj this) WithTop.coe_ne_top
  · right
    have hi : i = label e.1 := by
      by_contra hi
      have := hf.value
      rw [hother _ _ hi] at this
      simp at this
    subst hi
    have hr : ¬ Reached threshold hist (e.1, label e.1) := by
      intro hr
      have := hf.value
      rw [hreached _ hr] at this
      simp at this
    have hv : error e.1 = some v := by
      have := hf.value
      rw [hnot _ hr] at this
      obtain ⟨w, hw, e2⟩ := Option.map_eq_some_iff.1 this
      rw [hw, WithTop.coe_injective e2]
    refine ⟨a, e, m, v, hist', h2, hf.clustering, hf.medoid, hv, hr, ?_⟩
    intro b e' w hb' hw hr'
    have hmem := List.mem_of_getElem? hb'
    have hpen : penalty e'.1 (label e'.1) = some (w : WithTop K) := by rw [hnot _ hr', hw]; rfl
    refine ⟨WithTop.coe_le_coe.1 (hf.least b e' _ _ hb' (hcomp e' w hw) (hl e' hmem) hpen), fun hba => ?_⟩
    exact WithTop.coe_lt_coe.1 (hf.first b e' _ _ hb' (hcomp e' w hw) (hl e' hmem) hpen (.inl hba))

/-- Two clusterings with errors 3 and 2 at the point, which is in cluster 1 of both. -/
example :
    chooseMedoid (fun r ms => minErrorPenalties (.ok (if r = ['a'] then some (3 : ℚ) else some 2)) (.ok 1) ms)
      0 [(['a'], [(0, 0), (0, 1)]), (['b'], [(1, 0), (1, 1)])] [] =
      (.ok (['b'], 1, (1, 1)), [((['b'], 1), 1)]) := by
  decide +kernel

/-- **C62** (least distance): the penalties of the criterion `min_distance` are the entries of the distance
matrix for the point and each medoid, the coordinates of the medoids being taken relative to the region. -/
theorem C62_min_distance (m : Grid (Option K)) (hm : m.WF) (r : Region) (p : Point)
    (hx : m.xLen = (r.x2 - r.x1) * (r.y2 - r.y1)) (hy : m.yLen = (r.x2 - r.x1) * (r.y2 - r.y1))
    (hp : p.x < r.x2 - r.x1 ∧ p.y < r.y2 - r.y1) (medoids : List Point)
    (hin : ∀ q ∈ medoids, q.x < r.x2 - r.x1 ∧ q.y < r.y2 - r.y1) :
    ∃ ds, minDistancePenalties (some m) r p
        (medoids.map fun q => (((r.x1 + q.x : Nat) : Int), ((r.y1 + q.y : Nat) : Int))) = .ok ds ∧
      List.Forall₂ (fun q s => ∃ v, m.get ⟨p.x * (r.y2 - r.y1) + p.y, q.x * (r.y2 - r.y1) + q.y⟩ = .ok v ∧
        s = toScore v) medoids ds := by
  have hidx : ∀ q ∈ medoids, q.x * (r.y2 - r.y1) + q.y < m.yLen := by
    intro q hq
    rw [hy]
    exact idx_lt (hin q hq).1 (hin q hq).2
  have hget : ∀ q ∈ medoids, ∃ v, m.get ⟨p.x * (r.y2 - r.y1) + p.y, q.x * (r.y2 - r.y1) + q.y⟩ = .ok v :=
    fun q hq => m.exists_get hm (by rw [hx]; exact idx_lt hp.1 hp.2) (hidx q hq)
  choose! v hv using hget
  refine ⟨medoids.map fun q => toScore (v q), ?_, ?_⟩
  · simp only [minDistancePenalties, List.mapM_map]
    refine mapM_ok _ _ medoids fun q hq => ?_
    have e : ((((r.x1 + q.x : Nat) : Int) - r.x1) * (r.y2 - r.y1 : Nat) + (((r.y1 + q.y : Nat) : Int) - r.y1)) =
        ((q.x * (r.y2 - r.y1) + q.y : Nat) : Int) := by
      push_cast
      rw [add_sub_cancel_left, add_sub_cancel_left]
    have e2 : numpyIndex ((q.x * (r.y2 - r.y1) + q.y : Nat) : Int) m.yLen =
        .ok (q.x * (r.y2 - r.y1) + q.y) := by
      have := hidx q hq
      rw [numpyIndex, if_pos (by omega), if_pos (by exact_mod_cast this), Int.toNat_natCast]
    simp only [Function.comp, e, e2, hv q hq, Except.map]
  · rw [List.forall₂_map_right_iff, List.forall₂_same]
    exact fun q hq => ⟨v q, hv q hq, rfl⟩

/-- A 1x2 region with offset (5, 7): distances from its point (0, 1) to its point (0, 0). -/
example : minDistancePenalties (some ⟨2, 2, [some 0, some 4, some 4, some (0 : ℚ)]⟩) ⟨5, 6, 7, 9⟩ ⟨0, 1⟩
    [(5, 7)] = .ok [some ((4 : ℚ) : WithTop ℚ)] := by
  decide +kernel

end

/-! ### C63: the CSV of the series of the medoids -/

section

variable {K : Type} [Field K] [LinearOrder K]

/-- The representation of a clustering in the suite CSV is read back up to the columns that are
printed. -/
theorem factory_dict (cl : ClusterMeta) (hm : ∀ m, cl = .kmedoids m → '_' ∉ m.mode) :
    ∃ cl', factoryFromRepr cl.repr = .ok cl' ∧
      Result.clusteringDict (K := K) cl' = Result.clusteringDict cl := by
  cases cl with
  | regular k => exact ⟨_, C50_regular k, rfl⟩
  | kmedoids m =>
    have h := hm m rfl
    cases hi : m.initial with
    | none => exact ⟨_, C50_kmedoids h hi, rfl⟩
    | some im => exact ⟨_, C50_initial_lost h hi, rfl⟩

/-- The row expected for the medoid with index `idx`, the `i`-th one of the clustering `cl`. -/
def expectedRow (regionId : Str) (r : Region) (series : Nat → List (Option K)) (cl : ClusterMeta) (i idx : Nat) :
    List (Cell K) :=
  .text regionId :: ((Result.clusteringDict cl).map (·.2) ++
    [.index i, .index (idx / (r.y2 - r.y1) + r.x1 : Nat), .index (idx % (r.y2 - r.y1) + r.y1 : Nat)] ++
    (series idx).map .number)

theorem mapM_range_idx {A B : Type} (f : Nat → Except PyErr B) (g : Nat → A → B) (l : List A)
    (h : ∀ (i : Nat) a, l[i]? = some a → f i = .ok (g i a)) :
    (List.range l.length).mapM f = .ok (l.mapIdx g) := by
  rw [mapM_eq_ok, List.forall₂_iff_get]
  refine ⟨by simp, fun i h1 h2 => ?_⟩
  simp only [List.get_eq_getElem, List.getElem_range, List.getElem_mapIdx]
  simp only [List.length_range] at h1
  exact h i _ (List.getElem?_eq_getElem h1)

/-- **C63**: for the suite read from the CSV written for the region itself (C51), the CSV of the medoids
has one row for each medoid, in the order of the file, with the series of the region at the medoid. -/
theorem C63_medoid_rows (regionId : Str) (s : Stack K) (r : Region)
    (rows : List (ClusterMeta × List Nat)) (series : Nat → List (Option K))
    (hmode : ∀ w ∈ rows, ∀ m, w.1 = .kmedoids m → '_' ∉ m.mode)
    (hy : r.y1 < r.y2) (hdx : s.data.grid.xLen = r.x2 - r.x1) (hdy : s.data.grid.yLen = r.y2 - r.y1)
    (hidx : ∀ w ∈ rows, ∀ idx ∈ w.2, idx < (r.x2 - r.x1) * (r.y2 - r.y1))
    (hser : ∀ w ∈ rows, ∀ idx ∈ w.2, s.seriesAt ⟨idx / (r.y2 - r.y1), idx % (r.y2 - r.y1)⟩ = .ok (series idx)) :
    medoidRows regionId s r (rows.map fun w => (w.1.repr, absolutePointsOf r w.2)) =
      .ok (rows.flatMap fun w => w.2.mapIdx fun i idx => expectedRow regionId r series w.1 i idx) := by
  have hpos : 0 < r.y2 - r.y1 := by omega
  have hent : ∀ w ∈ rows, medoidEntries s r (absolutePointsOf r w.2) =
      .ok (w.2.mapIdx fun i idx => (i, (((idx / (r.y2 - r.y1) + r.x1 : Nat) : Int),
        ((idx % (r.y2 - r.y1) + r.y1 : Nat) : Int)), series idx)) := by
    intro w hw
    have hlen : (absolutePointsOf r w.2).length = w.2.length := by simp [absolutePointsOf]
    rw [medoidEntries, hlen]
    refine mapM_range_idx _ _ w.2 fun i idx hi => ?_
    have hm := List.mem_of_getElem? hi
    have e1 : (absolutePointsOf r w.2)[i]? = some (((idx / (r.y2 - r.y1) + r.x1 : Nat) : Int),
        ((idx % (r.y2 - r.y1) + r.y1 : Nat) : Int)) := by
      rw [absolutePointsOf, List.getElem?_map, hi]; rfl
    have e2 : numpyIndex (((idx / (r.y2 - r.y1) + r.x1 : Nat) : Int) - r.x1) s.data.grid.xLen =
        .ok (idx / (r.y2 - r.y1)) := by
      have := (Nat.div_lt_iff_lt_mul hpos).2 (hidx w hw idx hm)
      generalize idx / (r.y2 - r.y1) = q at *
      rw [hdx, numpyIndex, if_pos (by omega), if_pos (by omega)]
      congr 1; omega
    have e3 : numpyIndex (((idx % (r.y2 - r.y1) + r.y1 : Nat) : Int) - r.y1) s.data.grid.yLen =
        .ok (idx % (r.y2 - r.y1)) := by
      have := Nat.mod_lt idx hpos
      generalize idx % (r.y2 - r.y1) = q at *
      rw [hdy, numpyIndex, if_pos (by omega), if_pos (by omega)]
      congr 1; omega
    simp only [e1, seriesAtInt, e2, e3, hser w hw idx hm]
  have hdata : medoidData s r (rows.map fun w => (w.1.repr, absolutePointsOf r w.2)) =
      .ok (rows.map fun w => (w.1.repr, w.2.mapIdx fun i idx => (i,
        (((idx / (r.y2 - r.y1) + r.x1 : Nat) : Int), ((idx % (r.y2 - r.y1) + r.y1 : Nat) : Int)),
        series idx))) := by
    rw [medoidData, List.mapM_map]
    refine mapM_ok _ _ rows fun w hw => ?_
    simp only [Function.comp, hent w hw]
  have hrows : (rows.map fun w => (w.1.repr, w.2.mapIdx fun i idx => (i,
        (((idx / (r.y2 - r.y1) + r.x1 : Nat) : Int), ((idx % (r.y2 - r.y1) + r.y1 : Nat) : Int)),
        series idx))).mapM (entryRows regionId) =
      .ok (rows.map fun w => w.2.mapIdx fun i idx => expectedRow regionId r series w.1 i idx) := by
    rw [List.mapM_map]
    refine mapM_ok _ _ rows fun w hw => ?_
    obtain ⟨cl', h1, h2⟩ := factory_dict (K := K) w.1 (hmode w hw)
    simp only [Function.comp, entryRows, mapM_eq_ok, List.forall₂_iff_get]
    refine ⟨by simp, fun i g1 g2 => ?_⟩
    simp only [List.get_eq_getElem, List.getElem_mapIdx, trainRow, h1, h2, expectedRow]
    simp
  rw [medoidRows, hdata]
  simp only [hrows, List.flatMap_def]

/-- **C63** (layout): each row has one column per name of the header, if all clusterings are of the same
type and all series have the length of the region. -/
theorem C63_layout (regionId : Str) (s : Stack K) (r : Region) (first : ClusterMeta × List Nat)
    (rest : List (ClusterMeta × List Nat)) (series : Nat → List (Option K)) (seriesLen : Nat)
    (hmode : ∀ w ∈ first :: rest, ∀ m, w.1 = .kmedoids m → '_' ∉ m.mode)
    (hy : r.y1 < r.y2) (hdx : s.data.grid.xLen = r.x2 - r.x1) (hdy : s.data.grid.yLen = r.y2 - r.y1)
    (hidx : ∀ w ∈ first :: rest, ∀ idx ∈ w.2, idx < (r.x2 - r.x1) * (r.y2 - r.y1))
    (hser : ∀ w ∈ first :: rest, ∀ idx ∈ w.2,
      s.seriesAt ⟨idx / (r.y2 - r.y1), idx % (r.y2 - r.y1)⟩ = .ok (series idx))
    (hlen : ∀ w ∈ first :: rest, ∀ idx ∈ w.2, (series idx).length = seriesLen)
    (htype : ∀ w ∈ rest, w.1.name = first.1.name) :
    ∃ header out, trainHeader (K := K)
        ((first :: rest).map fun w => (w.1.repr, absolutePointsOf r w.2)) seriesLen = .ok header ∧
      medoidRows regionId s r ((first :: rest).map fun w => (w.1.repr, absolutePointsOf r w.2)) = .ok out ∧
      out.length = ((first :: rest).map fun w => w.2.length).sum ∧
      ∀ row ∈ out, row.length = header.length := by
  obtain ⟨cl', h1, h2⟩ := factory_dict (K := K) first.1 (hmode first (List.mem_cons_self ..))
  have hname : sKmedoids ≠ sRegular := by decide
  have hdict : ∀ w ∈ first :: rest, (Result.clusteringDict (K := K) w.1).length =
      (Result.clusteringDict (K := K) first.1).length := by
    intro w hw
    rcases List.mem_cons.1 hw with rfl | hw
    · rfl
    · have := htype w hw
      obtain ⟨w1, w2⟩ := w
      obtain ⟨f1, f2⟩ := first
      cases w1 <;> cases f1 <;> simp_all [ClusterMeta.name, Result.clusteringDict]
  refine ⟨_, _, by simp only [List.map_cons, trainHeader, h1]; rfl,
    C63_medoid_rows regionId s r _ series hmode hy hdx hdy hidx hser, ?_, ?_⟩
  · rw [List.length_flatMap]
    simp only [List.length_mapIdx]
  · intro row hrow
    obtain ⟨w, hw, hrow⟩ := List.mem_flatMap.1 hrow
    obtain ⟨i, hi, rfl⟩ := List.mem_mapIdx.1 hrow
    have e1 := hdict w hw
    have e2 := hlen w hw w.2[i] (List.getElem_mem hi)
    simp only [expectedRow, List.length_cons, List.length_append, List.length_map, List.length_nil,
      List.length_range, h2, e1, e2]
    omega

/-- The hypotheses are met: one clustering with two medoids in a 1x2 region with offset (5, 7). -/
example :
    let s : Stack ℚ := .plain ⟨2, ⟨1, 2, [[some 1, some 2], [some 3, some 4]]⟩⟩
    let rows : List (ClusterMeta × List Nat) := [(.kmedoids { k := 2 }, [1, 0])]
    let series : Nat → List (Option ℚ) := fun i => if i = 0 then [some 1, some 2] else [some 3, some 4]
    (∀ w ∈ rows, ∀ idx ∈ w.2, s.seriesAt ⟨idx / (9 - 7), idx % (9 - 7)⟩ = .ok (series idx)) ∧
    medoidRows ['x'] s ⟨5, 6, 7, 9⟩ (rows.map fun w => (w.1.repr, absolutePointsOf ⟨5, 6, 7, 9⟩ w.2)) =
      .ok [[.text ['x'], .text sKmedoids, .index 2, .index 1, .text sLite, .index 0, .index 5, .index 8,
          .number (some 3), .number (some 4)],
        [.text ['x'], .text sKmedoids, .index 2, .index 1, .text sLite, .index 1, .index 5, .index 7,
          .number (some 1), .number (some 2)]] := by
  constructor
  · intro w hw
    simp only [List.mem_singleton] at hw
    subst hw
    decide +kernel
  · decide +kernel

end

end Spta
