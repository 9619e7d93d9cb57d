import Verif.Model.Query
import Verif.Props.Solver
import Verif.Props.Result
import Verif.Props.Classifier

/-!
# C88, C89: the rows that a query writes
-/

set_option linter.unusedSectionVars false

namespace Spta

variable {K : Type} [Field K] [LinearOrder K] [IsStrictOrderedRing K]

/-- The rows of a result, given the tuple of every point. -/
theorem rows_of_tuples (r : Result K) {a b : Nat} (hx : r.base.forecast.data.grid.xLen = a)
    (hy : r.base.forecast.data.grid.yLen = b) (t : Point → List (Cell K))
    (h : ∀ p : Point, p.x < a → p.y < b → r.tuple p = .ok (t p)) :
    ∃ rows, r.rows = .ok rows ∧ rows.length = a * b ∧
      ∀ p : Point, p.x < a → p.y < b → rows[p.x * b + p.y]? = some (t p) := by
  have hpts : r.points = rowMajor a b := by rw [Result.points, allPoints_eq, hx, hy]
  refine ⟨_, mapM_ok r.tuple t _ ?_, by rw [List.length_map, hpts, rowMajor_length], ?_⟩
  · intro p hp
    rw [hpts, mem_rowMajor] at hp
    exact h p hp.1 hp.2
  · intro p h1 h2
    rw [List.getElem?_map, hpts, rowMajor_eq_map, List.getElem?_map, List.getElem?_range (idx_lt h1 h2),
      Option.map_some, Option.map_some, idx_div h2, idx_mod h2]

theorem clusterIndexOf_eq {pt : Partition} (hw : pt.labels.WF) {p : Point} (hx : p.x < pt.labels.xLen)
    (hy : p.y < pt.labels.yLen) : Result.clusterIndexOf pt p = pt.labels.get p := by
  obtain ⟨l, h3, h4⟩ := pt.labels.get_of_lt hw hx hy
  have hm : pt.membershipOfPoints [p] = .ok [l] := by
    simp only [Partition.membershipOfPoints, Partition.membershipOfIndices]
    exact mapM_ok _ (fun _ => l) _ (by
      intro x hx
      simp only [List.map_cons, List.map_nil, List.mem_singleton] at hx
      rw [hx, h3])
  rw [Result.clusterIndexOf, hm, h4]

/-- The row of a point in the answer of a solver with medoids. -/
theorem queryResult_tuple {b : ResultBase K} {test : Stack K} {out : Bool} {pt : Partition}
    {ms : Option (List Point)} {cl : ClusterMeta} (hw : pt.labels.WF) {p : Point} {err : ErrorVal K}
    {f : List (Option K)} {l : Nat} (he : b.errors.valueAt p = .ok err) (hf : b.forecast.seriesAt p = .ok f)
    (hl : pt.labels.get ⟨p.x + b.prediction.x1, p.y + b.prediction.y1⟩ = .ok l)
    {rest : List (Cell K)} (ho : out = true → rest = [])
    (hi : out = false → ∃ s, test.seriesAt p = .ok s ∧ rest = [.series s]) :
    (Result.withPartition (Result.build b test out) pt ms cl).tuple p =
      .ok ([.coords ⟨p.x + b.prediction.x1 + b.mdRegion.x1, p.y + b.prediction.y1 + b.mdRegion.y1⟩,
        .index l, .errorValue err, .series f] ++ rest) := by
  have hr := (Grid.get_eq_ok_iff _ _ _).1 hl
  have hci := clusterIndexOf_eq hw (p := ⟨p.x + b.prediction.x1, p.y + b.prediction.y1⟩) hr.1 hr.2.1
  cases out with
  | true =>
    rw [ho rfl]
    simp only [Result.build, if_true, Result.tuple, Result.baseTuple, Result.base, he, hf, Result.toDomain,
      hci, hl]
    rfl
  | false =>
    obtain ⟨s, hs, rfl⟩ := hi rfl
    simp only [Result.build, Bool.false_eq_true, if_false, Result.tuple, Result.baseTuple, Result.base, he,
      hf, Result.toDomain, hci, hl, hs]
    rfl

/-- The rows of a query from what C48 says about its points. -/
theorem queryResult_rows {M : Type} {sv : Solver K M} {forecast : M → Nat → Except PyErr (List (Option K))}
    {r : Region} {fl : Int} {pr : Prediction K} (hpr : sv.predict forecast r fl = .ok pr) {X Y : Nat}
    (hx2 : r.x2 ≤ X) (hy2 : r.y2 ≤ Y) (hfx : pr.forecast.data.grid.xLen = min r.x2 X - r.x1)
    (hfy : pr.forecast.data.grid.yLen = min r.y2 Y - r.y1) (mdRegion : Region) {pt : Partition}
    (hw : pt.labels.WF) (hpx : pt.labels.xLen = X) (hpy : pt.labels.yLen = Y)
    (ms : Option (List Point)) (cl : ClusterMeta) (out : Point → List (Option K))
    (err : Point → ErrorVal K) (test : Point → List (Option K))
    (hp : ∀ p : Point, p.x < X → p.y < Y → r.x1 ≤ p.x → p.x < r.x2 → r.y1 ≤ p.y → p.y < r.y2 →
      pr.forecast.seriesAt ⟨p.x - r.x1, p.y - r.y1⟩ = .ok (out p) ∧
      pr.errors.valueAt ⟨p.x - r.x1, p.y - r.y1⟩ = .ok (err p) ∧
      (¬ 0 < fl → ∃ t, pr.test = some t ∧ t.seriesAt ⟨p.x - r.x1, p.y - r.y1⟩ = .ok (test p))) :
    ∃ res rows, sv.queryResult forecast mdRegion pt ms cl r fl = .ok res ∧ res.rows = .ok rows ∧
      res.header = ["Point", "cluster_index", "error", "forecast_series"] ++
        (if 0 < fl then [] else ["test_series"]) ∧
      rows.length = (r.x2 - r.x1) * (r.y2 - r.y1) ∧
      ∀ p : Point, r.x1 ≤ p.x → p.x < r.x2 → r.y1 ≤ p.y → p.y < r.y2 →
        ∃ l, pt.labels.get p = .ok l ∧ rows[(p.x - r.x1) * (r.y2 - r.y1) + (p.y - r.y1)]? =
          some ([.coords ⟨p.x + mdRegion.x1, p.y + mdRegion.y1⟩, .index l, .errorValue (err p),
            .series (out p)] ++ if 0 < fl then [] else [.series (test p)]) := by
  have hlab : ∀ p : Point, ∃ l, p.x < X → p.y < Y → pt.labels.get p = .ok l := by
    intro p
    by_cases h : p.x < X ∧ p.y < Y
    · obtain ⟨l, hl⟩ := pt.labels.exists_get hw (p := p) (by omega) (by omega)
      exact ⟨l, fun _ _ => hl⟩
    · exact ⟨0, fun h1 h2 => absurd ⟨h1, h2⟩ h⟩
  choose lab hlab using hlab
  have hq : sv.queryResult forecast mdRegion pt ms cl r fl = .ok (.withPartition
      (Result.build ⟨mdRegion, sv.testLen, pr.forecast, pr.errors, r, sv.spt⟩
        (pr.test.getD pr.forecast) (decide (0 < fl))) pt ms cl) := by
    simp only [Solver.queryResult, hpr]
  have hbase : ∀ (b : ResultBase K) t o, (Result.withPartition (Result.build b t o) pt ms cl).base = b := by
    intro b t o
    cases o <;> rfl
  rw [Nat.min_eq_left hx2] at hfx
  rw [Nat.min_eq_left hy2] at hfy
  obtain ⟨rows, h1, h2, h3⟩ := rows_of_tuples (.withPartition
      (Result.build ⟨mdRegion, sv.testLen, pr.forecast, pr.errors, r, sv.spt⟩
        (pr.test.getD pr.forecast) (decide (0 < fl))) pt ms cl) (a := r.x2 - r.x1) (b := r.y2 - r.y1)
      (by rw [hbase]; exact hfx) (by rw [hbase]; exact hfy)
      (fun p => [.coords ⟨p.x + r.x1 + mdRegion.x1, p.y + r.y1 + mdRegion.y1⟩,
        .index (lab ⟨p.x + r.x1, p.y + r.y1⟩), .errorValue (err ⟨p.x + r.x1, p.y + r.y1⟩),
        .series (out ⟨p.x + r.x1, p.y + r.y1⟩)] ++
          if 0 < fl then [] else [.series (test ⟨p.x + r.x1, p.y + r.y1⟩)]) (by
      intro p h1 h2
      obtain ⟨k1, k2, k3⟩ := hp ⟨p.x + r.x1, p.y + r.y1⟩ (by simp only; omega) (by simp only; omega)
        (by simp only; omega) (by simp only; omega) (by simp only; omega) (by simp only; omega)
      have hpp : (⟨p.x + r.x1 - r.x1, p.y + r.y1 - r.y1⟩ : Point) = p := by
        cases p; simp
      simp only [hpp] at k1 k2 k3
      refine queryResult_tuple hw k2 k1 (hlab _ (by simp only; omega) (by simp only; omega)) ?_ ?_
      · intro h
        rw [if_pos (of_decide_eq_true h)]
      · intro h
        have h0 := of_decide_eq_false h
        obtain ⟨t, ht, hs⟩ := k3 h0
        exact ⟨_, by rw [ht]; exact hs, by rw [if_neg h0]⟩)
  refine ⟨_, rows, hq, h1, ?_, h2, ?_⟩
  · by_cases h0 : 0 < fl <;> simp [Result.header, Result.build, h0, Result.insertSecond]
  · intro p p1 p2 p3 p4
    refine ⟨lab p, hlab p (by omega) (by omega), ?_⟩
    have := h3 ⟨p.x - r.x1, p.y - r.y1⟩ (by simp only; omega) (by simp only; omega)
    simp only [Nat.sub_add_cancel p1, Nat.sub_add_cancel p3] at this
    exact this

/-- **C88**, data that is not scaled: the file of a query has the header and then one row for every point of
the prediction region, in row-major order: its absolute coordinates, its cluster, its error, the forecast of
its own model (of the whole series out of sample, of the training part otherwise), and, in sample, its last
`test_len` samples. -/
theorem C88_rows_plain {M : Type} (sv : Solver K M) (cube : Cube (Option K)) (ge : Grid (ErrorVal K))
    (h : sv.PlainOK cube ge) (forecast : M → Nat → Except PyErr (List (Option K))) (r : Region) (fl : Int)
    (hf : ∀ p m, (sv.queryModels fl).get p = .ok (some m) →
      ∃ w, forecast m (sv.queryLen fl) = .ok w ∧ w.length = sv.queryLen fl)
    (hx : r.x2 ≤ cube.grid.xLen) (hy : r.y2 ≤ cube.grid.yLen) (mdRegion : Region) (pt : Partition)
    (hw : pt.labels.WF) (hpx : pt.labels.xLen = cube.grid.xLen) (hpy : pt.labels.yLen = cube.grid.yLen)
    (ms : Option (List Point)) (cl : ClusterMeta) :
    ∃ res rows, sv.queryResult forecast mdRegion pt ms cl r fl = .ok res ∧ res.rows = .ok rows ∧
      res.header = ["Point", "cluster_index", "error", "forecast_series"] ++
        (if 0 < fl then [] else ["test_series"]) ∧
      rows.length = (r.x2 - r.x1) * (r.y2 - r.y1) ∧
      ∀ p : Point, r.x1 ≤ p.x → p.x < r.x2 → r.y1 ≤ p.y → p.y < r.y2 →
        ∃ l e model f test, pt.labels.get p = .ok l ∧ ge.get p = .ok e ∧
          (sv.queryModels fl).get p = .ok model ∧
          (model = none → f = List.replicate (sv.queryLen fl) none) ∧
          (∀ m, model = some m → forecast m (sv.queryLen fl) = .ok f) ∧
          (¬ 0 < fl → ∃ v, cube.grid.get p = .ok v ∧ test.length = sv.testLen ∧ test <:+ v) ∧
          rows[(p.x - r.x1) * (r.y2 - r.y1) + (p.y - r.y1)]? =
            some ([.coords ⟨p.x + mdRegion.x1, p.y + mdRegion.y1⟩, .index l, .errorValue e, .series f] ++
              if 0 < fl then [] else [.series test]) := by
  obtain ⟨pr, a1, a2, a3, a4⟩ := C48_predict_plain sv cube ge h forecast r fl hf
  have hall : ∀ p : Point, ∃ model f e test, p.x < cube.grid.xLen → p.y < cube.grid.yLen → r.x1 ≤ p.x →
      p.x < r.x2 → r.y1 ≤ p.y → p.y < r.y2 → (sv.queryModels fl).get p = .ok model ∧
      (model = none → f = List.replicate (sv.queryLen fl) none) ∧
      (∀ m, model = some m → forecast m (sv.queryLen fl) = .ok f) ∧
      pr.forecast.seriesAt ⟨p.x - r.x1, p.y - r.y1⟩ = .ok f ∧ ge.get p = .ok e ∧
      pr.errors.valueAt ⟨p.x - r.x1, p.y - r.y1⟩ = .ok e ∧
      (¬ 0 < fl → ∃ t v, pr.test = some t ∧ cube.grid.get p = .ok v ∧
        t.seriesAt ⟨p.x - r.x1, p.y - r.y1⟩ = .ok test ∧ test.length = sv.testLen ∧ test <:+ v) := by
    intro p
    by_cases hp : p.x < cube.grid.xLen ∧ p.y < cube.grid.yLen ∧ r.x1 ≤ p.x ∧ p.x < r.x2 ∧ r.y1 ≤ p.y ∧
      p.y < r.y2
    · obtain ⟨model, f, k1, k2, k3, k4, k5, k6⟩ := a4 p hp.1 hp.2.1 hp.2.2.1 hp.2.2.2.1 hp.2.2.2.2.1
        hp.2.2.2.2.2
      obtain ⟨e, he⟩ := ge.exists_get h.errorsWF.1 (p := p) (by rw [h.errorsWF.2.1]; exact hp.1)
        (by rw [h.errorsWF.2.2]; exact hp.2.1)
      by_cases h0 : 0 < fl
      · exact ⟨model, f, e, [], fun _ _ _ _ _ _ => ⟨k1, k2, k3, k4, he, by rw [k5, he],
          fun hn => absurd h0 hn⟩⟩
      · obtain ⟨t, v, b, t1, t2, t3, t4, t5⟩ := k6 h0
        exact ⟨model, f, e, b, fun _ _ _ _ _ _ => ⟨k1, k2, k3, k4, he, by rw [k5, he],
          fun _ => ⟨t, v, t1, t2, t3, t4, t5⟩⟩⟩
    · exact ⟨none, [], none, [], fun h1 h2 h3 h4 h5 h6 => absurd ⟨h1, h2, h3, h4, h5, h6⟩ hp⟩
  choose model f e test hp using hall
  obtain ⟨res, rows, b1, b2, b3, b4, b5⟩ := queryResult_rows a1 hx hy a2 a3 mdRegion hw hpx hpy ms cl f e test
    (fun p h1 h2 h3 h4 h5 h6 => by
      obtain ⟨_, _, _, k4, _, k6, k7⟩ := hp p h1 h2 h3 h4 h5 h6
      refine ⟨k4, k6, fun h0 => ?_⟩
      obtain ⟨t, v, t1, _, t3, _⟩ := k7 h0
      exact ⟨t, t1, t3⟩)
  refine ⟨res, rows, b1, b2, b3, b4, fun p h1 h2 h3 h4 => ?_⟩
  obtain ⟨l, l1, l2⟩ := b5 p h1 h2 h3 h4
  obtain ⟨k1, k2, k3, _, k5, _, k7⟩ := hp p (by omega) (by omega) h1 h2 h3 h4
  refine ⟨l, e p, model p, f p, test p, l1, k5, k1, k2, k3, fun h0 => ?_, l2⟩
  obtain ⟨t, v, _, t2, _, t4, t5⟩ := k7 h0
  exact ⟨v, t2, t4, t5⟩

/-- **C88**, scaled data: as before, with forecast and test samples in original units. -/
theorem C88_rows_scaled {M : Type} (sv : Solver K M) (cube : Cube (Option K))
    (ge : Grid (ErrorVal K)) (gmin gmax : Grid (Option K)) (h : sv.ScaledOK cube ge gmin gmax)
    (forecast : M → Nat → Except PyErr (List (Option K))) (r : Region) (fl : Int)
    (hf : ∀ p m, (sv.queryModels fl).get p = .ok (some m) →
      ∃ w, forecast m (sv.queryLen fl) = .ok w ∧ w.length = sv.queryLen fl)
    (hx : r.x2 ≤ cube.grid.xLen) (hy : r.y2 ≤ cube.grid.yLen) (mdRegion : Region) (pt : Partition)
    (hw : pt.labels.WF) (hpx : pt.labels.xLen = cube.grid.xLen) (hpy : pt.labels.yLen = cube.grid.yLen)
    (ms : Option (List Point)) (cl : ClusterMeta) :
    ∃ res rows, sv.queryResult forecast mdRegion pt ms cl r fl = .ok res ∧ res.rows = .ok rows ∧
      res.header = ["Point", "cluster_index", "error", "forecast_series"] ++
        (if 0 < fl then [] else ["test_series"]) ∧
      rows.length = (r.x2 - r.x1) * (r.y2 - r.y1) ∧
      ∀ p : Point, r.x1 ≤ p.x → p.x < r.x2 → r.y1 ≤ p.y → p.y < r.y2 →
        ∃ l e model f lo hi out test, pt.labels.get p = .ok l ∧ ge.get p = .ok e ∧
          (sv.queryModels fl).get p = .ok model ∧
          (model = none → f = List.replicate (sv.queryLen fl) none) ∧
          (∀ m, model = some m → forecast m (sv.queryLen fl) = .ok f) ∧
          gmin.get p = .ok lo ∧ gmax.get p = .ok hi ∧ DescaledWith lo hi f out ∧
          (¬ 0 < fl → ∃ v b, cube.grid.get p = .ok v ∧ b.length = sv.testLen ∧ b <:+ v ∧
            DescaledWith lo hi b test) ∧
          rows[(p.x - r.x1) * (r.y2 - r.y1) + (p.y - r.y1)]? =
            some ([.coords ⟨p.x + mdRegion.x1, p.y + mdRegion.y1⟩, .index l, .errorValue e, .series out] ++
              if 0 < fl then [] else [.series test]) := by
  obtain ⟨pr, a1, a2, a3, a4⟩ := C48_predict_scaled sv cube ge gmin gmax h forecast r fl hf
  have hall : ∀ p : Point, ∃ model f e lo hi out test, p.x < cube.grid.xLen → p.y < cube.grid.yLen →
      r.x1 ≤ p.x → p.x < r.x2 → r.y1 ≤ p.y → p.y < r.y2 → (sv.queryModels fl).get p = .ok model ∧
      (model = none → f = List.replicate (sv.queryLen fl) none) ∧
      (∀ m, model = some m → forecast m (sv.queryLen fl) = .ok f) ∧
      gmin.get p = .ok lo ∧ gmax.get p = .ok hi ∧ DescaledWith lo hi f out ∧
      pr.forecast.seriesAt ⟨p.x - r.x1, p.y - r.y1⟩ = .ok out ∧ ge.get p = .ok e ∧
      pr.errors.valueAt ⟨p.x - r.x1, p.y - r.y1⟩ = .ok e ∧
      (¬ 0 < fl → ∃ t v b, pr.test = some t ∧ cube.grid.get p = .ok v ∧
        t.seriesAt ⟨p.x - r.x1, p.y - r.y1⟩ = .ok test ∧ b.length = sv.testLen ∧ b <:+ v ∧
        DescaledWith lo hi b test) := by
    intro p
    by_cases hp : p.x < cube.grid.xLen ∧ p.y < cube.grid.yLen ∧ r.x1 ≤ p.x ∧ p.x < r.x2 ∧ r.y1 ≤ p.y ∧
      p.y < r.y2
    · obtain ⟨model, f, lo, hi, out, k1, k2, k3, k4, k5, k6, k7, k8, k9⟩ := a4 p hp.1 hp.2.1 hp.2.2.1
        hp.2.2.2.1 hp.2.2.2.2.1 hp.2.2.2.2.2
      obtain ⟨e, he⟩ := ge.exists_get h.errorsWF.1 (p := p) (by rw [h.errorsWF.2.1]; exact hp.1)
        (by rw [h.errorsWF.2.2]; exact hp.2.1)
      by_cases h0 : 0 < fl
      · exact ⟨model, f, e, lo, hi, out, [], fun _ _ _ _ _ _ => ⟨k1, k2, k3, k4, k5, k6, k7, he,
          by rw [k8, he], fun hn => absurd h0 hn⟩⟩
      · obtain ⟨t, v, b, d, t1, t2, t3, t4, t5, t6⟩ := k9 h0
        exact ⟨model, f, e, lo, hi, out, d, fun _ _ _ _ _ _ => ⟨k1, k2, k3, k4, k5, k6, k7, he,
          by rw [k8, he], fun _ => ⟨t, v, b, t1, t2, t3, t4, t5, t6⟩⟩⟩
    · exact ⟨none, [], none, none, none, [], [],
        fun h1 h2 h3 h4 h5 h6 => absurd ⟨h1, h2, h3, h4, h5, h6⟩ hp⟩
  choose model f e lo hi out test hp using hall
  obtain ⟨res, rows, b1, b2, b3, b4, b5⟩ := queryResult_rows a1 hx hy a2 a3 mdRegion hw hpx hpy ms cl out e
    test (fun p h1 h2 h3 h4 h5 h6 => by
      obtain ⟨_, _, _, _, _, _, k4, _, k6, k7⟩ := hp p h1 h2 h3 h4 h5 h6
      refine ⟨k4, k6, fun h0 => ?_⟩
      obtain ⟨t, v, b, t1, _, t3, _⟩ := k7 h0
      exact ⟨t, t1, t3⟩)
  refine ⟨res, rows, b1, b2, b3, b4, fun p h1 h2 h3 h4 => ?_⟩
  obtain ⟨l, l1, l2⟩ := b5 p h1 h2 h3 h4
  obtain ⟨k1, k2, k3, k4, k5, k6, _, k8, _, k10⟩ := hp p (by omega) (by omega) h1 h2 h3 h4
  refine ⟨l, e p, model p, f p, lo p, hi p, out p, test p, l1, k8, k1, k2, k3, k4, k5, k6, fun h0 => ?_, l2⟩
  obtain ⟨t, v, b, _, t2, _, t4, t5, t6⟩ := k10 h0
  exact ⟨v, b, t2, t4, t5, t6⟩

/-- Two queries for the second row of a scaled 2 by 2 region: out of sample, and in sample. -/
example :
    let sv : Solver ℚ ℚ := ⟨⟨2, 2, [some (1/2), some 1, none, some (1/2)]⟩,
      ⟨2, 2, [none, none, some 1, some (1/2)]⟩, .plain ⟨2, 2, [some 1, some 2, some 3, some 4]⟩, 1, true,
      .scaled (.plain ⟨2, ⟨2, 2, [[some 0, some 1], [some 0, some 1], [some 1, some 0], [some 0, some 1]]⟩⟩)
        (.plain ⟨2, 2, [some 10, some 20, some 30, some 40]⟩)
        (.plain ⟨2, 2, [some 12, some 24, some 36, some 48]⟩)⟩
    let ask := fun fl => (sv.queryResult (fun m n => .ok (List.replicate n (some m))) ⟨5, 7, 6, 8⟩
      ⟨⟨2, 2, [0, 0, 1, 0]⟩, 2, 0⟩ (some [⟨0, 0⟩, ⟨1, 0⟩]) (.kmedoids { k := 2 }) ⟨1, 2, 0, 2⟩ fl)
    (ask 2).bind Result.rows = .ok [[.coords ⟨6, 6⟩, .index 1, .errorValue (some 3), .series [some 36, some 36]],
      [.coords ⟨6, 7⟩, .index 0, .errorValue (some 4), .series [some 44, some 44]]] ∧
    (ask 0).bind Result.rows = .ok [[.coords ⟨6, 6⟩, .index 1, .errorValue (some 3), .series [none],
      .series [some 30]], [.coords ⟨6, 7⟩, .index 0, .errorValue (some 4), .series [some 44],
      .series [some 48]]] := by
  refine ⟨?_, ?_⟩ <;> decide +kernel

/-- **C89**: the file of a query of a solver with a classifier has a row for every point of the prediction
region: its absolute coordinates, the label that the classifier gives to its last `tp` samples, the error, the
forecast of the model that the label stands for and the last `test_len` samples of the point. -/
theorem C89_rows {M P : Type} {env : ClassifierEnv K M P} {files : SolverStore K M P}
    {classify : List (Option K) → Except PyErr Str} {spt target : Stack K} {st : ClassifierState K M P}
    (hst : st.Ready env files classify spt target) {f : ErrorFun K} (hfit : env.Fits spt f)
    (hname : '/' ∉ env.md.name) {b : Bool} (htarget : CreatedRegion b target) {r : Region}
    (hr : r.Inside spt) (hr' : r.Inside target) {tp : Nat} (htp : tp ≤ target.data.tLen)
    (hlabels : ∀ p, r.Has p → ∀ v past recent, target.seriesAt p = .ok v → v = past ++ recent →
      recent.length = tp → ∃ label model, classify recent = .ok label ∧ LabelModel env files label model ∧
        ∀ m, model = some m → ∃ w, env.forecast m env.testLen = .ok w ∧ w.length = env.testLen)
    (oos : Option RegionMeta) (mdRegion : Region) (suite : Str) :
    ∃ pr rows, (env.predict r tp oos st).1 = .ok pr ∧
      (pr.result mdRegion env.testLen spt suite r).rows = .ok rows ∧
      (pr.result mdRegion env.testLen spt suite r).header =
        ["Point", "label", "error", "forecast_series", "test_series"] ∧
      rows.length = (r.x2 - r.x1) * (r.y2 - r.y1) ∧
      ∀ p, r.Has p → ∃ label model forecast test e,
        AnswerAt env files classify spt target f r tp pr p label model forecast test ∧
        pr.errors.valueAt ⟨p.x - r.x1, p.y - r.y1⟩ = .ok e ∧
        rows[(p.x - r.x1) * (r.y2 - r.y1) + (p.y - r.y1)]? =
          some [.coords ⟨p.x + mdRegion.x1, p.y + mdRegion.y1⟩, .text label, .errorValue e,
            .series forecast, .series test] := by
  obtain ⟨pr, st', h1, -, hx, hy, hp⟩ := C80_predict hst hfit hname htarget hr hr' htp hlabels oos
  have hall : ∀ p : Point, ∃ label model forecast test e, r.Has p →
      AnswerAt env files classify spt target f r tp pr p label model forecast test ∧
      pr.errors.valueAt ⟨p.x - r.x1, p.y - r.y1⟩ = .ok e := by
    intro p
    by_cases h : r.Has p
    · obtain ⟨label, model, forecast, test, ha⟩ := hp p h
      obtain ⟨e, he⟩ := ha.shown_error
      exact ⟨label, model, forecast, test, e, fun _ => ⟨ha, he⟩⟩
    · exact ⟨[], none, [], [], none, fun h' => absurd h' h⟩
  choose label model forecast test e hans using hall
  obtain ⟨rows, k1, k2, k3⟩ := rows_of_tuples (pr.result mdRegion env.testLen spt suite r)
    (a := r.x2 - r.x1) (b := r.y2 - r.y1) hx hy
    (fun p => [.coords ⟨p.x + r.x1 + mdRegion.x1, p.y + r.y1 + mdRegion.y1⟩,
      .text (label ⟨p.x + r.x1, p.y + r.y1⟩), .errorValue (e ⟨p.x + r.x1, p.y + r.y1⟩),
      .series (forecast ⟨p.x + r.x1, p.y + r.y1⟩), .series (test ⟨p.x + r.x1, p.y + r.y1⟩)]) (by
      intro p q1 q2
      obtain ⟨ha, he⟩ := hans ⟨p.x + r.x1, p.y + r.y1⟩ (by
        simp only [Region.Has]; omega)
      have hpp : (⟨p.x + r.x1 - r.x1, p.y + r.y1 - r.y1⟩ : Point) = p := by
        cases p; simp
      have b1 := ha.shown_label
      have b2 := ha.shown_forecast
      have b3 := ha.shown_test
      simp only [hpp] at b1 b2 b3 he
      simp only [ClassifierPrediction.result, Result.build, Bool.false_eq_true, if_false, Result.tuple,
        Result.baseTuple, Result.base, he, b2, b3, b1]
      rfl)
  refine ⟨pr, rows, by rw [h1], k1, rfl, k2, ?_⟩
  intro p hp
  obtain ⟨p1, p2, p3, p4⟩ := hp
  have := k3 ⟨p.x - r.x1, p.y - r.y1⟩ (by simp only; omega) (by simp only; omega)
  simp only [Nat.sub_add_cancel p1, Nat.sub_add_cancel p3] at this
  obtain ⟨ha, he⟩ := hans p ⟨p1, p2, p3, p4⟩
  exact ⟨label p, model p, forecast p, test p, e p, ha, he, this⟩

/-- A query of the solver with a classifier of the examples for C80. -/
example : ((exampleEnv.predict ⟨0, 1, 0, 2⟩ 2 (some exampleOther) (ClassifierState.new exampleFiles)).1.bind
      fun pr => (pr.result ⟨40, 41, 50, 52⟩ 1 (.plain ⟨3, ⟨1, 2, [[some 1, some 2, some 3],
        [some 5, some 5, some 6]]⟩⟩) [] ⟨0, 1, 0, 2⟩).rows) =
    .ok [[.coords ⟨40, 50⟩, .text (labelStr 2 0 1), .errorValue (some (289 : ℚ)), .series [some 20],
        .series [some 3]],
      [.coords ⟨40, 51⟩, .text (labelStr 2 0 0), .errorValue (some (16 : ℚ)), .series [some 10],
        .series [some 6]]] := by
  decide +kernel

end Spta
