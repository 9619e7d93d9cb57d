import Verif.Spec.Result
import Verif.Lemmas.Train
import Verif.Lemmas.ErrorVal
import Verif.Props.Merge

/-!
# C49, C61: results of prediction queries
-/

set_option linter.unusedSectionVars false

namespace Spta

variable {K : Type} [Field K] [LinearOrder K]

/-! ### C49 -/

/-- **C49** (coordinates): going from coordinates of the result to coordinates of the domain and back is
the identity, and a point of the domain that lies in the prediction region comes from exactly one point
of the result. -/
theorem C49_round_trip (r : Result K) :
    (∀ p : Point, r.toRelative (r.toDomain p) = ⟨p.x, p.y⟩) ∧
    (∀ q : Point, r.base.prediction.x1 ≤ q.x → q.x < r.base.prediction.x2 →
      r.base.prediction.y1 ≤ q.y → q.y < r.base.prediction.y2 →
      ∃! p : Point, p.x < r.base.prediction.x2 - r.base.prediction.x1 ∧
        p.y < r.base.prediction.y2 - r.base.prediction.y1 ∧ r.toDomain p = q ∧
        r.toRelative q = ⟨p.x, p.y⟩) := by
  constructor
  · rintro ⟨x, y⟩
    simp only [Result.toRelative, Result.toDomain, IPoint.mk.injEq]
    omega
  · rintro ⟨x, y⟩ h1 h2 h3 h4
    refine ⟨⟨x - r.base.prediction.x1, y - r.base.prediction.y1⟩, ?_, ?_⟩
    · simp only [Result.toRelative, Result.toDomain, IPoint.mk.injEq, Point.mk.injEq] at *
      omega
    · rintro ⟨a, b⟩ ⟨_, _, h5, _⟩
      simp only [Result.toDomain, Point.mk.injEq] at *
      omega

/-- **C49** (absolute coordinates): they are the domain coordinates plus the offset of the region. -/
theorem C49_absolute (r : Result K) (p : Point) :
    r.absolute p = ⟨p.x + r.base.mdRegion.x1, p.y + r.base.mdRegion.y1⟩ ∧
    r.absolute (r.toDomain p) =
      ⟨p.x + r.base.prediction.x1 + r.base.mdRegion.x1, p.y + r.base.prediction.y1 + r.base.mdRegion.y1⟩ :=
  ⟨rfl, rfl⟩

theorem insertSecond_length {A : Type} (v : A) (l : List A) :
    (Result.insertSecond v l).length = l.length + 1 := by
  cases l <;> rfl

/-- **C49** (columns): whenever a row is produced, for any kind of result, it has as many columns as the
header. -/
theorem C49_row_length (r : Result K) (p : Point) (t : List (Cell K)) (h : r.tuple p = .ok t) :
    t.length = r.header.length := by
  have hb : ∀ (r : Result K) (t : List (Cell K)), r.baseTuple p = .ok t → t.length = 3 := by
    intro r t h
    simp only [Result.baseTuple] at h
    cases h1 : r.base.errors.valueAt p with
    | error e => simp [h1] at h
    | ok v =>
      cases h2 : r.base.forecast.seriesAt p with
      | error e => simp [h1, h2] at h
      | ok s =>
        simp only [h1, h2, Except.ok.injEq] at h
        rw [← h]; rfl
  induction r generalizing t with
  | inSample b test =>
    simp only [Result.tuple] at h
    cases h1 : (Result.inSample b test).baseTuple p with
    | error e => simp [h1] at h
    | ok t' =>
      cases h2 : test.seriesAt p with
      | error e => simp [h1, h2] at h
      | ok s =>
        simp only [h1, h2, Except.ok.injEq] at h
        have := hb _ _ h1
        rw [← h]
        simp [Result.header, this]
  | outOfSample b =>
    simp only [Result.tuple] at h
    simpa [Result.header] using hb _ _ h
  | withPartition d pt ms cl ih =>
    simp only [Result.tuple] at h
    cases h1 : d.tuple p with
    | error e => simp [h1] at h
    | ok t' =>
      cases h2 : Result.clusterIndexOf pt ((Result.withPartition d pt ms cl).toDomain p) with
      | error e => simp [h1, h2] at h
      | ok i =>
        simp only [h1, h2, Except.ok.injEq] at h
        rw [← h, insertSecond_length, Result.header, insertSecond_length, ih _ h1]
  | fromClassifier d suite labels ih =>
    simp only [Result.tuple] at h
    cases h1 : d.tuple p with
    | error e => simp [h1] at h
    | ok t' =>
      cases h2 : Result.dictGet p labels with
      | error e => simp [h1, h2] at h
      | ok l =>
        simp only [h1, h2, Except.ok.injEq] at h
        rw [← h, insertSecond_length, Result.header, insertSecond_length, ih _ h1]

theorem forall₂_insertSecond {A B : Type} {R : A → B → Prop} {a : A} {b : B} (h : R a b) :
    ∀ {l : List A} {m : List B}, List.Forall₂ R l m →
      List.Forall₂ R (Result.insertSecond a l) (Result.insertSecond b m)
  | [], [], _ => .cons h .nil
  | _ :: _, _ :: _, .cons h1 h2 => .cons h1 (.cons h h2)

theorem dictGet_ok {A B : Type} [DecidableEq A] (key : A) : ∀ (d : List (A × B)),
    (∃ b, (key, b) ∈ d) → ∃ b, Result.dictGet key d = .ok b ∧ (key, b) ∈ d
  | [], h => by simp at h
  | (a, b) :: rest, h => by
    by_cases hk : a = key
    · exact ⟨b, by rw [Result.dictGet, if_pos hk], by rw [← hk]; exact .head _⟩
    · obtain ⟨c, hc⟩ := h
      rcases List.mem_cons.1 hc with hc | hc
      · exact absurd (congrArg Prod.fst hc).symm hk
      · obtain ⟨v, h1, h2⟩ := dictGet_ok key rest ⟨c, hc⟩
        exact ⟨v, by rw [Result.dictGet, if_neg hk, h1], .tail _ h2⟩

/-- Changing only the decoration keeps the meaning of the columns. -/
theorem ColumnOK.mono {r r' : Result K} {p : Point} (hb : r'.base = r.base)
    (ht : r'.testRegion = r.testRegion) (hp : ∀ pt ∈ r.partitions, pt ∈ r'.partitions)
    (hl : ∀ ls ∈ r.labelings, ls ∈ r'.labelings) {n : String} {c : Cell K} (h : ColumnOK r p n c) :
    ColumnOK r' p n c := by
  cases h with
  | point => rw [← hb]; exact .point
  | error v h => exact .error v (by rw [hb]; exact h)
  | forecast s h => exact .forecast s (by rw [hb]; exact h)
  | test t s h1 h2 => exact .test t s (by rw [ht]; exact h1) h2
  | cluster pt i h1 h2 => exact .cluster pt i (hp _ h1) (by rw [hb]; exact h2)
  | label ls l h1 h2 => exact .label ls l (hl _ h1) h2

/-- **C49** (content): for a result whose parts fit together, of any kind and decorated in any way, every
point of the prediction region has a row, and each cell of the row is what the header says. -/
theorem C49_row (r : Result K) (fc : Cube (Option K)) (ge : Grid (ErrorVal K)) (h : r.Fits fc ge) (p : Point)
    (hx : p.x < r.base.prediction.x2 - r.base.prediction.x1)
    (hy : p.y < r.base.prediction.y2 - r.base.prediction.y1) :
    ∃ t, r.tuple p = .ok t ∧ List.Forall₂ (ColumnOK r p) r.header t := by
  have hb : ∀ r : Result K, r.Fits fc ge → p.x < r.base.prediction.x2 - r.base.prediction.x1 →
      p.y < r.base.prediction.y2 - r.base.prediction.y1 →
      ∃ t, r.baseTuple p = .ok t ∧
        List.Forall₂ (ColumnOK r p) ["Point", "error", "forecast_series"] t := by
    intro r h hx hy
    obtain ⟨v, _, h1⟩ := ge.get_of_lt h.errorsWF (p := p) (by rw [h.errorsShape.1]; exact hx)
      (by rw [h.errorsShape.2]; exact hy)
    obtain ⟨s, _, h2⟩ := fc.grid.get_of_lt h.forecastWF.1 (p := p) (by rw [h.forecastShape.1]; exact hx)
      (by rw [h.forecastShape.2]; exact hy)
    have h1' : r.base.errors.valueAt p = .ok v := by rw [h.errorsIs]; exact h1
    have h2' : r.base.forecast.seriesAt p = .ok s := by rw [h.forecastIs]; exact h2
    exact ⟨[.coords (r.absolute (r.toDomain p)), .errorValue v, .series s],
      by simp only [Result.baseTuple, h1', h2'], .cons .point (.cons (.error v h1')
      (.cons (.forecast s h2') .nil))⟩
  induction r with
  | inSample b test =>
    obtain ⟨t, h1, h2⟩ := hb _ h hx hy
    obtain ⟨c, rfl, hc, hcx, hcy⟩ := h.test test rfl
    obtain ⟨s, _, h3⟩ := c.grid.get_of_lt hc.1 (p := p) (by rw [hcx]; exact hx) (by rw [hcy]; exact hy)
    have h3' : (Stack.plain c).seriesAt p = .ok s := h3
    refine ⟨t ++ [.series s], by simp only [Result.tuple, h1, h3'], ?_⟩
    exact List.rel_append h2 (.cons (.test _ s rfl h3') .nil)
  | outOfSample b => exact hb _ h hx hy
  | withPartition d pt ms cl ih =>
    have hd : d.Fits fc ge := ⟨h.forecastIs, h.errorsIs, h.forecastWF, h.errorsWF, h.forecastShape,
      h.errorsShape, h.test, fun q hq => h.parts q (.tail _ hq), h.labels⟩
    obtain ⟨t, h1, h2⟩ := ih hd hx hy
    obtain ⟨w, wx, wy⟩ := h.parts pt (.head _)
    change d.base.prediction.x2 ≤ _ at wx
    change d.base.prediction.y2 ≤ _ at wy
    change p.x < d.base.prediction.x2 - d.base.prediction.x1 at hx
    change p.y < d.base.prediction.y2 - d.base.prediction.y1 at hy
    obtain ⟨l, h3, h4⟩ := pt.labels.get_of_lt w
      (p := ⟨p.x + d.base.prediction.x1, p.y + d.base.prediction.y1⟩)
      (by simp only; omega) (by simp only; omega)
    have h5 : Result.clusterIndexOf pt ((Result.withPartition d pt ms cl).toDomain p) = .ok l := by
      have hm : pt.membershipOfPoints [(Result.withPartition d pt ms cl).toDomain p] = .ok [l] := by
        simp only [Partition.membershipOfPoints, Partition.membershipOfIndices]
        exact mapM_ok _ (fun _ => l) _ (by
          intro x hx
          simp only [List.map_cons, List.map_nil, List.mem_singleton, Result.toDomain, Result.base] at hx
          simp only at h3
          rw [hx, h3])
      rw [Result.clusterIndexOf, hm]
    refine ⟨Result.insertSecond (.index l) t, by simp only [Result.tuple, h1, h5], ?_⟩
    refine forall₂_insertSecond (.cluster pt l (.head _) h4) (h2.imp fun n c hc => ?_)
    exact ColumnOK.mono (r := d) (r' := .withPartition d pt ms cl) rfl rfl (fun q hq => List.mem_cons_of_mem pt hq) (fun _ hl => hl) hc
  | fromClassifier d suite labels ih =>
    have hd : d.Fits fc ge := ⟨h.forecastIs, h.errorsIs, h.forecastWF, h.errorsWF, h.forecastShape,
      h.errorsShape, h.test, h.parts, fun q hq => h.labels q (.tail _ hq)⟩
    obtain ⟨t, h1, h2⟩ := ih hd hx hy
    obtain ⟨l, h3, h4⟩ := dictGet_ok p labels (h.labels labels (.head _) p.x p.y hx hy)
    refine ⟨Result.insertSecond (.text l) t, by simp only [Result.tuple, h1, h3], ?_⟩
    refine forall₂_insertSecond (.label labels l (.head _) h4) (h2.imp fun n c hc => ?_)
    exact ColumnOK.mono (r := d) (r' := .fromClassifier d suite labels) rfl rfl (fun _ hq => hq) (fun q hq => List.mem_cons_of_mem labels hq) hc

/-- **C49** (file): the rows written for the result are one per point of the prediction region, in
row-major order. -/
theorem C49_rows (r : Result K) (fc : Cube (Option K)) (ge : Grid (ErrorVal K)) (h : r.Fits fc ge) :
    ∃ rows, r.rows = .ok rows ∧
      rows.length = (r.base.prediction.x2 - r.base.prediction.x1) *
        (r.base.prediction.y2 - r.base.prediction.y1) ∧
      ∀ x y : Nat, x < r.base.prediction.x2 - r.base.prediction.x1 →
        y < r.base.prediction.y2 - r.base.prediction.y1 →
        ∃ t, rows[x * (r.base.prediction.y2 - r.base.prediction.y1) + y]? = some t ∧
          List.Forall₂ (ColumnOK r ⟨x, y⟩) r.header t := by
  have hpts : r.points = rowMajor (r.base.prediction.x2 - r.base.prediction.x1)
      (r.base.prediction.y2 - r.base.prediction.y1) := by
    rw [Result.points, allPoints_eq, h.forecastIs, ← h.forecastShape.1, ← h.forecastShape.2]
    rfl
  have hrow : ∀ p ∈ r.points, ∃ t, r.tuple p = .ok t ∧ List.Forall₂ (ColumnOK r p) r.header t := by
    intro p hp
    rw [hpts, mem_rowMajor] at hp
    exact C49_row r fc ge h p hp.1 hp.2
  choose! f hf1 hf2 using hrow
  refine ⟨_, mapM_ok r.tuple f _ hf1, by rw [List.length_map, hpts, rowMajor_length], ?_⟩
  intro x y hx hy
  have hp : r.points[x * (r.base.prediction.y2 - r.base.prediction.y1) + y]? = some ⟨x, y⟩ := by
    rw [hpts, rowMajor_eq_map, List.getElem?_map, List.getElem?_range (idx_lt hx hy), Option.map_some,
      idx_div hy, idx_mod hy]
  refine ⟨f ⟨x, y⟩, by rw [List.getElem?_map, hp]; rfl, hf2 _ ?_⟩
  exact List.mem_of_getElem? hp

/-- An in-sample result with a partition, for the prediction region x 1..2, y 0..2 of a 2 by 2 domain at
offset (40, 50): its rows. -/
example :
    let b : ResultBase ℚ := ⟨⟨40, 42, 50, 52⟩, 1, .plain ⟨1, ⟨1, 2, [[some 3], [some 4]]⟩⟩,
      .plain ⟨1, 2, [some 1, some 2]⟩, ⟨1, 2, 0, 2⟩,
      .plain ⟨2, ⟨2, 2, [[some 1, some 2], [some 3, some 4], [some 5, some 6], [some 7, some 8]]⟩⟩⟩
    let r : Result ℚ := .withPartition (.inSample b (.plain ⟨1, ⟨1, 2, [[some 6], [some 8]]⟩⟩))
      ⟨⟨2, 2, [0, 1, 1, 0]⟩, 2, 0⟩ (some [⟨0, 0⟩, ⟨0, 1⟩]) (.kmedoids { k := 2 })
    r.rows = .ok [[.coords ⟨41, 50⟩, .index 1, .errorValue (some 1), .series [some 3], .series [some 6]],
      [.coords ⟨41, 51⟩, .index 0, .errorValue (some 2), .series [some 4], .series [some 8]]] ∧
    r.header = ["Point", "cluster_index", "error", "forecast_series", "test_series"] := by
  refine ⟨?_, ?_⟩ <;> decide +kernel

/-! ### C61 -/

/-- **C61** (columns): a summary row, of any kind of result, has as many columns as its header. -/
theorem C61_summary_length (measure : List (Option K) → List (Option K) → Option K)
    (combine : List (Option K) → Option K) (root : Option K → Option K) (r : Result K)
    (t : List (Cell K)) (h : r.summaryTuple measure combine root = .ok t) :
    t.length = r.summaryHeader.length := by
  have hb : ∀ (r : Result K) (t : List (Cell K)), r.baseSummary = .ok t → t.length = 2 := by
    intro r t h
    simp only [Result.baseSummary] at h
    cases h1 : r.summaryMse with
    | error e => simp [h1] at h
    | ok v => simp only [h1, Except.ok.injEq] at h; rw [← h]; rfl
  induction r generalizing t with
  | inSample b test => simpa [Result.summaryHeader] using hb _ _ h
  | outOfSample b => simpa [Result.summaryHeader] using hb _ _ h
  | withPartition d pt ms cl ih =>
    simp only [Result.summaryTuple] at h
    cases h1 : pt.clustersIntersecting d.base.prediction with
    | error e => simp [h1] at h
    | ok u =>
      cases h2 : Result.summaryDistances measure combine root (Result.withPartition d pt ms cl) pt ms with
      | error e => simp [h1, h2] at h
      | ok dist =>
        cases h3 : d.summaryTuple measure combine root with
        | error e => simp [h1, h2, h3] at h
        | ok rest =>
          simp only [h1, h2, h3, Except.ok.injEq] at h
          rw [← h]
          simp [Result.summaryHeader, ih _ h3]
  | fromClassifier d suite labels ih =>
    simp only [Result.summaryTuple] at h
    cases h3 : d.summaryTuple measure combine root with
    | error e => simp [h3] at h
    | ok rest =>
      simp only [h3, Except.ok.injEq] at h
      rw [← h]
      simp [Result.summaryHeader, ih _ h3]

theorem meanSquared_eq [IsStrictOrderedRing K] (l : List (Option K)) : meanSquared l = meanOfSquares l := by
  have hf : ∀ l : List (Option K), (squared l).filter (·.isSome) =
      ((l.filterMap id).map fun x => x * x).map some := by
    intro l
    induction l with
    | nil => rfl
    | cons a l ih =>
      cases a with
      | none => simpa [squared, liftOp] using ih
      | some x => simpa [squared, liftOp] using ih
  rw [meanSquared, nanMean, hf, meanOfSquares]
  split
  · rename_i h
    rw [h]
    simp [floatMean, floatSum, floatDiv]
  · rename_i h
    rw [floatMean_some (by simpa using h), List.length_map]

theorem errorMeanSquared_eq [IsStrictOrderedRing K] (l : List (ErrorVal K)) :
    errorMeanSquared l = meanOfSquaredErrors l := by
  rw [errorMeanSquared, meanOfSquaredErrors]
  split
  · rename_i h
    have hm : (some ⊤ : ErrorVal K) ∈ (l.map errorSquare).filter (·.isSome) :=
      List.mem_filter.2 ⟨List.mem_map.2 ⟨_, h, rfl⟩, rfl⟩
    rw [errorMean, if_neg (fun h0 => by rw [h0] at hm; simp at hm), errorSum_top (by simp) hm]
    rfl
  · rename_i h
    have hf : ∀ l : List (ErrorVal K), some ⊤ ∉ l → (l.map errorSquare).filter (·.isSome) =
        (((l.map numberOf).filterMap id).map fun x => x * x).map
          fun x => (some (WithTop.some x) : ErrorVal K) := by
      intro l
      induction l with
      | nil => intro _; rfl
      | cons a l ih =>
        intro h
        have ih' := ih (fun h' => h (List.mem_cons_of_mem _ h'))
        rcases a with _ | _ | x
        · exact ih'
        · exact absurd (List.mem_cons_self ..) h
        · exact congrArg (some (WithTop.some (x * x)) :: ·) ih'
    rw [hf l h, meanOfSquares]
    split
    · rename_i h0
      rw [h0]
      rfl
    · rename_i h0
      rw [errorMean, if_neg (by simpa using h0), errorSum_coe, List.length_map, List.length_map]
      rfl

/-- What the summary of the decorated result may show, the summary of the decorating one may show. -/
theorem SummaryOK.mono {r r' : Result K} (hb : r'.base = r.base) (hc : ∀ c ∈ r.clusterings, c ∈ r'.clusterings)
    (hp : ∀ pt ∈ r.partitions, pt ∈ r'.partitions) (hs : ∀ s ∈ r.suites, s ∈ r'.suites) {name : String} {c : Cell K}
    (h : SummaryOK r name c) : SummaryOK r' name c := by
  cases h with
  | kmedoids m h => exact .kmedoids m (hc _ h)
  | regular k h => exact .regular k (hc _ h)
  | k cl h k hk => exact .k cl (hc _ h) k hk
  | seed m h => exact .seed m (hc _ h)
  | mode m h => exact .mode m (hc _ h)
  | clusters pt hpt ls h => exact .clusters pt (hp _ hpt) ls (by rw [hb]; exact h)
  | distance v => exact .distance v
  | testLen => rw [← hb]; exact .testLen
  | mse errs h => exact .mse errs (by unfold Result.points at h ⊢; rw [hb]; exact h)
  | suite s h => exact .suite s (hs _ h)

/-- **C61** (names): in a summary row, of any kind of result, what stands under each name of the header is what the
name says. -/
theorem C61_summary_columns [IsStrictOrderedRing K] (measure : List (Option K) → List (Option K) → Option K)
    (combine : List (Option K) → Option K) (root : Option K → Option K) (r : Result K)
    (t : List (Cell K)) (h : r.summaryTuple measure combine root = .ok t) :
    List.Forall₂ (SummaryOK r) r.summaryHeader t := by
  have hb : ∀ (r : Result K) (t : List (Cell K)), r.baseSummary = .ok t →
      List.Forall₂ (SummaryOK r) ["tp", "mse"] t := by
    intro r t h
    simp only [Result.baseSummary] at h
    cases h1 : r.summaryMse with
    | error e => simp [h1] at h
    | ok v =>
      simp only [h1, Except.ok.injEq] at h
      rw [← h]
      unfold Result.summaryMse at h1
      cases h2 : r.points.mapM r.base.errors.valueAt with
      | error e => simp [h2] at h1
      | ok errs =>
        simp only [h2, Except.ok.injEq] at h1
        rw [← h1, errorMeanSquared_eq]
        exact .cons .testLen (.cons (.mse errs (mapM_eq_ok.1 h2)) .nil)
  induction r generalizing t with
  | inSample b test => exact hb _ _ h
  | outOfSample b => exact hb _ _ h
  | withPartition d pt ms cl ih =>
    simp only [Result.summaryTuple] at h
    cases h1 : pt.clustersIntersecting d.base.prediction with
    | error e => simp [h1] at h
    | ok u =>
      cases h2 : Result.summaryDistances measure combine root (Result.withPartition d pt ms cl) pt ms with
      | error e => simp [h1, h2] at h
      | ok dist =>
        cases h3 : d.summaryTuple measure combine root with
        | error e => simp [h1, h2, h3] at h
        | ok rest =>
          simp only [h1, h2, h3, Except.ok.injEq] at h
          rw [← h]
          have hrest : List.Forall₂ (SummaryOK (.withPartition d pt ms cl)) d.summaryHeader rest :=
            (ih _ h3).imp fun _ _ hx => SummaryOK.mono (r := d) (r' := .withPartition d pt ms cl) rfl
              (fun c hc => List.mem_cons_of_mem _ hc) (fun c hc => List.mem_cons_of_mem _ hc) (fun s hs => hs) hx
          have hpt : pt ∈ (Result.withPartition d pt ms cl).partitions := List.mem_cons_self ..
          have hd : List.Forall₂ (SummaryOK (.withPartition d pt ms cl))
              (["clusters"] ++ ["dtw_r_m"] ++ d.summaryHeader) ([.index u.length] ++ [.number dist] ++ rest) :=
            .cons (.clusters pt hpt u h1) (.cons (.distance dist) hrest)
          cases cl with
          | kmedoids m =>
            have hm : ClusterMeta.kmedoids m ∈ (Result.withPartition d pt ms (.kmedoids m)).clusterings :=
              List.mem_cons_self ..
            exact .cons (.kmedoids m hm) (.cons (.k _ hm _ (.inr ⟨m, rfl, rfl⟩)) (.cons (.seed m hm)
              (.cons (.mode m hm) hd)))
          | regular k =>
            have hm : ClusterMeta.regular k ∈ (Result.withPartition d pt ms (.regular k)).clusterings :=
              List.mem_cons_self ..
            exact .cons (.regular k hm) (.cons (.k _ hm _ (.inl rfl)) hd)
  | fromClassifier d suite labels ih =>
    simp only [Result.summaryTuple] at h
    cases h3 : d.summaryTuple measure combine root with
    | error e => simp [h3] at h
    | ok rest =>
      simp only [h3, Except.ok.injEq] at h
      rw [← h]
      exact .cons (.suite suite (List.mem_cons_self ..)) ((ih _ h3).imp fun _ _ hx =>
        SummaryOK.mono (r := d) (r' := .fromClassifier d suite labels) rfl (fun c hc => hc) (fun c hc => hc)
          (fun s hs => List.mem_cons_of_mem _ hs) hx)

/-- The test part of a domain is a domain whose series are the last `testLen` samples. -/
theorem splitLast_domain {s : Stack K} {cube : Cube (Option K)} (hs : IsDomain s cube) (hc : cube.WF)
    (testLen : Nat) (h : testLen ≤ cube.tLen) :
    ∃ c' : Cube (Option K), IsDomain (splitLast s testLen).2 c' ∧ c'.WF ∧
      c'.grid.xLen = cube.grid.xLen ∧ c'.grid.yLen = cube.grid.yLen ∧
      ∀ p, c'.grid.get p = (cube.grid.get p).map fun v => v.drop (cube.tLen - testLen) := by
  have hd : s.data = cube := by
    rcases hs with rfl | ⟨gmin, gmax, rfl⟩ <;> rfl
  have e2 : sliceInterval cube.tLen ((cube.tLen : Int) - testLen) cube.tLen =
      ⟨cube.tLen - testLen, cube.tLen⟩ := by
    simp only [sliceInterval, pyBound, TimeInterval.mk.injEq]
    constructor <;> split <;> omega
  have e3 : (splitLast s testLen).2 = s.new (cube.intervalSlice ⟨cube.tLen - testLen, cube.tLen⟩) := by
    simp only [splitLast, hd, e2]
    rw [Stack.intervalSubset_eq, hd]
  refine ⟨cube.intervalSlice ⟨cube.tLen - testLen, cube.tLen⟩, ?_, Cube.intervalSlice_wf hc _, rfl, rfl, ?_⟩
  · rw [e3]
    rcases hs with rfl | ⟨gmin, gmax, rfl⟩
    · exact .inl rfl
    · exact .inr ⟨gmin, gmax, rfl⟩
  · intro p
    have := Grid.get_map cube.grid (fun s => sliceSeries s ⟨cube.tLen - testLen, cube.tLen⟩) p
    change (cube.intervalSlice _).grid.get p = _ at this
    rw [this]
    cases hg : cube.grid.get p with
    | error e => rfl
    | ok v =>
      have hl := Cube.get_length hc hg
      simp only [Except.map, sliceSeries]
      rw [List.take_of_length_le (by omega)]

/-- The series of a sub-rectangle of a domain, in row-major order. -/
theorem items_regionSubset {s : Stack K} {cube : Cube (Option K)} (hs : IsDomain s cube) (hc : cube.WF)
    (r : Region) (hx : r.x2 ≤ cube.grid.xLen) (hy : r.y2 ≤ cube.grid.yLen) :
    ∃ sub items, s.regionSubset r = .ok sub ∧ sub.items = .ok items ∧
      items.map (·.1) = rowMajor (r.x2 - r.x1) (r.y2 - r.y1) ∧
      ∀ it ∈ items, cube.grid.get ⟨r.x1 + it.1.x, r.y1 + it.1.y⟩ = .ok it.2 := by
  have hsx : (cube.grid.slice r).xLen = r.x2 - r.x1 := by simp only [Grid.slice]; omega
  have hsy : (cube.grid.slice r).yLen = r.y2 - r.y1 := by simp only [Grid.slice]; omega
  obtain ⟨items, h1, h2, h3⟩ := itemsAt_ok (cube.grid.slice r).get
    (rowMajor (cube.grid.slice r).xLen (cube.grid.slice r).yLen)
    (fun p hp => (cube.grid.slice r).exists_get (Grid.slice_wf hc.1 r) (mem_rowMajor.1 hp).1
      (mem_rowMajor.1 hp).2)
  have h4 : (Stack.plain (cube.regionSlice r)).items = .ok items := by
    simp only [Stack.items, Cube.regionSlice, allPoints_eq, h1]
  have h5 : ∀ it ∈ items, cube.grid.get ⟨r.x1 + it.1.x, r.y1 + it.1.y⟩ = .ok it.2 := by
    intro it hit
    have := h3 it hit
    have hm : it.1 ∈ rowMajor (r.x2 - r.x1) (r.y2 - r.y1) := by
      rw [← hsx, ← hsy, ← h2]; exact List.mem_map_of_mem hit
    rw [mem_rowMajor] at hm
    rw [Grid.get_slice _ hc.1 r (by omega) (by omega)] at this
    exact this
  rw [hsx, hsy] at h2
  rcases hs with rfl | ⟨gmin, gmax, rfl⟩
  · exact ⟨_, items, rfl, h4, h2, h5⟩
  · exact ⟨_, items, rfl, h4, h2, h5⟩

/-- **C61** (content): the summary of the answer of a solver with medoids. The number of clusters is the
number of different clusters of the points of the prediction region; the distance is taken over the medoids
of exactly these clusters, each against the test series of all points of the prediction region; the MSE is
that of the errors that are not NaN (infinite, if one of these is). -/
theorem C61_summary [IsStrictOrderedRing K] (measure : List (Option K) → List (Option K) → Option K)
    (combine : List (Option K) → Option K) (root : Option K → Option K)
    (d : Result K) (hd : d.partitions = [] ∧ d.labelings = []) (fc : Cube (Option K)) (ge : Grid (ErrorVal K))
    (hf : d.Fits fc ge) (pt : Partition) (hpt : pt.Valid) (medoids : List Point) (cl : ClusterMeta)
    (hlen : medoids.length = pt.k) (cube : Cube (Option K)) (hs : IsDomain d.base.spt cube) (hc : cube.WF)
    (hpx : pt.labels.xLen = cube.grid.xLen) (hpy : pt.labels.yLen = cube.grid.yLen)
    (hm : ∀ m ∈ medoids, m.x < cube.grid.xLen ∧ m.y < cube.grid.yLen)
    (ht : d.base.testLen ≤ cube.tLen)
    (hx : d.base.prediction.x2 ≤ cube.grid.xLen) (hy : d.base.prediction.y2 ≤ cube.grid.yLen) :
    ∃ (clusters : List Nat) (near : List (List (Option K))) (dist : List (Option K)),
      (Result.withPartition d pt (some medoids) cl).summaryTuple measure combine root =
        .ok ((Result.clusteringDict cl).map (·.2) ++ [.index clusters.length,
          .number (root (meanOfSquares dist)), .index d.base.testLen, .errorValue (meanOfSquaredErrors ge.data)]) ∧
      clusters.Nodup ∧
      (∀ l, l ∈ clusters ↔ ∃ p : Point, d.base.prediction.x1 ≤ p.x ∧ p.x < d.base.prediction.x2 ∧
        d.base.prediction.y1 ≤ p.y ∧ p.y < d.base.prediction.y2 ∧ pt.labels.get p = .ok l) ∧
      near.length = (d.base.prediction.x2 - d.base.prediction.x1) *
        (d.base.prediction.y2 - d.base.prediction.y1) ∧
      (∀ x y, x < d.base.prediction.x2 - d.base.prediction.x1 →
        y < d.base.prediction.y2 - d.base.prediction.y1 → ∃ v,
        cube.grid.get ⟨d.base.prediction.x1 + x, d.base.prediction.y1 + y⟩ = .ok v ∧
        near[x * (d.base.prediction.y2 - d.base.prediction.y1) + y]? =
          some (v.drop (cube.tLen - d.base.testLen))) ∧
      List.Forall₂ (fun l c => ∃ m v, medoids[l]? = some m ∧ cube.grid.get m = .ok v ∧
        c = combine (near.map (measure (v.drop (cube.tLen - d.base.testLen))))) clusters dist := by
  obtain ⟨c', hc1, hc2, hc3, hc4, hc5⟩ := splitLast_domain hs hc d.base.testLen ht
  obtain ⟨ls, l1, l2, l3⟩ := C15_intersecting_inside pt hpt.wf d.base.prediction (by omega) (by omega)
  obtain ⟨sub, items, i1, i2, i3, i4⟩ := items_regionSubset hc1 hc2 d.base.prediction
    (by omega) (by omega)
  have hlk : ∀ l ∈ ls, ∃ m, medoids[l]? = some m ∧ m ∈ medoids := by
    intro l hl
    obtain ⟨p, _, _, _, _, hg⟩ := (l3 l).1 hl
    have : l < pt.k := hpt.lt _ (List.mem_of_getElem? ((Grid.get_eq_ok_iff _ _ _).1 hg).2.2)
    exact ⟨_, List.getElem?_eq_getElem (by omega), List.getElem_mem _⟩
  have : Nonempty Point := ⟨⟨0, 0⟩⟩
  choose! md hmd1 hmd2 using hlk
  have hms : pt.medoidsIntersecting (some medoids) d.base.prediction = .ok (ls.map md) := by
    simp only [Partition.medoidsIntersecting, l1]
    exact mapM_ok _ md ls (fun l hl => by rw [hmd1 l hl])
  have hser : ∀ l ∈ ls, ∃ v, cube.grid.get (md l) = .ok v := by
    intro l hl
    exact cube.grid.exists_get hc.1 (hm _ (hmd2 l hl)).1 (hm _ (hmd2 l hl)).2
  choose! sv hsv using hser
  have htest : ∀ p, (splitLast d.base.spt d.base.testLen).2.seriesAt p = c'.grid.get p := by
    intro p
    rcases hc1 with h | ⟨gmin, gmax, h⟩ <;> rw [h] <;> rfl
  have hdist : (ls.map md).mapM (Result.medoidDistance measure combine
      (splitLast d.base.spt d.base.testLen).2 (items.map (·.2))) =
      .ok (ls.map fun l => combine ((items.map (·.2)).map (measure ((sv l).drop (cube.tLen - d.base.testLen))))) := by
    rw [List.mapM_map]
    refine mapM_ok _ _ ls fun l hl => ?_
    simp only [Function.comp, Result.medoidDistance, htest, hc5, hsv l hl, Except.map]
  have hsd : Result.summaryDistances measure combine root (Result.withPartition d pt (some medoids) cl) pt
      (some medoids) = .ok (root (meanOfSquares (ls.map fun l => combine ((items.map (·.2)).map
        (measure ((sv l).drop (cube.tLen - d.base.testLen))))))) := by
    simp only [Result.summaryDistances, Result.base, hms, i1, i2, hdist, meanSquared_eq]
  have hmse : d.summaryMse = .ok (meanOfSquaredErrors ge.data) := by
    have he : d.points.mapM d.base.errors.valueAt = .ok ge.data := by
      rw [hf.errorsIs, Result.points, allPoints_eq, hf.forecastIs]
      change (rowMajor fc.grid.xLen fc.grid.yLen).mapM ge.get = _
      rw [hf.forecastShape.1, hf.forecastShape.2, ← hf.errorsShape.1, ← hf.errorsShape.2, mapM_eq_ok,
        List.forall₂_iff_get]
      refine ⟨by rw [rowMajor_length]; exact hf.errorsWF.symm, ?_⟩
      intro i h1 h2
      rw [Grid.get_eq_ok_iff]
      have h1' : i < ge.xLen * ge.yLen := by rw [rowMajor_length] at h1; exact h1
      have hpos : 0 < ge.yLen := Nat.pos_of_ne_zero (by rintro h0; rw [h0] at h1'; simp at h1')
      have : (rowMajor ge.xLen ge.yLen).get ⟨i, h1⟩ = ⟨i / ge.yLen, i % ge.yLen⟩ := by
        simp only [List.get_eq_getElem, rowMajor_eq_map, List.getElem_map, List.getElem_range]
      rw [this]
      refine ⟨(Nat.div_lt_iff_lt_mul hpos).2 h1', Nat.mod_lt _ hpos, ?_⟩
      simp only [Nat.div_add_mod', List.get_eq_getElem]
      exact List.getElem?_eq_getElem h2
    simp only [Result.summaryMse, he, errorMeanSquared_eq]
  have hrest : d.summaryTuple measure combine root =
      .ok [.index d.base.testLen, .errorValue (meanOfSquaredErrors ge.data)] := by
    cases d with
    | inSample b t => simp only [Result.summaryTuple, Result.baseSummary, hmse]
    | outOfSample b => simp only [Result.summaryTuple, Result.baseSummary, hmse]
    | withPartition d pt ms cl => simp [Result.partitions] at hd
    | fromClassifier d s l => simp [Result.labelings] at hd
  refine ⟨ls, items.map (·.2), ls.map fun l => combine ((items.map (·.2)).map
        (measure ((sv l).drop (cube.tLen - d.base.testLen)))), ?_, l2, l3, ?_, ?_, ?_⟩
  · simp only [Result.summaryTuple, l1, hsd, hrest, List.append_assoc, List.cons_append, List.nil_append]
  · have := congrArg List.length i3
    rw [List.length_map, rowMajor_length] at this
    rw [List.length_map, this]
  · intro x y hx' hy'
    have hi : (items.map (·.1))[x * (d.base.prediction.y2 - d.base.prediction.y1) + y]? = some ⟨x, y⟩ := by
      rw [i3, rowMajor_eq_map, List.getElem?_map, List.getElem?_range (idx_lt hx' hy'), Option.map_some,
        idx_div hy', idx_mod hy']
    rw [List.getElem?_map] at hi
    obtain ⟨it, hit, hit2⟩ := Option.map_eq_some_iff.1 hi
    have h6 := i4 it (List.mem_of_getElem? hit)
    rw [hc5, hit2] at h6
    obtain ⟨v, hv⟩ := cube.grid.exists_get hc.1
      (p := ⟨d.base.prediction.x1 + x, d.base.prediction.y1 + y⟩) (by simp only; omega) (by simp only; omega)
    refine ⟨v, hv, ?_⟩
    rw [hv] at h6
    simp only [Except.map, Except.ok.injEq] at h6
    rw [List.getElem?_map, hit, Option.map_some, h6]
  · rw [List.forall₂_map_right_iff, List.forall₂_same]
    exact fun l hl => ⟨md l, sv l, hmd1 l hl, hsv l hl, rfl⟩

/-- The summary of an in-sample answer (distance: difference of the first values, combined by sum). -/
example :
    let b : ResultBase ℚ := ⟨⟨40, 42, 50, 52⟩, 1, .plain ⟨1, ⟨1, 2, [[some 3], [some 4]]⟩⟩,
      .plain ⟨1, 2, [some 1, none]⟩, ⟨1, 2, 0, 2⟩,
      .plain ⟨2, ⟨2, 2, [[some 1, some 2], [some 3, some 4], [some 5, some 6], [some 7, some 8]]⟩⟩⟩
    let r : Result ℚ := .withPartition (.inSample b (.plain ⟨1, ⟨1, 2, [[some 6], [some 8]]⟩⟩))
      ⟨⟨2, 2, [0, 1, 1, 0]⟩, 2, 0⟩ (some [⟨0, 0⟩, ⟨0, 1⟩]) (.kmedoids { k := 2 })
    r.summaryTuple (fun a b => liftOp (fun x y => y - x) a.head?.join b.head?.join) floatSum id =
      .ok [.text sKmedoids, .index 2, .index 1, .text sLite, .index 2, .number (some 68), .index 1,
        .errorValue (some 1)] ∧
    r.summaryHeader = ["type", "k", "seed", "mode", "clusters", "dtw_r_m", "tp", "mse"] := by
  refine ⟨by decide +kernel, by decide +kernel⟩

end Spta
