import Verif.Spec.Centroid
import Verif.Props.DistanceFiles
import Verif.Props.Extrema

/-!
# C129, C130: centroids of regions and clusters
-/

namespace Spta

section

variable {W : Type}

theorem rowsFrom_some (md : Option (MatrixFile W × Region)) (yLen : Nat) (indices : List Nat) (m : Grid W)
    (ps : List Point) : rowsFrom md yLen indices true ps (some m) = (centroidRows m yLen indices ps, some m) := by
  induction ps with
  | nil => rfl
  | cons p rest ih =>
    simp only [rowsFrom, centroidRows, distancesToPoint, Bool.not_true, Bool.false_eq_true, if_false, id,
      distancesWithMatrix]
    cases distancesToPointWithMatrix m yLen p indices with
    | error e => rfl
    | ok ds =>
      simp only [ih]
      cases centroidRows m yLen indices rest <;> rfl

theorem rowsFrom_load {file : MatrixFile W} {r : Region} {m : Grid W} {d : Option (Grid W)} (hd : d = none ∨ d = some m)
    (hl : loadMatrix2d file r none = (.ok (some m), some m)) (yLen : Nat) (indices : List Nat) (ps : List Point) :
    rowsFrom (some (file, r)) yLen indices true ps d =
      (centroidRows m yLen indices ps, if ps = [] then d else some m) := by
  rcases hd with rfl | rfl
  · cases ps with
    | nil => rfl
    | cons p rest =>
      simp only [rowsFrom, centroidRows, distancesToPoint, Bool.not_true, Bool.false_eq_true, if_false, id,
        loadMd, hl, distancesWithMatrix, rowsFrom_some]
      cases distancesToPointWithMatrix m yLen p indices with
      | error e => simp
      | ok ds =>
        simp only [rowsFrom_some]
        cases centroidRows m yLen indices rest <;> simp
  · rw [rowsFrom_some]
    simp

theorem rowsFrom_unavailable {file : MatrixFile W} {r : Region} (p : Point) (ps : List Point) (yLen : Nat)
    (indices : List Nat) (h : ∀ m, file = .matrix m → ¬ FitsRegion m r) :
    ∃ e, rowsFrom (some (file, r)) yLen indices true (p :: ps) none = (.error e, none) ∧
      (file = .unreadable → e = .assertionError) ∧ (file ≠ .unreadable → e = .valueError) := by
  rcases C37_load file r (none : Option (Grid W)) with ⟨g, e1, e2, -⟩ | ⟨e1, e2⟩ | ⟨e1, -, e2⟩
  · exact absurd e2 (h g e1)
  · refine ⟨.assertionError, ?_, fun _ => rfl, fun h => absurd e1 h⟩
    simp only [rowsFrom, distancesToPoint, Bool.not_true, Bool.false_eq_true, if_false, id, loadMd, e2,
      distancesWithMatrix]
  · refine ⟨.valueError, ?_, fun h => absurd h e1, fun _ => rfl⟩
    simp only [rowsFrom, distancesToPoint, Bool.not_true, Bool.false_eq_true, if_false, id, loadMd, e2, if_true]

end

/-! ### C129 -/

section

variable {S V : Type} [AddCommMonoid V] [LinearOrder V] [OrderTop V]

theorem region_range (xLen yLen : Nat) : List.range (xLen * yLen) =
    (rowMajor xLen yLen).map fun q => q.x * yLen + q.y := by
  rw [rowMajor_eq_map, List.map_map]
  conv_lhs => rw [← List.map_id (List.range _)]
  apply List.map_congr_left
  intro n _
  simp [Nat.div_add_mod']

theorem findCentroidWith_eq {file : MatrixFile (Option V)} {r : Region} {g : Grid S} (hg : g.WF)
    {m : Grid (Option V)} {d : Option (Grid (Option V))} (hd : d = none ∨ d = some m)
    (hl : loadMatrix2d file r none = (.ok (some m), some m)) {dist : Point → Point → Option V}
    (hm : MatrixHolds m g.yLen dist (rowMajor g.xLen g.yLen)) :
    ∃ res d', findCentroidWith (some (file, r)) g true d = (.ok res, d') ∧ (d' = none ∨ d' = some m) ∧
      IsCentroid dist (rowMajor g.xLen g.yLen) res := by
  obtain ⟨items, h1, h2⟩ := (RegionObj.new g).loop_eq hg
  simp only [RegionObj.new, pointsFrom_zero] at h1 h2
  refine ⟨_, if rowMajor g.xLen g.yLen = [] then d else some m, ?_, ?_,
    centroidSearch_spec dist (rowMajor g.xLen g.yLen)⟩
  · simp only [findCentroidWith, RegionObj.new, h1, h2.1]
    rw [rowsFrom_load hd hl, region_range, centroidRows_eq m g.yLen dist _ _ hm]
  · split
    · exact hd
    · exact .inr rfl

theorem IsCentroid.unique {dist : Point → Point → Option V} {ps : List Point} {a b : Option (Point × List (Option V))}
    (ha : IsCentroid dist ps a) (hb : IsCentroid dist ps b) : a = b := by
  cases a with
  | none =>
    cases b with
    | none => rfl
    | some b =>
      obtain ⟨c, ds⟩ := b
      obtain ⟨e, s, h1, h2, -, pre, post, h3, -⟩ := hb
      have := ha c (by rw [h3]; simp) s (e ▸ h1)
      exact absurd (this ▸ h2) (lt_irrefl _)
  | some a =>
    obtain ⟨c, ds⟩ := a
    obtain ⟨e, s, h1, h2, h3, pre, post, h4, h5⟩ := ha
    cases b with
    | none => exact absurd ((hb c (by rw [h4]; simp) s (e ▸ h1)) ▸ h2) (lt_irrefl _)
    | some b =>
      obtain ⟨c', ds'⟩ := b
      obtain ⟨e', s', h1', h2', h3', pre', post', h4', h5'⟩ := hb
      have hs : s = s' := le_antisymm
        (h3 c' (by rw [h4']; simp) s' (e' ▸ h1')) (h3' c (by rw [h4]; simp) s (e ▸ h1))
      subst hs
      have key : c = c' := by
        rw [h4] at h4'
        rcases List.append_eq_append_iff.1 h4' with ⟨l, e1, e2⟩ | ⟨l, e1, e2⟩
        · cases l with
          | nil => simp at e2; exact e2.1
          | cons x l =>
            simp only [List.cons_append, List.cons.injEq] at e2
            exact absurd (e ▸ h1) (h5' c (by rw [e1, e2.1]; simp))
        · cases l with
          | nil => simp at e2; exact e2.1.symm
          | cons x l =>
            simp only [List.cons_append, List.cons.injEq] at e2
            exact absurd (e' ▸ h1') (h5 c' (by rw [e1, e2.1]; simp))
      subst key
      rw [e, e']

/-- A region has at most one centroid. -/
theorem CentroidOf.unique {measure : S → S → Option V} {g : Grid S} {a b : Option Point}
    (ha : CentroidOf measure g a) (hb : CentroidOf measure g b) : a = b := by
  obtain ⟨x, hx, rfl⟩ := ha
  obtain ⟨y, hy, rfl⟩ := hb
  rw [hx.unique hy]

attribute [local instance] nanAddZero

theorem holds_seriesDistance {measure : S → S → Option V} {g : Grid S} (hg : g.WF) {m : Grid (Option V)}
    (h : HoldsDistances measure g m) (hself : ∀ p s, g.get p = .ok s → measure s s = some 0) :
    MatrixHolds m g.yLen (seriesDistance measure g) (rowMajor g.xLen g.yLen) := by
  intro p hp q hq
  rw [mem_rowMajor] at hp hq
  obtain ⟨s, hs⟩ := g.exists_get hg hp.1 hp.2
  obtain ⟨t, ht⟩ := g.exists_get hg hq.1 hq.2
  have : seriesDistance measure g p q = measure s t := by simp only [seriesDistance, hs, ht]
  rw [this]
  by_cases e : p = q
  · subst e
    rw [hs] at ht
    cases ht
    rcases h.self p s hs with e | e
    · exact e
    · rw [e, hself p s hs]
      rfl
  · exact h.other p q s t hs ht e

variable {region : RegionMeta → Except PyErr (Grid S)}

/-- **C129** (partial: the claim is for every region, whether or not its distances were saved, and for every
distance object). With saved distances that fit, and an object that has no matrix or the one of this region,
the answer is the centroid, and the object may be used for this region again. -/
theorem C129_saved_partial {measure : S → S → Option V} {files : MatrixFiles (Option V)} {md : RegionMeta}
    {g : Grid S} (hreg : region md = .ok g) (hfit : RegionFits g md)
    (hself : ∀ p s, g.get p = .ok s → measure s s = some 0) {m : Grid (Option V)}
    (hfile : files (distancesPath md) = .matrix m) (hm : HoldsDistances measure g m)
    {d : Option (Grid (Option V))} (hd : d = none ∨ d = some m) :
    ∃ res d', forMetadata region files md d = (.ok res, d') ∧ (d' = none ∨ d' = some m) ∧ CentroidOf measure g res := by
  have hl : loadMatrix2d (files (distancesPath md)) md.region none = (.ok (some m), some m) := by
    rw [hfile]
    refine loadMatrix2d_fits ?_ none
    have h3 := hm.xLen
    have h4 := hm.yLen
    rw [hfit.2.1, hfit.2.2] at h3 h4
    exact ⟨h3, h4⟩
  obtain ⟨res, d', h1, h2, h3⟩ := findCentroidWith_eq hfit.1 hd hl (holds_seriesDistance hfit.1 hm hself)
  refine ⟨res.map Prod.fst, d', ?_, h2, res, h3, rfl⟩
  simp only [forMetadata, hreg, h1]

/-- **C129** (use after saving): after any runs of the distance program, in any order, among them one for the
region, the program gives the centroid of the region. -/
theorem C129_session {measure : S → S → Option V} {regions : List RegionMeta} (hc : GoodCatalogue regions)
    {md : RegionMeta} (hmd : md ∈ regions) {g : Grid S}
    (hreg : region md = .ok g) (hfit : RegionFits g md) (hsym : SymmetricOn measure g)
    (hself : ∀ p s, g.get p = .ok s → measure s s = some 0)
    {runs : List DistanceRun} (hin : ∀ run ∈ runs, run.md ∈ regions)
    {files files' : MatrixFiles (Option V)} (h : DistanceSession measure region runs files files')
    (hrun : ∃ run ∈ runs, run.md = md ∧ ¬ run.workers.getD 0 < 0) :
    ∃ res d', forMetadata region files' md none = (.ok res, d') ∧ CentroidOf measure g res := by
  obtain ⟨m, h1, h2⟩ := session_kept hc hmd hreg hfit.1 hsym hin h (.inl hrun)
  obtain ⟨res, d', h3, -, h4⟩ := C129_saved_partial hreg hfit hself h1 h2 (.inl rfl)
  exact ⟨res, d', h3, h4⟩

/-- **C129** (again): calls for the same region with the same object all give its centroid. -/
theorem C129_again {measure : S → S → Option V} {files : MatrixFiles (Option V)} {md : RegionMeta}
    {g : Grid S} (hreg : region md = .ok g) (hfit : RegionFits g md)
    (hself : ∀ p s, g.get p = .ok s → measure s s = some 0) {m : Grid (Option V)}
    (hfile : files (distancesPath md) = .matrix m) (hm : HoldsDistances measure g m) (n : Nat) :
    ∃ res, CentroidOf measure g res ∧ forMetadataAll region files (List.replicate n md) none =
      List.replicate n (.ok res) := by
  obtain ⟨res, d', h1, h2, h3⟩ := C129_saved_partial hreg hfit hself hfile hm (.inl rfl)
  refine ⟨res, h3, ?_⟩
  have key : ∀ n (d : Option (Grid (Option V))), d = none ∨ d = some m →
      forMetadataAll region files (List.replicate n md) d = List.replicate n (.ok res) := by
    intro n
    induction n with
    | zero => intros; rfl
    | succ n ih =>
      intro d hd
      obtain ⟨res', d'', e1, e2, e3⟩ := C129_saved_partial hreg hfit hself hfile hm hd
      rw [List.replicate_succ, List.replicate_succ, forMetadataAll, e1, ih d'' e2, e3.unique h3]
  exact key n none (.inl rfl)

omit [AddCommMonoid V] [LinearOrder V] [OrderTop V] in
theorem loop_cons {g : Grid S} (hg : g.WF) (hx : 0 < g.xLen) (hy : 0 < g.yLen) :
    ∃ items r p ps, (RegionObj.new g).loop = .ok (items, r) ∧ items.map Prod.fst = p :: ps := by
  obtain ⟨items, h1, h2⟩ := (RegionObj.new g).loop_eq hg
  simp only [RegionObj.new, pointsFrom_zero] at h1 h2
  have hne : items.map Prod.fst ≠ [] := by
    rw [h2.1]
    intro e
    have := congrArg List.length e
    rw [rowMajor_eq_map] at this
    simp at this
    omega
  obtain ⟨p, ps, e⟩ := List.exists_cons_of_ne_nil hne
  exact ⟨items, _, p, ps, h1, e⟩

/-- **C129** is refuted: the documentation says that a distance matrix that is not available is calculated
first. It never is, for any region with points: a missing file ends in an AssertionError, a file with something
else in a ValueError. -/
theorem C129_missing_refuted {files : MatrixFiles (Option V)} {md : RegionMeta} {g : Grid S}
    (hreg : region md = .ok g) (hg : g.WF) (hx : 0 < g.xLen) (hy : 0 < g.yLen)
    (h : ∀ m, files (distancesPath md) = .matrix m → ¬ FitsRegion m md.region) :
    ∃ e, forMetadata region files md none = (.error e, none) ∧
      (files (distancesPath md) = .unreadable → e = .assertionError) ∧
      (files (distancesPath md) ≠ .unreadable → e = .valueError) := by
  obtain ⟨items, r, p, ps, h1, h2⟩ := loop_cons hg hx hy
  obtain ⟨e, h3, h4⟩ := rowsFrom_unavailable p ps g.yLen (List.range (g.xLen * g.yLen)) h
  refine ⟨e, ?_, h4⟩
  simp only [forMetadata, hreg, findCentroidWith, h1, h2, h3]

/-- **C129** (stale): an object that has a matrix never reads another file, whatever the region. -/
theorem C129_stale {files files' : MatrixFiles (Option V)} {md : RegionMeta} (m : Grid (Option V)) :
    forMetadata region files md (some m) = forMetadata region files' md (some m) ∧
      (forMetadata region files md (some m)).2 = some m := by
  unfold forMetadata findCentroidWith
  cases region md with
  | error e => exact ⟨rfl, rfl⟩
  | ok g =>
    simp only
    cases (RegionObj.new g).loop with
    | error e => exact ⟨rfl, rfl⟩
    | ok x =>
      simp only [rowsFrom_some]
      cases centroidRows m g.yLen (List.range (g.xLen * g.yLen)) (x.1.map Prod.fst) <;> simp

end

/-- Two regions with three points. -/
def lineMeta (scaled : Bool) : RegionMeta := ⟨"line".toList, ⟨3, 4, 5, 8⟩, 2014, 2015, 1, scaled⟩

/-- The series are numbers; the centroids are the second and the third point. -/
def lineRegion (md : RegionMeta) : Except PyErr (Grid Nat) :=
  if md.scaled then .ok ⟨1, 3, [0, 7, 6]⟩ else .ok ⟨1, 3, [0, 1, 5]⟩

/-- The distances of numbers, as floats. -/
def gapFloat (a b : Nat) : Option (WithTop ℕ) := some (gap a b : Nat)

/-- The matrices of the two regions, saved. -/
def lineFiles : MatrixFiles (Option (WithTop ℕ)) :=
  MatrixFiles.save (MatrixFiles.save (fun _ => .unreadable) (distancesPath (lineMeta false))
    ⟨3, 3, [some 0, some 1, some 5, some 1, some 0, some 4, some 5, some 4, some 0]⟩)
    (distancesPath (lineMeta true)) ⟨3, 3, [some 0, some 7, some 6, some 7, some 0, some 1, some 6, some 1, some 0]⟩

theorem lineFiles_saved (scaled : Bool) : ∃ g m, lineRegion (lineMeta scaled) = .ok g ∧
    RegionFits g (lineMeta scaled) ∧ lineFiles (distancesPath (lineMeta scaled)) = .matrix m ∧
    m.WF ∧ m.xLen = g.xLen * g.yLen ∧ m.yLen = g.xLen * g.yLen ∧
    ∀ p ∈ rowMajor g.xLen g.yLen, ∀ q ∈ rowMajor g.xLen g.yLen,
      m.get ⟨p.x * g.yLen + p.y, q.x * g.yLen + q.y⟩ = .ok (seriesDistance gapFloat g p q) := by
  cases scaled
  · refine ⟨⟨1, 3, [0, 1, 5]⟩, ⟨3, 3, [some 0, some 1, some 5, some 1, some 0, some 4, some 5, some 4, some 0]⟩,
      rfl, ⟨rfl, rfl, rfl⟩, ?_, rfl, rfl, rfl, by decide +kernel⟩
    rw [lineFiles, MatrixFiles.save, if_neg (by decide +kernel), MatrixFiles.save, if_pos rfl]
  · refine ⟨⟨1, 3, [0, 7, 6]⟩, ⟨3, 3, [some 0, some 7, some 6, some 7, some 0, some 1, some 6, some 1, some 0]⟩,
      rfl, ⟨rfl, rfl, rfl⟩, ?_, rfl, rfl, rfl, by decide +kernel⟩
    rw [lineFiles, MatrixFiles.save, if_pos rfl]

attribute [local instance] nanAddZero in
theorem lineFiles_holds (scaled : Bool) : ∃ g m, lineRegion (lineMeta scaled) = .ok g ∧
    RegionFits g (lineMeta scaled) ∧ (∀ p s, g.get p = .ok s → gapFloat s s = some 0) ∧
    lineFiles (distancesPath (lineMeta scaled)) = .matrix m ∧ HoldsDistances gapFloat g m := by
  obtain ⟨g, m, h1, h2, h3, h4, h5, h6, h7⟩ := lineFiles_saved scaled
  have key : ∀ p q s t, g.get p = .ok s → g.get q = .ok t →
      m.get ⟨p.x * g.yLen + p.y, q.x * g.yLen + q.y⟩ = .ok (gapFloat s t) := by
    intro p q s t hp hq
    have a := (Grid.get_eq_ok_iff _ _ _).1 hp
    have b := (Grid.get_eq_ok_iff _ _ _).1 hq
    rw [h7 p (mem_rowMajor.2 ⟨a.1, a.2.1⟩) q (mem_rowMajor.2 ⟨b.1, b.2.1⟩), seriesDistance, hp, hq]
  exact ⟨g, m, h1, h2, fun p s _ => by simp [gapFloat, gap], h3, h4, h5, h6, fun p q s t hp hq _ => key p q s t hp hq,
    fun p s hp => .inl (key p p s s hp hp)⟩

attribute [local instance] nanAddZero in
/-- **C129** is refuted: calls with the same object, as with the default argument, which is created only once,
take the distances of the first region for those of the second one, although both were saved: the first answer
is right and the second one wrong. In a new process the second answer is right. -/
theorem C129_default_refuted :
    forMetadataAll lineRegion lineFiles [lineMeta false, lineMeta true] none = [.ok (some ⟨0, 1⟩), .ok (some ⟨0, 1⟩)] ∧
    forMetadataAll lineRegion lineFiles [lineMeta true] none = [.ok (some ⟨0, 2⟩)] ∧
    (∀ g, lineRegion (lineMeta false) = .ok g → CentroidOf gapFloat g (some ⟨0, 1⟩)) ∧
    (∀ g, lineRegion (lineMeta true) = .ok g → CentroidOf gapFloat g (some ⟨0, 2⟩)) := by
  have e1 : forMetadataAll lineRegion lineFiles [lineMeta false, lineMeta true] none =
      [.ok (some ⟨0, 1⟩), .ok (some ⟨0, 1⟩)] := by decide +kernel
  have e2 : forMetadataAll lineRegion lineFiles [lineMeta true] none = [.ok (some ⟨0, 2⟩)] := by decide +kernel
  refine ⟨e1, e2, ?_, ?_⟩
  · intro g hg
    obtain ⟨g', m, h1, h2, h3, h4, h5⟩ := lineFiles_holds false
    rw [hg] at h1
    cases h1
    obtain ⟨res, d', h6, -, h7⟩ := C129_saved_partial hg h2 h3 h4 h5 (.inl rfl)
    have : (forMetadata lineRegion lineFiles (lineMeta false) none).1 = .ok (some ⟨0, 1⟩) := (List.cons.inj e1).1
    rw [h6] at this
    cases this
    exact h7
  · intro g hg
    obtain ⟨g', m, h1, h2, h3, h4, h5⟩ := lineFiles_holds true
    rw [hg] at h1
    cases h1
    obtain ⟨res, d', h6, -, h7⟩ := C129_saved_partial hg h2 h3 h4 h5 (.inl rfl)
    have : (forMetadata lineRegion lineFiles (lineMeta true) none).1 = .ok (some ⟨0, 2⟩) := (List.cons.inj e2).1
    rw [h6] at this
    cases this
    exact h7

/-- Three calls for the first region, and one without a file. -/
example : forMetadataAll lineRegion lineFiles [lineMeta false, lineMeta false, lineMeta false] none =
      [.ok (some ⟨0, 1⟩), .ok (some ⟨0, 1⟩), .ok (some ⟨0, 1⟩)] ∧
    forMetadata lineRegion (fun _ => .unreadable : MatrixFiles (Option (WithTop ℕ))) (lineMeta true) none =
      (.error .assertionError, none) ∧
    forMetadata lineRegion (fun _ => .matrix ⟨2, 2, [some 0, some 1, some 1, some 0]⟩ : MatrixFiles (Option (WithTop ℕ)))
      (lineMeta true) none = (.error .valueError, none) := by decide +kernel

attribute [local instance] nanAddZero in
/-- After two runs of the distance program, one in parallel. -/
example : ∃ files' d', DistanceSession gapFloat lineRegion [⟨lineMeta true, some 2⟩, ⟨lineMeta false, none⟩]
      (fun _ => .malformed) files' ∧
    forMetadata lineRegion files' (lineMeta true) none = (.ok (some ⟨0, 2⟩), d') := by
  have hok : ∀ md g, lineRegion md = .ok g → g.WF := by
    intro md g h
    unfold lineRegion at h
    split at h <;> (cases h; rfl)
  obtain ⟨files', h⟩ := C121_session (measure := gapFloat) hok
    [⟨lineMeta true, some 2⟩, ⟨lineMeta false, none⟩] (fun _ => .malformed)
  obtain ⟨g, m, h1, h2, h3, h4, h5⟩ := lineFiles_holds true
  obtain ⟨res, d', h6, h7⟩ := C129_session (measure := gapFloat) (regions := [lineMeta false, lineMeta true])
    (md := lineMeta true) (by unfold GoodCatalogue; decide +kernel) (by decide) h1 h2
    (fun _ _ _ _ _ _ => congrArg some (congrArg Nat.cast (Nat.add_comm _ _))) h3 (by decide) h
    ⟨_, List.mem_cons_self .., rfl, by decide⟩
  cases h7.unique (C129_default_refuted.2.2.2 g h1)
  exact ⟨files', d', h, h6⟩

/-! ### C130 -/

/-- **C130** (chain): an object has a centroid exactly when it or something inside has one set; then the
outermost one that is set is returned, whether or not a measure is given. -/
theorem C130_chain (h : Holder) :
    (h.has = true ↔ ∃ p, h.Has p) ∧ ∀ p, h.Has p → ∀ measure, h.get measure = .ok p := by
  induction h with
  | base c =>
    cases c with
    | none => exact ⟨⟨fun e => absurd e (by decide), fun ⟨p, hp⟩ => (by cases hp)⟩, fun p hp => (by cases hp)⟩
    | some c =>
      exact ⟨⟨fun _ => ⟨c, .base c⟩, fun _ => rfl⟩, fun p hp measure => by cases hp; rfl⟩
  | decorator c h ih =>
    cases c with
    | none =>
      refine ⟨⟨fun e => ?_, fun ⟨p, hp⟩ => ?_⟩, fun p hp measure => ?_⟩
      · obtain ⟨p, hp⟩ := ih.1.1 e
        exact ⟨p, .inner hp⟩
      · cases hp with
        | inner hp => exact ih.1.2 ⟨p, hp⟩
      · cases hp with
        | inner hp => exact ih.2 p hp measure
    | some c => exact ⟨⟨fun _ => ⟨c, .here c h⟩, fun _ => rfl⟩, fun p hp measure => by cases hp; rfl⟩

/-- **C130** (set): setting a centroid of an object makes it the answer. -/
theorem C130_set (h : Holder) (p : Point) (measure : Bool) : (h.set (some p)).get measure = .ok p := by
  cases h <;> rfl

/-- **C130** (none): without a centroid and without a measure the answer is a ValueError. -/
theorem C130_none (h : Holder) (hn : ¬ ∃ p, h.Has p) : h.get false = .error .valueError := by
  induction h with
  | base c =>
    cases c with
    | none => rfl
    | some c => exact absurd ⟨c, .base c⟩ hn
  | decorator c h ih =>
    cases c with
    | none => exact ih fun ⟨p, hp⟩ => hn ⟨p, .inner hp⟩
    | some c => exact absurd ⟨c, .here c h⟩ hn

/-- **C130** is refuted: with a measure the centroid is to be calculated if there is none; for every region the
call fails instead, since it uses a method that does not exist. -/
theorem C130_calculate_refuted (h : Holder) (hn : ¬ ∃ p, h.Has p) : h.get true = .error .attributeError := by
  induction h with
  | base c =>
    cases c with
    | none => rfl
    | some c => exact absurd ⟨c, .base c⟩ hn
  | decorator c h ih =>
    cases c with
    | none => exact ih fun ⟨p, hp⟩ => hn ⟨p, .inner hp⟩
    | some c => exact absurd ⟨c, .here c h⟩ hn

/-- One attempt per cluster: all succeed, or the first failure is the result. -/
theorem mapM_range_ok {α : Type} (f : Nat → Except PyErr α) (k : Nat) (a : Nat → α) (h : ∀ i < k, f i = .ok (a i)) :
    (List.range k).mapM f = .ok ((List.range k).map a) := by
  have : ∀ l : List Nat, (∀ i ∈ l, i < k) → l.mapM f = .ok (l.map a) := by
    intro l
    induction l with
    | nil => intro _; rfl
    | cons x l ih =>
      intro hl
      rw [List.mapM_cons, h x (hl x (List.mem_cons_self ..)), ih fun i hi => hl i (List.mem_cons_of_mem _ hi)]
      rfl
  exact this _ fun i hi => List.mem_range.1 hi

theorem mapM_range_error {α : Type} (f : Nat → Except PyErr α) (k n : Nat) (hn : n < k) (a : Nat → α) (e : PyErr)
    (h : ∀ i < n, f i = .ok (a i)) (hf : f n = .error e) : (List.range k).mapM f = .error e := by
  have hs : List.range k = List.range n ++ n :: (List.range (k - n - 1)).map (· + (n + 1)) := by
    apply List.ext_getElem
    · simp; omega
    · intro i h1 h2
      rw [List.getElem_range, List.getElem_append]
      split
      · simp
      · rename_i h3
        rw [List.length_range] at h3
        rw [List.getElem_cons]
        split
        · rename_i h4
          rw [List.length_range] at h4
          omega
        · rename_i h4
          simp only [List.length_range, List.getElem_map, List.getElem_range] at h4 ⊢
          omega
  rw [hs, List.mapM_append, mapM_range_ok f n a h, List.mapM_cons, hf]
  rfl

/-- **C130** (medoids): with one medoid per cluster each cluster has its own medoid as centroid, and asks the
region for nothing. -/
theorem C130_medoids (h : Holder) {k : Nat} (yLen : Nat) {ms : List Point} (hk : k ≤ ms.length) (h0 : 0 < k) :
    ∃ clusters, clusterHolders h k yLen none (some ms) = .ok clusters ∧ clusters.length = k ∧
      ∀ i : Nat, ∀ hi : i < k, ∃ c, clusters[i]? = some c ∧ c = .decorator (some ms[i]) h ∧
        ∀ measure, c.get measure = .ok ms[i] := by
  obtain ⟨m, ms, rfl⟩ := List.exists_cons_of_ne_nil (l := ms) (by rintro rfl; simp at hk; omega)
  refine ⟨(List.range k).map fun i => .decorator (some ((m :: ms)[i]?.getD m)) h, ?_, by simp, ?_⟩
  · unfold clusterHolders
    rw [if_neg (by simp)]
    refine mapM_range_ok _ k _ fun i hi => ?_
    simp only [Option.getD_none, Option.getD_some]
    rw [List.getElem?_eq_getElem (by omega)]
    rfl
  · intro i hi
    refine ⟨.decorator (some (m :: ms)[i]) h, ?_, rfl, fun _ => rfl⟩
    rw [List.getElem?_map, List.getElem?_range hi, Option.map_some, List.getElem?_eq_getElem (by omega)]
    rfl

/-- **C130** (indices): with one index per cluster each cluster has the point with its index. -/
theorem C130_indices (h : Holder) {k yLen : Nat} (hy : 0 < yLen) {is : List Nat} (hk : k ≤ is.length) (h0 : 0 < k) :
    ∃ clusters, clusterHolders h k yLen (some is) none = .ok clusters ∧ clusters.length = k ∧
      ∀ i : Nat, ∀ hi : i < k, ∃ c p, clusters[i]? = some c ∧ p.x * yLen + p.y = is[i] ∧ p.y < yLen ∧
        ∀ measure, c.get measure = .ok p := by
  obtain ⟨m, is, rfl⟩ := List.exists_cons_of_ne_nil (l := is) (by rintro rfl; simp at hk; omega)
  refine ⟨(List.range k).map fun i =>
    .decorator (some ⟨(m :: is)[i]?.getD m / yLen, (m :: is)[i]?.getD m % yLen⟩) h, ?_, by simp, ?_⟩
  · unfold clusterHolders
    rw [if_neg (by simp)]
    refine mapM_range_ok _ k _ fun i hi => ?_
    simp only [Option.getD_none, Option.getD_some]
    rw [List.getElem?_eq_getElem (by omega)]
    simp only [Option.getD_some]
    rw [if_neg (by omega)]
  · intro i hi
    refine ⟨.decorator (some ⟨(m :: is)[i] / yLen, (m :: is)[i] % yLen⟩) h, ⟨(m :: is)[i] / yLen, (m :: is)[i] % yLen⟩,
      ?_, ?_, Nat.mod_lt _ hy, fun _ => rfl⟩
    · rw [List.getElem?_map, List.getElem?_range hi, Option.map_some, List.getElem?_eq_getElem (by omega)]
      rfl
    · simp [Nat.div_add_mod']

/-- **C130** (wrong calls): medoids and indices together are rejected, and so are too few medoids. -/
theorem C130_rejected (h : Holder) (k yLen : Nat) (is : List Nat) (ms : List Point) :
    clusterHolders h k yLen (some is) (some ms) = .error .assertionError ∧
    (ms ≠ [] → ms.length < k → clusterHolders h k yLen none (some ms) = .error .indexError) := by
  refine ⟨by unfold clusterHolders; rw [if_pos (by simp)], fun h1 h2 => ?_⟩
  obtain ⟨m, ms, rfl⟩ := List.exists_cons_of_ne_nil h1
  unfold clusterHolders
  rw [if_neg (by simp)]
  refine mapM_range_error _ k (m :: ms).length h2 (fun i => .decorator (some ((m :: ms)[i]?.getD m)) h) _ ?_ ?_
  · intro i hi
    simp only [Option.getD_none, Option.getD_some]
    rw [List.getElem?_eq_getElem (by omega)]
    rfl
  · simp only [Option.getD_none, Option.getD_some]
    rw [List.getElem?_eq_none (le_refl _)]

/-- **C130** (inherited): clusters that are created without medoids and indices all have the centroid of the
region, if it has one. -/
theorem C130_inherited (h : Holder) (k yLen : Nat) :
    clusterHolders h k yLen none none = .ok (List.replicate k (.decorator none h)) ∧
    ∀ measure, (Holder.decorator none h).get measure = h.get measure := by
  refine ⟨?_, fun _ => rfl⟩
  unfold clusterHolders
  rw [if_neg (by simp)]
  have := mapM_range_ok (fun _ => (.ok (.decorator none h) : Except PyErr Holder)) k
    (fun _ => Holder.decorator none h) fun _ _ => rfl
  simp only [List.map_const', List.length_range] at this
  exact this

/-- **C130** is refuted: the centroid of a cluster need not be one of its points: here the second cluster has
the centroid of the region, which is in the first one. -/
theorem C130_member_refuted :
    ∃ pt : Partition, pt.Valid ∧ ∃ clusters c,
      clusterHolders (.base (some ⟨0, 0⟩)) pt.k pt.labels.yLen none none = .ok clusters ∧
      clusters[1]? = some c ∧ c.get false = .ok ⟨0, 0⟩ ∧ pt.isMember ⟨0, 0⟩ 1 = .ok false := by
  refine ⟨⟨⟨1, 2, [0, 1]⟩, 2, 0⟩, ⟨rfl, by decide, by decide⟩, [.decorator none (.base (some ⟨0, 0⟩)), .decorator none (.base (some ⟨0, 0⟩))],
    .decorator none (.base (some ⟨0, 0⟩)), by decide, rfl, rfl, by decide⟩

/-- Three clusters of a scaled region. -/
example : clusterHolders (.decorator none (.base (some ⟨5, 5⟩))) 3 4 none (some [⟨1, 1⟩, ⟨0, 3⟩, ⟨2, 0⟩]) =
      .ok [.decorator (some ⟨1, 1⟩) (.decorator none (.base (some ⟨5, 5⟩))),
        .decorator (some ⟨0, 3⟩) (.decorator none (.base (some ⟨5, 5⟩))),
        .decorator (some ⟨2, 0⟩) (.decorator none (.base (some ⟨5, 5⟩)))] ∧
    clusterHolders (.base none) 2 4 (some [3, 9]) none =
      .ok [.decorator (some ⟨0, 3⟩) (.base none), .decorator (some ⟨2, 1⟩) (.base none)] ∧
    (Holder.decorator none (.decorator none (.base (some ⟨5, 5⟩)))).get true = .ok ⟨5, 5⟩ ∧
    (Holder.decorator none (.decorator none (.base none))).get true = .error .attributeError := by decide

end Spta
