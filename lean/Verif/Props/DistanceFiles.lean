import Verif.Spec.DistanceFiles
import Verif.Props.Parallel
import Verif.Props.Distance
import Verif.Props.SolverSession
import Verif.Props.Dba

/-!
# C121: the files of distance matrices
-/

namespace Spta

section

variable {S V : Type}

theorem distancesPath_inj {md md' : RegionMeta} :
    distancesPath md = distancesPath md' ↔ md.name = md'.name ∧ md.yearStart = md'.yearStart ∧
      md.yearEnd = md'.yearEnd ∧ md.spd = md'.spd ∧ md.scaled = md'.scaled := by
  constructor
  · intro e
    have e1 := List.append_cancel_left e
    injection e1 with _ e2
    have e3 := List.append_cancel_right e2
    have e4 := List.append_cancel_left e3
    exact RegionMeta.repr_inj e4
  · rintro ⟨e1, e2, e3, e4, e5⟩
    simp only [distancesPath, DirMeta.distancesFile, RegionMeta.repr, e1, e2, e3, e4, e5]

variable [AddZeroClass V] {measure : S → S → V}

theorem sequential_holds {g : Grid S} (hg : g.WF) {junk : Grid V} (hj : junk.WF)
    (hx : junk.xLen = g.xLen * g.yLen) (hy : junk.yLen = g.xLen * g.yLen) :
    ∃ m, sequentialMatrix measure g junk = .ok m ∧ HoldsDistances measure g m := by
  obtain ⟨m, h1, h2, h3, h4, h5⟩ := C35_sequential (measure := measure) hg hj hx hy
  exact ⟨m, h1, h2, h3, h4, fun p q s t hp hq _ => h5 p q s t hp hq, fun p s hp => .inl (h5 p p s s hp hp)⟩

theorem parallel_holds {g : Grid S} (hg : g.WF) (hsym : SymmetricOn measure g) {n : Nat}
    {outcome : Except PyErr (Grid V)} (h : ParallelMatrix measure g n outcome) :
    ∃ m, outcome = .ok m ∧ HoldsDistances measure g m := by
  obtain ⟨m, h1, h2, h3, h4, h5⟩ := C35_parallel hg h
  refine ⟨m, h1, h2, h3, h4, ?_, ?_⟩
  · intro p q s t hp hq hne
    obtain ⟨a1, a2, a3⟩ := (Grid.get_eq_ok_iff _ _ _).1 hp
    obtain ⟨b1, b2, b3⟩ := (Grid.get_eq_ok_iff _ _ _).1 hq
    rw [h5 _ _ s t a3 b3]
    have : p.x * g.yLen + p.y ≠ q.x * g.yLen + q.y := by
      intro e
      obtain ⟨e1, e2⟩ := idx_inj a2 b2 e
      apply hne
      cases p; cases q
      simp_all
    rw [if_neg this]
    split
    · rfl
    · rw [hsym p q s t hp hq]
  · intro p s hp
    obtain ⟨a1, a2, a3⟩ := (Grid.get_eq_ok_iff _ _ _).1 hp
    right
    rw [h5 _ _ s s a3 a3, if_pos rfl]

/-- **C121** (computing): every run for a region, in one process or with any positive number of workers under
every schedule, computes a matrix that holds the distances; a negative number of workers is a ValueError. -/
theorem C121_matrix {run : DistanceRun} {g : Grid S} (hg : g.WF) (hsym : SymmetricOn measure g)
    {outcome : Except PyErr (Grid V)} (h : run.Matrix measure g outcome) :
    if run.workers.getD 0 < 0 then outcome = .error .valueError
    else ∃ m, outcome = .ok m ∧ HoldsDistances measure g m := by
  obtain ⟨md, workers⟩ := run
  have seq : (∃ junk : Grid V, junk.WF ∧ junk.xLen = g.xLen * g.yLen ∧ junk.yLen = g.xLen * g.yLen ∧
      outcome = sequentialMatrix measure g junk) → ∃ m, outcome = .ok m ∧ HoldsDistances measure g m := by
    rintro ⟨junk, h1, h2, h3, rfl⟩
    exact sequential_holds hg h1 h2 h3
  cases workers with
  | none =>
    simp only [DistanceRun.Matrix] at h
    simpa using seq h
  | some n =>
    simp only [DistanceRun.Matrix] at h
    simp only [Option.getD_some]
    by_cases h0 : n = 0
    · rw [if_pos h0] at h
      rw [if_neg (by omega)]
      exact seq h
    · rw [if_neg h0] at h
      by_cases hn : n < 0
      · rw [if_pos hn] at h
        rw [if_pos hn]
        exact h
      · rw [if_neg hn] at h
        rw [if_neg hn]
        exact parallel_holds hg hsym h

/-- **C121** (computing): there is always an outcome. -/
theorem C121_total (run : DistanceRun) {g : Grid S} (hg : g.WF) :
    ∃ outcome : Except PyErr (Grid V), run.Matrix measure g outcome := by
  obtain ⟨md, workers⟩ := run
  have hj : (Grid.const (g.xLen * g.yLen) (g.xLen * g.yLen) (0 : V)).WF := by
    simp [Grid.WF, Grid.const]
  cases workers with
  | none => exact ⟨_, _, hj, rfl, rfl, rfl⟩
  | some n =>
    unfold DistanceRun.Matrix
    simp only
    by_cases h0 : n = 0
    · simp only [if_pos h0]
      exact ⟨_, _, hj, rfl, rfl, rfl⟩
    · simp only [if_neg h0]
      by_cases hn : n < 0
      · simp only [if_pos hn]
        exact ⟨_, rfl⟩
      · simp only [if_neg hn]
        exact C35_parallel_exists hg measure (by omega)

variable {region : RegionMeta → Except PyErr (Grid S)} {regions : List RegionMeta}

/-- **C121** (progress): every session can be run to its end. -/
theorem C121_session (hreg : ∀ md g, region md = .ok g → g.WF) (runs : List DistanceRun) (files : MatrixFiles V) :
    ∃ files', DistanceSession measure region runs files files' := by
  induction runs generalizing files with
  | nil => exact ⟨files, .nil _⟩
  | cons run runs ih =>
    have : ∃ files', run.Runs measure region files files' := by
      cases hr : region run.md with
      | error e => exact ⟨_, .noRegion hr _⟩
      | ok g =>
        obtain ⟨o, ho⟩ := C121_total (V := V) (measure := measure) run (hreg _ _ hr)
        cases o with
        | error e => exact ⟨_, .failed hr ho _⟩
        | ok m => exact ⟨_, .saved hr ho _⟩
    obtain ⟨files', h1⟩ := this
    obtain ⟨files'', h2⟩ := ih files'
    exact ⟨files'', .cons h1 h2⟩

/-- **C121** (frame): runs for other regions of the catalogue leave the file alone. -/
theorem C121_frame (hc : GoodCatalogue regions) {md : RegionMeta} (hmd : md ∈ regions)
    {runs : List DistanceRun} (hin : ∀ run ∈ runs, run.md ∈ regions) (hno : ∀ run ∈ runs, run.md ≠ md)
    {files files' : MatrixFiles V} (h : DistanceSession measure region runs files files') :
    files' (distancesPath md) = files (distancesPath md) := by
  induction h with
  | nil => rfl
  | @cons run runs files files' files'' h hs ih =>
    rw [ih (fun r hr => hin r (List.mem_cons_of_mem _ hr)) (fun r hr => hno r (List.mem_cons_of_mem _ hr))]
    have hr := hin run (List.mem_cons_self ..)
    have hne := hno run (List.mem_cons_self ..)
    cases h with
    | noRegion => rfl
    | failed => rfl
    | saved h hm =>
      unfold MatrixFiles.save
      rw [if_neg]
      intro e
      obtain ⟨e1, e2, e3, e4, e5⟩ := distancesPath_inj.1 e
      exact hne (hc.2 _ hr _ hmd e1.symm e2.symm e3.symm e4.symm e5.symm)

theorem session_kept (hc : GoodCatalogue regions) {md : RegionMeta} (hmd : md ∈ regions) {g : Grid S}
    (hreg : region md = .ok g) (hg : g.WF) (hsym : SymmetricOn measure g)
    {runs : List DistanceRun} (hin : ∀ run ∈ runs, run.md ∈ regions)
    {files files' : MatrixFiles V} (h : DistanceSession measure region runs files files')
    (hor : (∃ run ∈ runs, run.md = md ∧ ¬ run.workers.getD 0 < 0) ∨
      ∃ m, files (distancesPath md) = .matrix m ∧ HoldsDistances measure g m) :
    ∃ m, files' (distancesPath md) = .matrix m ∧ HoldsDistances measure g m := by
  induction h with
  | nil =>
    rcases hor with ⟨run, hr, -⟩ | h
    · cases hr
    · exact h
  | @cons run runs files files' files'' h hs ih =>
    refine ih (fun r hr => hin r (List.mem_cons_of_mem _ hr)) ?_
    have hr := hin run (List.mem_cons_self ..)
    by_cases he : run.md = md
    · by_cases hw : run.workers.getD 0 < 0
      · -- the run fails
        have hfiles : files' = files := by
          cases h with
          | noRegion => rfl
          | failed => rfl
          | saved h hm =>
            rw [he, hreg] at h
            cases h
            have := C121_matrix hg hsym hm
            rw [if_pos hw] at this
            cases this
        rw [hfiles]
        rcases hor with ⟨r, h1, h2, h3⟩ | h1
        · rcases List.mem_cons.1 h1 with rfl | h1
          · exact absurd hw h3
          · exact .inl ⟨r, h1, h2, h3⟩
        · exact .inr h1
      · right
        cases h with
        | noRegion h => rw [he, hreg] at h; cases h
        | failed h hm =>
          rw [he, hreg] at h
          cases h
          have := C121_matrix hg hsym hm
          rw [if_neg hw] at this
          obtain ⟨m, e, -⟩ := this
          cases e
        | @saved g' m h hm =>
          rw [he, hreg] at h
          cases h
          have := C121_matrix hg hsym hm
          rw [if_neg hw] at this
          obtain ⟨m', e, hm'⟩ := this
          cases e
          exact ⟨m, by unfold MatrixFiles.save; rw [he, if_pos rfl], hm'⟩
    · rcases hor with ⟨r, h1, h2, h3⟩ | ⟨m, h1, h2⟩
      · rcases List.mem_cons.1 h1 with rfl | h1
        · exact absurd h2 he
        · exact .inl ⟨r, h1, h2, h3⟩
      · right
        refine ⟨m, ?_, h2⟩
        rw [← h1]
        exact C121_frame hc hmd (runs := [run]) (by simpa using hr) (by simpa using he)
          (.cons h (.nil _))

/-- **C121** (loading): after any runs, in any order and whatever files there were, among them one for a region
(without a negative number of workers), loading the distances of the region succeeds, and gives a matrix that
holds the distances of its series. -/
theorem C121_load (hc : GoodCatalogue regions) {md : RegionMeta} (hmd : md ∈ regions) {g : Grid S}
    (hreg : region md = .ok g) (hfit : RegionFits g md) (hsym : SymmetricOn measure g)
    {runs : List DistanceRun} (hin : ∀ run ∈ runs, run.md ∈ regions)
    {files files' : MatrixFiles V} (h : DistanceSession measure region runs files files')
    (hrun : ∃ run ∈ runs, run.md = md ∧ ¬ run.workers.getD 0 < 0) (dm : Option (Grid V)) :
    ∃ m, loadMatrix2d (files' (distancesPath md)) md.region dm = (.ok (some m), some m) ∧
      HoldsDistances measure g m := by
  obtain ⟨m, h1, h2⟩ := session_kept hc hmd hreg hfit.1 hsym hin h (.inl hrun)
  refine ⟨m, ?_, h2⟩
  rw [h1]
  refine loadMatrix2d_fits ?_ dm
  have h3 := h2.xLen
  have h4 := h2.yLen
  rw [hfit.2.1, hfit.2.2] at h3 h4
  exact ⟨h3, h4⟩

/-- **C121** (use): the distances between a point and some other points, read from the matrix that such runs
leave, are the distances of their series. -/
theorem C121_distances (hc : GoodCatalogue regions) {md : RegionMeta} (hmd : md ∈ regions) {g : Grid S}
    (hreg : region md = .ok g) (hfit : RegionFits g md) (hsym : SymmetricOn measure g)
    (hself : ∀ p s, g.get p = .ok s → measure s s = 0)
    {runs : List DistanceRun} (hin : ∀ run ∈ runs, run.md ∈ regions)
    {files files' : MatrixFiles V} (h : DistanceSession measure region runs files files')
    (hrun : ∃ run ∈ runs, run.md = md ∧ ¬ run.workers.getD 0 < 0)
    {compute : Option (Grid V) → Except PyErr (Option (Grid V)) × Option (Grid V)} (only : Bool)
    {p : Point} {s : S} (hp : g.get p = .ok s) {points : List Point} {series : List S}
    (hpts : List.Forall₂ (fun q t => g.get q = .ok t) points series) :
    ∃ m, distancesToPoint (σ := Option (Grid V)) id loadMatrix2d compute
      (some (files' (distancesPath md), md.region)) g.yLen p
      (points.map fun q => q.x * g.yLen + q.y) true only none = (.ok (series.map (measure s)), some m) := by
  obtain ⟨m, h1, h2⟩ := C121_load hc hmd hreg hfit hsym hin h hrun none
  refine ⟨m, ?_⟩
  have key : distancesToPointWithMatrix m g.yLen p (points.map fun q => q.x * g.yLen + q.y) =
      .ok (series.map (measure s)) := by
    unfold distancesToPointWithMatrix
    induction hpts with
    | nil => rfl
    | @cons q t qs ts hq _ ih =>
      rw [List.map_cons, List.mapM_cons, ih, List.map_cons]
      have : m.get ⟨p.x * g.yLen + p.y, q.x * g.yLen + q.y⟩ = .ok (measure s t) := by
        by_cases e : p = q
        · subst e
          rw [hp] at hq
          cases hq
          rcases h2.self p s hp with e | e
          · exact e
          · rw [e, hself p s hp]
        · exact h2.other p q s t hp hq e
      rw [this]
      rfl
  simp only [distancesToPoint, Bool.not_true, Bool.false_eq_true, if_false, id, loadMd, h1,
    distancesWithMatrix, key]

omit [AddZeroClass V] in
/-- **C121** (center): the second plot is about the point in the middle of the region. -/
theorem C121_center (xLen yLen : Nat) :
    centerIndex xLen yLen = xLen / 2 * yLen + yLen / 2 ∧
      (0 < xLen → 0 < yLen → xLen / 2 < xLen ∧ yLen / 2 < yLen) := by
  refine ⟨?_, fun h1 h2 => ⟨by omega, by omega⟩⟩
  unfold centerIndex
  simp only
  rcases Nat.even_or_odd' xLen with ⟨c, rfl | rfl⟩
  · rw [if_pos (by omega), Nat.mul_assoc, Nat.mul_div_cancel_left _ (by decide), Nat.mul_div_cancel_left _ (by decide)]
  · rw [if_neg (by omega)]
    have e1 : (2 * c + 1) / 2 = c := by omega
    have e2 : (2 * c + 1) * yLen = 2 * (c * yLen) + yLen := by ring
    rw [e1, e2]
    omega

/-- **C121** (plots): the two regions that are drawn have the distances to the first point and to the point in
the middle. -/
theorem C121_shown {g : Grid S} {m : Grid V} (h : HoldsDistances measure g m) (hx : 0 < g.xLen) (hy : 0 < g.yLen) :
    ∃ first center, shownDistances m g.xLen g.yLen = .ok (first, center) ∧
      first.WF ∧ center.WF ∧
      ∀ q : Point, q.x < g.xLen → q.y < g.yLen →
        first.get q = m.get ⟨0, q.x * g.yLen + q.y⟩ ∧
        center.get q = m.get ⟨g.xLen / 2 * g.yLen + g.yLen / 2, q.x * g.yLen + q.y⟩ := by
  have key : ∀ i < m.xLen, ∃ r, distancesAsRegion m i g.xLen g.yLen = .ok r ∧ r.WF ∧
      ∀ q : Point, q.x < g.xLen → q.y < g.yLen → r.get q = m.get ⟨i, q.x * g.yLen + q.y⟩ := by
    intro i hi
    have hw : m.data.length = m.xLen * m.yLen := h.wf
    have hle : (i + 1) * m.yLen ≤ m.xLen * m.yLen := Nat.mul_le_mul_right _ hi
    have hlen : ((m.data.drop (i * m.yLen)).take m.yLen).length = g.xLen * g.yLen := by
      rw [List.length_take, List.length_drop, hw, ← h.yLen]
      rw [Nat.add_mul] at hle
      omega
    refine ⟨⟨g.xLen, g.yLen, (m.data.drop (i * m.yLen)).take m.yLen⟩, ?_, hlen, ?_⟩
    · unfold distancesAsRegion Grid.rowAt
      simp only [if_pos hi]
      rw [if_pos hlen]
    · intro q hqx hqy
      have hj : q.x * g.yLen + q.y < m.yLen := by rw [h.yLen]; exact idx_lt hqx hqy
      obtain ⟨v, hv⟩ := m.exists_get h.wf (p := ⟨i, q.x * g.yLen + q.y⟩) hi hj
      rw [hv]
      rw [Grid.get_eq_ok_iff] at hv ⊢
      refine ⟨hqx, hqy, ?_⟩
      have := hv.2.2
      simp only at this ⊢
      rw [List.getElem?_take_of_lt hj, List.getElem?_drop]
      exact this
  have h0 : 0 < m.xLen := by rw [h.xLen]; exact Nat.mul_pos hx hy
  obtain ⟨hc1, hc2⟩ := C121_center g.xLen g.yLen
  have h1 : centerIndex g.xLen g.yLen < m.xLen := by
    rw [hc1, h.xLen]; exact idx_lt (hc2 hx hy).1 (hc2 hx hy).2
  obtain ⟨a, a1, a2, a3⟩ := key 0 h0
  obtain ⟨b, b1, b2, b3⟩ := key _ h1
  refine ⟨a, b, by unfold shownDistances; simp only [a1, b1], a2, b2, fun q hx hy => ⟨a3 q hx hy, ?_⟩⟩
  rw [b3 q hx hy, hc1]

end

section

variable {K : Type} [Field K] [LinearOrder K] [IsStrictOrderedRing K]

/-- The cost of aligning a series with itself is zero. -/
theorem IsDTW.self {s : List K} {v : K} (h : IsDTW s s v) : v = 0 := by
  obtain ⟨⟨w, -, hw⟩, h2⟩ := h
  refine le_antisymm ?_ ?_
  · refine le_trans (h2 _ (IsWarpingPath.diagonal (s.length - 1))) (le_of_eq ?_)
    unfold pathCost
    apply List.sum_eq_zero
    intro x hx
    simp only [List.map_map, List.mem_map] at hx
    obtain ⟨i, -, rfl⟩ := hx
    simp
  · rw [← hw]
    apply List.sum_nonneg
    intro x hx
    obtain ⟨p, -, rfl⟩ := List.mem_map.1 hx
    exact sq_nonneg _

/-- **C121** (DTW): a measure that is the root of the least cost of an alignment is symmetric and zero on equal
series, as the other parts need. -/
theorem C121_dtw {measure : List K → List K → K} {g : Grid (List K)}
    (hm : ∀ p q s t, g.get p = .ok s → g.get q = .ok t → 0 ≤ measure s t ∧ IsDTW s t (measure s t ^ 2)) :
    SymmetricOn measure g ∧ ∀ p s, g.get p = .ok s → measure s s = 0 := by
  refine ⟨fun p q s t hp hq => ?_, fun p s hp => ?_⟩
  · have h1 := hm p q s t hp hq
    have h2 := hm q p t s hq hp
    exact (pow_left_inj₀ h1.1 h2.1 (by decide)).1 (h1.2.unique h2.2.symm)
  · exact pow_eq_zero_iff (by decide) |>.1 (hm p p s s hp hp).2.self

end

/-! ### Examples -/

/-- A region with two points, and another one that has the same name but is scaled. -/
def pairMeta (scaled : Bool) : RegionMeta := ⟨"pair".toList, ⟨3, 4, 5, 7⟩, 2014, 2015, 1, scaled⟩

/-- The series are numbers. -/
def pairRegion (md : RegionMeta) : Except PyErr (Grid Nat) :=
  if md.scaled then .ok ⟨1, 2, [0, 1]⟩ else .ok ⟨1, 2, [4, 9]⟩

/-- The distance of two numbers. -/
def gap (a b : Nat) : Nat := (a - b) + (b - a)

theorem pairRegion_ok (md : RegionMeta) (g : Grid Nat) (h : pairRegion md = .ok g) : g.WF := by
  unfold pairRegion at h
  split at h <;> (cases h; rfl)

/-- Four runs for two regions: with three workers, in one process, with a number of workers that fails; at first
one of the files is damaged. The distances of the first region can be loaded. -/
example : ∃ files' m, DistanceSession gap pairRegion
      [⟨pairMeta false, some 3⟩, ⟨pairMeta true, none⟩, ⟨pairMeta true, some 0⟩, ⟨pairMeta false, some (-1)⟩]
      (fun _ => .malformed) files' ∧
    loadMatrix2d (files' (distancesPath (pairMeta false))) ⟨3, 4, 5, 7⟩ none = (.ok (some m), some m) ∧
    m.get ⟨0, 1⟩ = .ok 5 ∧ m.get ⟨1, 0⟩ = .ok 5 ∧ m.get ⟨1, 1⟩ = .ok 0 := by
  obtain ⟨files', h⟩ := C121_session (measure := gap) pairRegion_ok
    [⟨pairMeta false, some 3⟩, ⟨pairMeta true, none⟩, ⟨pairMeta true, some 0⟩, ⟨pairMeta false, some (-1)⟩]
    (fun _ => .malformed)
  obtain ⟨m, h1, h2⟩ := C121_load (regions := [pairMeta false, pairMeta true]) (md := pairMeta false)
    (g := ⟨1, 2, [4, 9]⟩) (by unfold GoodCatalogue; decide +kernel) (by decide) rfl ⟨rfl, rfl, rfl⟩
    (fun _ _ _ _ _ _ => Nat.add_comm _ _) (by decide) h ⟨_, List.mem_cons_self .., rfl, by decide⟩ none
  refine ⟨files', m, h, h1, ?_, ?_, ?_⟩
  · exact h2.other ⟨0, 0⟩ ⟨0, 1⟩ 4 9 rfl rfl (by decide)
  · exact h2.other ⟨0, 1⟩ ⟨0, 0⟩ 9 4 rfl rfl (by decide)
  · rcases h2.self ⟨0, 1⟩ 9 rfl with e | e <;> exact e

/-- The center of a region with four rows and three columns is the point (2, 1); with three rows and four
columns it is (1, 2). -/
example : centerIndex 4 3 = 7 ∧ centerIndex 3 4 = 6 := by decide

/-- The distances of four points that are drawn: to the first point and to (1, 1). -/
example : shownDistances (⟨4, 4, [0, 1, 2, 3, 1, 0, 4, 5, 2, 4, 0, 6, 3, 5, 6, 0]⟩ : Grid Nat) 2 2 =
    .ok (⟨2, 2, [0, 1, 2, 3]⟩, ⟨2, 2, [3, 5, 6, 0]⟩) := by decide

/-- There is such a measure. -/
example (g : Grid (List Real)) : ∃ measure : List Real → List Real → Real,
    ∀ p q s t, g.get p = .ok s → g.get q = .ok t → 0 ≤ measure s t ∧ IsDTW s t (measure s t ^ 2) := by
  refine ⟨fun s t => Real.sqrt (dpCost (sqDelta s t) (s.length - 1) (t.length - 1)), ?_⟩
  intro p q s t _ _
  refine ⟨Real.sqrt_nonneg _, ?_⟩
  have h := dpCost_isDTW s t
  rw [Real.sq_sqrt]
  · exact h
  · obtain ⟨w, -, e⟩ := h.1
    rw [← e]
    apply List.sum_nonneg
    intro x hx
    obtain ⟨p, -, rfl⟩ := List.mem_map.1 hx
    exact sq_nonneg _

end Spta
