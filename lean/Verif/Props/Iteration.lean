import Verif.Lemmas.Region

/-!
# C06–C08: point indices and iteration over regions
-/

namespace Spta

variable {α : Type}

/-- C06 (first part): index and point are inverse of each other between the points of the region
and `0 .. xLen*yLen - 1`. -/
theorem C06_index_point_inverse (xLen yLen : Nat) :
    (∀ p : Point, p.x < xLen → p.y < yLen →
      pointToIndex yLen p < xLen * yLen ∧ indexToPoint yLen (pointToIndex yLen p) = .ok p) ∧
    (∀ n, n < xLen * yLen →
      ∃ p : Point, indexToPoint yLen n = .ok p ∧ p.x < xLen ∧ p.y < yLen ∧
        pointToIndex yLen p = n) := by
  constructor
  · intro p hx hy
    refine ⟨idx_lt hx hy, ?_⟩
    simp only [indexToPoint, pointToIndex, idx_div hy, idx_mod hy]
    rw [if_neg (by omega)]
  · intro n hn
    refine ⟨⟨n / yLen, n % yLen⟩, ?_, div_lt_of_lt_mul' hn, mod_lt_of_lt_mul hn,
      idx_of_div_mod n yLen⟩
    have : yLen ≠ 0 := by rintro rfl; simp at hn
    simp [indexToPoint, this]

example : indexToPoint 7 (pointToIndex 7 ⟨2, 5⟩) = .ok ⟨2, 5⟩ := by decide

/-- Helper: writing consecutive cells. -/
theorem foldl_set_range {γ : Type} (f : Nat → γ) (junk : γ) (pre : List γ) (r : Nat) :
    ∀ n, (List.range n).foldl (fun acc j => acc.set (pre.length + j) (f j))
        (pre ++ List.replicate (n + r) junk) =
      pre ++ (List.range n).map f ++ List.replicate r junk := by
  intro n
  induction n generalizing r with
  | zero => simp
  | succ n ih =>
    rw [List.range_succ, List.foldl_append, Nat.add_right_comm, Nat.add_assoc, ih (r + 1)]
    simp only [List.foldl_cons, List.foldl_nil, List.map_append, List.map_cons, List.map_nil]
    rw [List.append_assoc, List.set_append_right _ _ (by omega),
      List.set_append_right _ _ (by simp)]
    simp [List.replicate_succ]

/-- Helper: the double loop of `list_of_2d_points`. -/
theorem listOf2dPoints_eq (xLen yLen : Nat) (junk : Point) :
    listOf2dPoints xLen yLen junk = rowMajor xLen yLen := by
  have key : ∀ m r, (List.range m).foldl (fun acc i =>
      (List.range yLen).foldl (fun acc j => acc.set (i * yLen + j) ⟨i, j⟩) acc)
      (List.replicate (m * yLen + r) junk) = rowMajor m yLen ++ List.replicate r junk := by
    intro m
    induction m with
    | zero => intro r; simp [rowMajor]
    | succ m ih =>
      intro r
      rw [List.range_succ, List.foldl_append, Nat.succ_mul, Nat.add_assoc, ih (yLen + r)]
      simp only [List.foldl_cons, List.foldl_nil]
      have := foldl_set_range (fun j => (⟨m, j⟩ : Point)) junk (rowMajor m yLen) r yLen
      rw [rowMajor_length] at this
      rw [this]
      simp [rowMajor, List.range_succ]
  have := key xLen 0
  simpa [listOf2dPoints] using this

/-- C06 (second part): `list_of_2d_points` holds at position `n` the point of index `n`, for every
`n` in range, whatever the uninitialised array contained. -/
theorem C06_list_of_points (xLen yLen : Nat) (junk : Point) :
    (listOf2dPoints xLen yLen junk).length = xLen * yLen ∧
    ∀ n, n < xLen * yLen → ∃ p : Point, (listOf2dPoints xLen yLen junk)[n]? = some p ∧
      p.x < xLen ∧ p.y < yLen ∧ p.x * yLen + p.y = n := by
  rw [listOf2dPoints_eq]
  refine ⟨rowMajor_length _ _, ?_⟩
  intro n hn
  refine ⟨⟨n / yLen, n % yLen⟩, ?_, div_lt_of_lt_mul' hn, mod_lt_of_lt_mul hn,
    idx_of_div_mod n yLen⟩
  rw [rowMajor_eq_map, List.getElem?_map, List.getElem?_range hn]; rfl

example : listOf2dPoints 2 3 ⟨9, 9⟩ = [⟨0, 0⟩, ⟨0, 1⟩, ⟨0, 2⟩, ⟨1, 0⟩, ⟨1, 1⟩, ⟨1, 2⟩] := by decide

/-- C06 (third part): the absolute point of an index is the relative point plus the region offset;
it lies in the region, and removing the offset gives the relative point (and its index) back. -/
theorem C06_absolute_point (r : Region) (p : Point)
    (hx : p.x < r.x2 - r.x1) (hy : p.y < r.y2 - r.y1) :
    ∃ q, indexToAbsolutePoint r (pointToIndex (r.y2 - r.y1) p) = .ok q ∧
      q = ⟨r.x1 + p.x, r.y1 + p.y⟩ ∧
      r.x1 ≤ q.x ∧ q.x < r.x2 ∧ r.y1 ≤ q.y ∧ q.y < r.y2 ∧
      (⟨q.x - r.x1, q.y - r.y1⟩ : Point) = p := by
  have h := ((C06_index_point_inverse (r.x2 - r.x1) (r.y2 - r.y1)).1 p hx hy).2
  refine ⟨⟨r.x1 + p.x, r.y1 + p.y⟩, ?_, rfl, by simp, by simp; omega, by simp, by simp; omega,
    by simp⟩
  simp [indexToAbsolutePoint, h, absolutePosition, Nat.add_comm]

example : indexToAbsolutePoint ⟨40, 50, 50, 60⟩ 17 = .ok ⟨41, 57⟩ := by decide

/-- Specification helper: `n` complete loops over a region, one after the other. -/
def manyLoops : Nat → RegionObj α → Except PyErr (List (List (Point × α)) × RegionObj α)
  | 0, r => .ok ([], r)
  | n + 1, r =>
    match r.loop with
    | .error e => .error e
    | .ok (items, r') =>
      match manyLoops n r' with
      | .error e => .error e
      | .ok (rest, r'') => .ok (items :: rest, r'')

/-- C07: any number of consecutive complete loops over a region each yield every point exactly once
in row-major order with its own value (or series). -/
theorem C07_full_loop (g : Grid α) (hg : g.WF) :
    ∃ items, ItemsOf g (rowMajor g.xLen g.yLen) items ∧
      (items.map Prod.fst).Nodup ∧
      (∀ p : Point, p ∈ items.map Prod.fst ↔ p.x < g.xLen ∧ p.y < g.yLen) ∧
      ∀ n, manyLoops n (RegionObj.new g) = .ok (List.replicate n items, RegionObj.new g) := by
  obtain ⟨items, h1, h2⟩ := (RegionObj.new g).loop_eq hg
  simp only [RegionObj.new, pointsFrom_zero] at h1 h2
  refine ⟨items, h2, ?_, ?_, ?_⟩
  · rw [h2.1]; exact rowMajor_nodup _ _
  · intro p; rw [h2.1]; exact mem_rowMajor
  · intro n
    induction n with
    | zero => rfl
    | succ n ih =>
      simp only [RegionObj.new] at ih
      simp [manyLoops, h1, ih, RegionObj.new, List.replicate_succ]

example : (Grid.mk 2 3 [10, 11, 12, 13, 14, 15]).WF ∧
    (RegionObj.new (Grid.mk 2 3 [10, 11, 12, 13, 14, 15])).loop =
      .ok ([(⟨0, 0⟩, 10), (⟨0, 1⟩, 11), (⟨0, 2⟩, 12), (⟨1, 0⟩, 13), (⟨1, 1⟩, 14), (⟨1, 2⟩, 15)],
        RegionObj.new (Grid.mk 2 3 [10, 11, 12, 13, 14, 15])) := by decide

/-- C08 is false: abandoning a loop after `m` items (any `1 ≤ m < number of points`) makes the next
loop over the same region miss exactly the first `m` points. -/
theorem C08_abandoned_loop_refuted (g : Grid α) (hg : g.WF) (m : Nat) (hm : 1 ≤ m)
    (hm2 : m < g.xLen * g.yLen) :
    ∃ seen r' items r'', (RegionObj.new g).loopBreak m = .ok (seen, r') ∧
      r'.loop = .ok (items, r'') ∧
      items.map Prod.fst = (rowMajor g.xLen g.yLen).drop m ∧
      items.map Prod.fst ≠ rowMajor g.xLen g.yLen := by
  obtain ⟨seen, h1, h2⟩ := RegionObj.breakAux_eq g hg m 0 (by omega)
  obtain ⟨items, h3, h4⟩ := (⟨g, 0 + m⟩ : RegionObj α).loop_eq hg
  refine ⟨seen, _, items, _, h1, h3, ?_, ?_⟩
  · rw [h4.1, pointsFrom_eq_drop]; simp
  · rw [h4.1, pointsFrom_eq_drop]
    intro he
    have := congrArg List.length he
    simp only [List.length_drop, rowMajor_length] at this
    omega

example : (Grid.mk 1 2 [5, 6]).WF ∧ 1 < (Grid.mk 1 2 [5, 6]).xLen * (Grid.mk 1 2 [5, 6]).yLen := by
  decide

/-- One step of an outer loop whose body runs a complete inner loop over the same region. -/
def nestedNext (r : RegionObj α) : Except PyErr (Option (Point × α) × RegionObj α) :=
  match r.next with
  | .error e => .error e
  | .ok (none, r') => .ok (none, r')
  | .ok (some it, r') =>
    match r'.loop with
    | .error e => .error e
    | .ok (_, r'') => .ok (some it, r'')

/-- C08 is also false for loops still in progress: with a complete inner loop over the same
(non-empty) region in its body, the outer loop receives the first point over and over and never
ends — for every `m` its first `m` items are all the first point, and no amount of steps reaches
the end. -/
theorem C08_nested_loop_refuted (g : Grid α) (hg : g.WF) (hne : 0 < g.xLen * g.yLen) :
    ∃ v, g.get ⟨0, 0⟩ = .ok v ∧
      (∀ m, breakAux nestedNext m (RegionObj.new g) =
        .ok (List.replicate m (⟨0, 0⟩, v), RegionObj.new g)) ∧
      ∀ fuel, loopAux nestedNext fuel (RegionObj.new g) = .error .diverges := by
  obtain ⟨v, hv, hn⟩ := RegionObj.next_step g hg hne
  simp only [Nat.zero_div, Nat.zero_mod] at hv hn
  obtain ⟨items, h3, _⟩ := (⟨g, 0 + 1⟩ : RegionObj α).loop_eq hg
  have hstep : nestedNext (RegionObj.new g) = .ok (some (⟨0, 0⟩, v), RegionObj.new g) := by
    simp only [nestedNext, RegionObj.new, hn, h3]
  refine ⟨v, hv, ?_, ?_⟩
  · intro m
    induction m with
    | zero => rfl
    | succ m ih => simp [breakAux, hstep, ih, List.replicate_succ]
  · intro fuel
    induction fuel with
    | zero => rfl
    | succ fuel ih => simp [loopAux, hstep, ih]

/-- C08, what holds: whatever the earlier history left in the cursor (`r` is arbitrary), a loop that
runs to the end yields the points from the cursor on, and resets the region so that the following
loop is complete. Missing: independence of the loop that directly follows an abandoned one, which
is false (`C08_abandoned_loop_refuted`, `C08_nested_loop_refuted`). -/
theorem C08_loops_partial (r : RegionObj α) (hg : r.data.WF) :
    ∃ items items' , r.loop = .ok (items, RegionObj.new r.data) ∧
      ItemsOf r.data ((rowMajor r.data.xLen r.data.yLen).drop r.pointIndex) items ∧
      (RegionObj.new r.data).loop = .ok (items', RegionObj.new r.data) ∧
      ItemsOf r.data (rowMajor r.data.xLen r.data.yLen) items' := by
  obtain ⟨items, h1, h2⟩ := r.loop_eq hg
  obtain ⟨items', h3, h4⟩ := (RegionObj.new r.data).loop_eq hg
  refine ⟨items, items', h1, ?_, h3, ?_⟩
  · rw [← pointsFrom_eq_drop]; exact h2
  · simpa [RegionObj.new, pointsFrom_zero] using h4

end Spta
