import Mathlib.Analysis.Real.Sqrt
import Mathlib.Algebra.Order.Field.Rat
import Verif.Lemmas.Distance

/-!
# C36, C37, C57: distance objects
-/

namespace Spta

variable {K : Type}

/-! ### C36 -/

/-- The matrix that a single request establishes. -/
def DistOp.plain (op : DistOp K) : Option (Grid K) := lastPlain [op]

theorem lastPlain_concat (ops : List (DistOp K)) (op : DistOp K) :
    lastPlain (ops ++ [op]) = (op.plain).orElse fun _ => lastPlain ops := by
  induction ops with
  | nil =>
    show lastPlain [op] = _
    unfold DistOp.plain
    cases lastPlain [op] <;> rfl
  | cons o ops ih =>
    show (match lastPlain (ops ++ [op]) with | some g => some g | none => _) = _
    rw [ih]
    cases hp : op.plain with
    | some g => rfl
    | none => rfl

theorem plain_load_fits {g : Grid K} {r : Region} (h : FitsRegion g r) :
    (DistOp.load (.matrix g) r).plain = some g := by
  show (if FitsRegion g r then some g else none) = _
  rw [if_pos h]

theorem plain_load_misfit {g : Grid K} {r : Region} (h : ¬ FitsRegion g r) :
    (DistOp.load (.matrix g) r).plain = none := by
  show (if FitsRegion g r then some g else none) = _
  rw [if_neg h]

theorem loadMatrix2d_fits {g : Grid K} {r : Region} (h : FitsRegion g r) (dm : Option (Grid K)) :
    loadMatrix2d (.matrix g) r dm = (.ok (some g), some g) := by
  have h1 : g.xLen = (r.x2 - r.x1) * (r.y2 - r.y1) := h.1
  have h2 : g.yLen = (r.x2 - r.x1) * (r.y2 - r.y1) := h.2
  simp [loadMatrix2d, h1, h2]

theorem loadMatrix2d_misfit {g : Grid K} {r : Region} (h : ¬ FitsRegion g r)
    (dm : Option (Grid K)) : loadMatrix2d (.matrix g) r dm = (.error .valueError, dm) := by
  have : g.xLen ≠ (r.x2 - r.x1) * (r.y2 - r.y1) ∨ g.yLen ≠ (r.x2 - r.x1) * (r.y2 - r.y1) := by
    by_contra hn
    push Not at hn
    exact h hn
  simp only [loadMatrix2d, if_pos this]

section

variable [CommRing K] {root : Nat → K} {weight : K}

theorem run_concat (d : SpatialDist K) (ops : List (DistOp K)) (op : DistOp K) :
    d.run root (ops ++ [op]) = (d.run root ops).step root op := by
  simp [SpatialDist.run]

theorem run_append (d : SpatialDist K) (ops ops' : List (DistOp K)) :
    d.run root (ops ++ ops') = (d.run root ops).run root ops' := by
  simp [SpatialDist.run]

/-- How the current matrix relates to the plain one. -/
def DistInv (root : Nat → K) (weight : K) (plain : Option (Grid K)) (d : SpatialDist K) : Prop :=
  d.weight = weight ∧
  ((plain = none ∧ d.matrix = none ∧ d.weighted = false) ∨
   ∃ p m, plain = some p ∧ d.matrix = some m ∧ p.WF ∧ p.xLen = p.yLen ∧
    (m = p ∨ (d.weighted = true ∧ ∃ r, FitsRegion p r ∧ WeightedOnce root weight r p m)))

theorem DistInv.weigh (h0 : root 0 = 0) {plain : Option (Grid K)} {d : SpatialDist K}
    (h : DistInv root weight plain d) (r : Region) :
    DistInv root weight plain (d.weigh root r).2 := by
  obtain ⟨hw, h | ⟨p, m, h1, h2, h3, h4, h5⟩⟩ := h
  · have : (d.weigh root r).2 = d := by simp only [SpatialDist.weigh, h.2.1]
    rw [this]; exact ⟨hw, Or.inl h⟩
  · by_cases hd : d.weighted = true
    · have : (d.weigh root r).2 = d := by simp only [SpatialDist.weigh, h2, hd, if_true]
      rw [this]; exact ⟨hw, Or.inr ⟨p, m, h1, h2, h3, h4, h5⟩⟩
    · have hm : m = p := by
        rcases h5 with h5 | h5
        · exact h5
        · exact absurd h5.1 hd
      subst hm
      by_cases hf : FitsRegion m r
      · obtain ⟨m', e1, e2⟩ := weightRows_fits root weight h3 hf
        have : (d.weigh root r).2 = { d with matrix := some m', weighted := true } := by
          simp only [SpatialDist.weigh, h2, hd, hw, e1, if_false, Bool.false_eq_true]
        rw [this]
        exact ⟨hw, Or.inr ⟨m, m', h1, rfl, h3, h4, Or.inr ⟨rfl, r, hf, e2⟩⟩⟩
      · have e := weightRows_misfit root weight h0 h3 h4 hf
        have : (d.weigh root r).2.matrix = some m ∧ (d.weigh root r).2.weight = weight := by
          simp only [SpatialDist.weigh, h2, hd, hw, if_false, Bool.false_eq_true]
          split
          · rename_i heq; rw [heq] at e; simp only at e; simp [e, hw]
          · rename_i heq; rw [heq] at e; simp only at e; simp [e, hw]
        exact ⟨this.2, Or.inr ⟨m, m, h1, this.1, h3, h4, Or.inl rfl⟩⟩

theorem DistInv.step (h0 : root 0 = 0) {plain : Option (Grid K)} {d : SpatialDist K}
    (h : DistInv root weight plain d) {op : DistOp K} (hop : op.OK) :
    DistInv root weight (op.plain.orElse fun _ => plain) (d.step root op) := by
  cases op with
  | weigh r => exact h.weigh h0 r
  | compute o =>
    cases o with
    | error e => exact h
    | ok g => exact ⟨h.1, Or.inr ⟨g, g, rfl, rfl, hop.1, hop.2, Or.inl rfl⟩⟩
  | load file r =>
    cases file with
    | unreadable => exact h.weigh h0 r
    | malformed => exact h
    | otherDims => exact h
    | matrix g =>
      by_cases hf : FitsRegion g r
      · rw [plain_load_fits hf]
        show DistInv root weight (some g) (SpatialDist.load root (.matrix g) r d).2
        rw [SpatialDist.load, loadMatrix2d_fits hf]
        apply DistInv.weigh h0
        exact ⟨h.1, Or.inr ⟨g, g, rfl, rfl, hop, hf.1.trans hf.2.symm, Or.inl rfl⟩⟩
      · rw [plain_load_misfit hf]
        show DistInv root weight plain (SpatialDist.load root (.matrix g) r d).2
        rw [SpatialDist.load, loadMatrix2d_misfit hf]
        exact h

theorem DistInv.run (h0 : root 0 = 0) {plain : Option (Grid K)} {d : SpatialDist K}
    (h : DistInv root weight plain d) :
    ∀ {ops : List (DistOp K)}, (∀ op ∈ ops, op.OK) →
      DistInv root weight ((lastPlain ops).orElse fun _ => plain) (d.run root ops) := by
  intro ops
  induction ops using List.reverseRecOn with
  | nil => intro _; exact h
  | append_singleton ops op ih =>
    intro hops
    have h1 := ih fun o ho => hops o (by simp [ho])
    have h2 := h1.step h0 (hops op (by simp))
    rw [lastPlain_concat, run_concat]
    cases hp : op.plain with
    | some g => rw [hp] at h2; exact h2
    | none => rw [hp] at h2; exact h2

/-- **C36** ("never weighted twice"): whatever the history of requests, the current matrix is the
matrix established last, either as it is or with the weights added exactly once (for a rectangle with
the right number of points). There is a matrix as soon as one was established. -/
theorem C36_never_twice (h0 : root 0 = 0) {ops : List (DistOp K)} (hops : ∀ op ∈ ops, op.OK) :
    (lastPlain ops = none ∧ ((SpatialDist.new weight).run root ops).matrix = none) ∨
    ∃ p m, lastPlain ops = some p ∧ ((SpatialDist.new weight).run root ops).matrix = some m ∧
      (m = p ∨ ∃ r, FitsRegion p r ∧ WeightedOnce root weight r p m) := by
  have h : DistInv root weight none (SpatialDist.new weight) := ⟨rfl, Or.inl ⟨rfl, rfl, rfl⟩⟩
  obtain ⟨_, h | ⟨p, m, h1, h2, _, _, h5⟩⟩ := h.run h0 hops
  · left
    refine ⟨?_, h.2.1⟩
    have := h.1
    cases hl : lastPlain ops with
    | none => rfl
    | some g => rw [hl] at this; cases this
  · right
    refine ⟨p, m, ?_, h2, ?_⟩
    · cases hl : lastPlain ops with
      | none => rw [hl] at h1; cases h1
      | some g => rw [hl] at h1; exact h1
    · rcases h5 with h5 | ⟨_, h5⟩
      · exact Or.inl h5
      · exact Or.inr h5

/-- **C36** ("with weight 0 it equals the plain matrix"), for every history. -/
theorem C36_weight_zero (h0 : root 0 = 0) {ops : List (DistOp K)} (hops : ∀ op ∈ ops, op.OK) :
    ((SpatialDist.new (0 : K)).run root ops).matrix = lastPlain ops := by
  have h : DistInv root (0 : K) none (SpatialDist.new 0) := ⟨rfl, Or.inl ⟨rfl, rfl, rfl⟩⟩
  rcases C36_never_twice (weight := 0) h0 hops with ⟨h1, h2⟩ | ⟨p, m, h1, h2, h3⟩
  · rw [h1, h2]
  · rw [h1, h2]
    rcases h3 with rfl | ⟨r, hf, hw, hx, hy, hg⟩
    · rfl
    · obtain ⟨_, h | ⟨p', m', e1, e2, e3, e4, _⟩⟩ := h.run h0 hops
      · rw [h.2.1] at h2; cases h2
      · rw [h1] at e1; cases e1
        congr 1
        apply Grid.ext_get hw e3 hx hy
        intro c hcx hcy
        rw [hx, hf.1] at hcx
        rw [hy, hf.2] at hcy
        obtain ⟨v, a1, a2⟩ := hg ⟨c.x / (r.y2 - r.y1), c.x % (r.y2 - r.y1)⟩
          ⟨c.y / (r.y2 - r.y1), c.y % (r.y2 - r.y1)⟩ (div_lt_of_lt_mul' hcx) (mod_lt_of_lt_mul hcx)
          (div_lt_of_lt_mul' hcy) (mod_lt_of_lt_mul hcy)
        simp only [idx_of_div_mod, zero_mul, add_zero] at a1 a2
        rw [a1, a2]

/-- Once weighted, requests that establish no matrix change nothing. -/
theorem run_frozen {d : SpatialDist K} {m : Grid K} (hm : d.matrix = some m)
    (hw : d.weighted = true) :
    ∀ {ops : List (DistOp K)}, lastPlain ops = none → d.run root ops = d := by
  intro ops
  induction ops using List.reverseRecOn with
  | nil => intro _; rfl
  | append_singleton ops op ih =>
    intro hl
    rw [lastPlain_concat] at hl
    have hp : op.plain = none := by
      cases hp : op.plain with
      | none => rfl
      | some g => rw [hp] at hl; cases hl
    rw [hp] at hl
    rw [run_concat, ih hl]
    have hweigh : ∀ r, (d.weigh root r).2 = d := fun r => by
      simp only [SpatialDist.weigh, hm, hw, if_true]
    cases op with
    | weigh r => exact hweigh r
    | compute o =>
      cases o with
      | error e => rfl
      | ok g => cases hp
    | load file r =>
      cases file with
      | unreadable => exact hweigh r
      | malformed => rfl
      | otherDims => rfl
      | matrix g =>
        by_cases hf : FitsRegion g r
        · rw [plain_load_fits hf] at hp; cases hp
        · show (SpatialDist.load root (.matrix g) r d).2 = d
          rw [SpatialDist.load, loadMatrix2d_misfit hf]

/-- **C36** (partial: the claim is for all histories). If the only matrix of the history is that of
one load, whatever failed loads and computations and whatever weight requests come before and after,
the current matrix is the plain matrix plus weight times the Euclidean distances. -/
theorem C36_one_load_partial (h0 : root 0 = 0) {pre post : List (DistOp K)} {g : Grid K} {r : Region}
    (hpre : ∀ op ∈ pre, op.OK) (hg : g.WF) (hf : FitsRegion g r) (h1 : lastPlain pre = none)
    (h2 : lastPlain post = none) :
    ∃ m, ((SpatialDist.new weight).run root (pre ++ [.load (.matrix g) r] ++ post)).matrix = some m ∧
      WeightedOnce root weight r g m := by
  have h : DistInv root weight none (SpatialDist.new weight) := ⟨rfl, Or.inl ⟨rfl, rfl, rfl⟩⟩
  have h := h.run h0 hpre
  rw [h1] at h
  obtain ⟨hw, h | ⟨p, m, e1, _⟩⟩ := h
  swap
  · cases e1
  obtain ⟨m', e1, e2⟩ := weightRows_fits root weight hg hf
  have : ((SpatialDist.new weight).run root pre).step root (.load (.matrix g) r) =
      ⟨some m', weight, true⟩ := by
    show (SpatialDist.load root (.matrix g) r _).2 = _
    rw [SpatialDist.load, loadMatrix2d_fits hf]
    simp only [SpatialDist.weigh, h.2.2, hw, e1, if_false, Bool.false_eq_true]
  refine ⟨m', ?_, e2⟩
  rw [run_append, run_concat, this, run_frozen (m := m') rfl rfl h2]

/-- **C36** (partial, likewise) for a computed matrix followed by a request to weight it. -/
theorem C36_computed_partial (h0 : root 0 = 0) {pre post : List (DistOp K)} {g : Grid K} {r : Region}
    (hpre : ∀ op ∈ pre, op.OK) (hg : g.WF) (hf : FitsRegion g r) (h1 : lastPlain pre = none)
    (h2 : lastPlain post = none) :
    ∃ m, ((SpatialDist.new weight).run root (pre ++ [.compute (.ok g)] ++ [.weigh r] ++ post)).matrix =
        some m ∧ WeightedOnce root weight r g m := by
  have h : DistInv root weight none (SpatialDist.new weight) := ⟨rfl, Or.inl ⟨rfl, rfl, rfl⟩⟩
  have h := h.run h0 hpre
  rw [h1] at h
  obtain ⟨hw, h | ⟨p, m, e1, _⟩⟩ := h
  swap
  · cases e1
  obtain ⟨m', e1, e2⟩ := weightRows_fits root weight hg hf
  have : (((SpatialDist.new weight).run root pre).step root (.compute (.ok g))).step root (.weigh r) =
      ⟨some m', weight, true⟩ := by
    show (SpatialDist.weigh root r (SpatialDist.compute (.ok g) _).2).2 = _
    simp only [SpatialDist.compute, SpatialDist.weigh, h.2.2, hw, e1, if_false, Bool.false_eq_true]
  refine ⟨m', ?_, e2⟩
  rw [run_append, run_concat, run_concat, this, run_frozen (m := m') rfl rfl h2]

/-- What happens otherwise: when the object has already weighted a matrix, a further load leaves the
new matrix without weights, and no later weight request changes that. -/
theorem C36_reload_unweighted {d : SpatialDist K} (hw : d.weighted = true) {g : Grid K} {r : Region}
    (hf : FitsRegion g r) {post : List (DistOp K)} (h2 : lastPlain post = none) :
    (d.run root (.load (.matrix g) r :: post)).matrix = some g := by
  have : d.step root (.load (.matrix g) r) = { d with matrix := some g } := by
    show (SpatialDist.load root (.matrix g) r d).2 = _
    rw [SpatialDist.load, loadMatrix2d_fits hf]
    simp only [SpatialDist.weigh, hw, if_true]
  have e : d.run root (.load (.matrix g) r :: post) = (d.step root (.load (.matrix g) r)).run root
      post := by simp [SpatialDist.run]
  rw [e, this]
  exact congrArg SpatialDist.matrix (run_frozen (d := { d with matrix := some g }) (m := g) rfl hw h2)

end

/-- The root used by the code. -/
noncomputable def realRoot (n : Nat) : Real := Real.sqrt n

/-- The norm of the difference of two grid points is their Euclidean distance. -/
theorem realRoot_sqDist (p q : Point) :
    realRoot (sqDist p q) = Real.sqrt (((p.x : Real) - q.x) ^ 2 + ((p.y : Real) - q.y) ^ 2) := by
  unfold realRoot sqDist
  congr 1
  have h : ∀ a b : Nat, ((((a : Int) - b).natAbs : Nat) : Real) ^ 2 = ((a : Real) - b) ^ 2 := by
    intro a b
    have h1 := Int.natAbs_sq ((a : Int) - b)
    have h2 : ((((a : Int) - b).natAbs : Int) : Real) ^ 2 = (((a : Int) - b : Int) : Real) ^ 2 := by
      exact_mod_cast congrArg (Int.cast : Int → Real) h1
    push_cast at h2
    simpa using h2
  push_cast
  rw [h, h]

/-- **C36** is refuted: for every weight other than 0, loading the same file twice leaves a matrix
without the weights. -/
theorem C36_refuted (weight : Real) (hw : weight ≠ 0) :
    ∃ (ops : List (DistOp Real)) (g m : Grid Real) (r : Region), (∀ op ∈ ops, op.OK) ∧
      lastPlain ops = some g ∧ FitsRegion g r ∧
      ((SpatialDist.new weight).run realRoot ops).matrix = some m ∧
      ¬ WeightedOnce realRoot weight r g m := by
  have h0 : realRoot 0 = 0 := by simp [realRoot]
  let g : Grid Real := ⟨2, 2, [0, 5, 5, 0]⟩
  let r : Region := ⟨0, 1, 0, 2⟩
  have hf : FitsRegion g r := ⟨rfl, rfl⟩
  have hg : g.WF := rfl
  have hok : ∀ op ∈ [DistOp.load (.matrix g) r], op.OK := by
    intro op h
    simp only [List.mem_singleton] at h
    subst h
    exact hg
  refine ⟨[.load (.matrix g) r, .load (.matrix g) r], g, g, r, ?_, ?_, hf, ?_, ?_⟩
  · intro op h
    simp only [List.mem_cons, List.not_mem_nil, or_false, or_self] at h
    subst h
    exact hg
  · have := lastPlain_concat [.load (.matrix g) r] (.load (.matrix g) r)
    rw [plain_load_fits hf] at this
    exact this
  · have h1 : ((SpatialDist.new weight).run realRoot [.load (.matrix g) r]).weighted = true := by
      obtain ⟨m', e1, e2⟩ := weightRows_fits realRoot weight hg hf
      show (SpatialDist.load realRoot (.matrix g) r (SpatialDist.new weight)).2.weighted = true
      rw [SpatialDist.load, loadMatrix2d_fits hf]
      simp only [SpatialDist.weigh, SpatialDist.new, e1, if_false, Bool.false_eq_true]
    have := C36_reload_unweighted (root := realRoot) h1 hf (post := []) rfl
    exact this
  · rintro ⟨_, _, _, h⟩
    obtain ⟨v, h1, h2⟩ := h ⟨0, 0⟩ ⟨0, 1⟩ (by decide) (by decide) (by decide) (by decide)
    rw [h1] at h2
    simp only [Except.ok.injEq] at h2
    have : weight * realRoot (sqDist ⟨0, 0⟩ ⟨0, 1⟩) = 0 := by linarith
    rw [realRoot_sqDist] at this
    simp at this
    exact hw this

/-- A 1 x 3 region with weight 10: the first load adds 10 times the distances, also when the first
attempt to load failed and a weight request follows. -/
example :
    let g : Grid Rat := ⟨3, 3, [0, 1, 2, 1, 0, 4, 2, 4, 0]⟩
    let ops : List (DistOp Rat) :=
      [.load .unreadable ⟨4, 5, 2, 5⟩, .load (.matrix g) ⟨4, 5, 2, 5⟩, .weigh ⟨4, 5, 2, 5⟩]
    ((SpatialDist.new (10 : Rat)).run (fun n : Nat => if n = 4 then (2 : Rat) else n) ops).matrix =
      some ⟨3, 3, [0, 11, 22, 11, 0, 14, 22, 14, 0]⟩ := by decide +kernel

/-! ### C37 -/

/-- **C37**: loading leaves a matrix with one row and column per point, reports None (and changes
nothing) when the file cannot be read, and raises ValueError (and changes nothing) otherwise. -/
theorem C37_load (file : MatrixFile K) (r : Region) (dm : Option (Grid K)) :
    (∃ g, file = .matrix g ∧ FitsRegion g r ∧ loadMatrix2d file r dm = (.ok (some g), some g)) ∨
    (file = .unreadable ∧ loadMatrix2d file r dm = (.ok none, dm)) ∨
    (file ≠ .unreadable ∧ (∀ g, file = .matrix g → ¬ FitsRegion g r) ∧
      loadMatrix2d file r dm = (.error .valueError, dm)) := by
  cases file with
  | unreadable => exact Or.inr (Or.inl ⟨rfl, rfl⟩)
  | malformed => exact Or.inr (Or.inr ⟨by simp, by simp, rfl⟩)
  | otherDims => exact Or.inr (Or.inr ⟨by simp, by simp, rfl⟩)
  | matrix g =>
    by_cases hf : FitsRegion g r
    · exact Or.inl ⟨g, rfl, hf, loadMatrix2d_fits hf dm⟩
    · refine Or.inr (Or.inr ⟨by simp, ?_, loadMatrix2d_misfit hf dm⟩)
      intro g' h; cases h; exact hf

example : loadMatrix2d (.matrix (⟨2, 2, [0, 1, 1, 0]⟩ : Grid Rat)) ⟨5, 7, 3, 4⟩ none =
    (.ok (some ⟨2, 2, [0, 1, 1, 0]⟩), some ⟨2, 2, [0, 1, 1, 0]⟩) ∧
    loadMatrix2d (.matrix (⟨2, 2, [0, 1, 1, 0]⟩ : Grid Rat)) ⟨5, 7, 3, 5⟩ none =
      (.error .valueError, none) := by decide +kernel

/-- **C37** for the spatial distance (partial: it does not report None). A load either leaves a matrix
that fits, or raises ValueError without any change, or – the file being unreadable – keeps the old
matrix if there is one. -/
theorem C37_load_spatial_partial [CommRing K] (root : Nat → K) (file : MatrixFile K) (r : Region)
    {d : SpatialDist K} (hfile : ∀ g, file = .matrix g → g.WF) :
    (∃ g m, file = .matrix g ∧ FitsRegion g r ∧ (SpatialDist.load root file r d).1 = .ok (some m) ∧
      (SpatialDist.load root file r d).2.matrix = some m ∧ FitsRegion m r) ∨
    ((SpatialDist.load root file r d).1 = .error .valueError ∧
      (SpatialDist.load root file r d).2 = d ∧ ∀ g, file = .matrix g → ¬ FitsRegion g r) ∨
    (file = .unreadable ∧ d.matrix ≠ none) := by
  cases file with
  | unreadable =>
    cases hm : d.matrix with
    | none => exact Or.inr (Or.inl (by
        refine ⟨?_, ?_, by simp⟩ <;> simp only [SpatialDist.load, loadMatrix2d, hm, SpatialDist.weigh]
        rw [← hm]))
    | some m => exact Or.inr (Or.inr ⟨rfl, by simp⟩)
  | malformed => exact Or.inr (Or.inl ⟨rfl, rfl, by simp⟩)
  | otherDims => exact Or.inr (Or.inl ⟨rfl, rfl, by simp⟩)
  | matrix g =>
    by_cases hf : FitsRegion g r
    · left
      by_cases hw : d.weighted = true
      · have : SpatialDist.load root (.matrix g) r d = (.ok (some g), { d with matrix := some g }) := by
          rw [SpatialDist.load, loadMatrix2d_fits hf]
          simp only [SpatialDist.weigh, hw, if_true]
        rw [this]
        exact ⟨g, g, rfl, hf, rfl, rfl, hf⟩
      · obtain ⟨m', e1, e2⟩ := weightRows_fits root d.weight (hfile g rfl) hf
        have : SpatialDist.load root (.matrix g) r d =
            (.ok (some m'), { d with matrix := some m', weighted := true }) := by
          rw [SpatialDist.load, loadMatrix2d_fits hf]
          simp only [SpatialDist.weigh, hw, if_false, Bool.false_eq_true, e1]
        rw [this]
        exact ⟨g, m', rfl, hf, rfl, rfl, e2.2.1.trans hf.1, e2.2.2.1.trans hf.2⟩
    · right; left
      rw [SpatialDist.load, loadMatrix2d_misfit hf]
      exact ⟨rfl, rfl, fun g' h => by cases h; exact hf⟩

/-- **C37** is refuted for the spatial distance: with an unreadable file it raises ValueError instead
of reporting None. -/
theorem C37_load_spatial_refuted [CommRing K] (root : Nat → K) (weight : K) (r : Region) :
    (SpatialDist.load root .unreadable r (SpatialDist.new weight)).1 = .error .valueError := rfl

section

variable {σ : Type} {matrixOf : σ → Option (Grid K)}
  {load : MatrixFile K → Region → σ → Except PyErr (Option (Grid K)) × σ}
  {compute : σ → Except PyErr (Option (Grid K)) × σ}
  {md : Option (MatrixFile K × Region)} {yLen : Nat} {p : Point} {indices : List Nat}

theorem distancesWithMatrix_ok {o : Option (Grid K)} {ds : List K}
    (h : distancesWithMatrix o yLen p indices = .ok ds) :
    ∃ m, o = some m ∧ List.Forall₂ (fun j v => m.get ⟨p.x * yLen + p.y, j⟩ = .ok v) indices ds := by
  cases o with
  | none => cases h
  | some m => exact ⟨m, rfl, mapM_eq_ok.1 h⟩

/-- **C37**: whatever `distances_to_point` returns are, for the requested indices in order, the entries
of the row of the point in the matrix that the object then holds; for any class of distances. -/
theorem C37_distances {useMatrix only : Bool} {d d' : σ} {ds : List K}
    (h : distancesToPoint matrixOf load compute md yLen p indices useMatrix only d = (.ok ds, d')) :
    useMatrix = true ∧ ∃ m, matrixOf d' = some m ∧ ds.length = indices.length ∧
      ∀ n j : Nat, indices[n]? = some j → ∃ v, ds[n]? = some v ∧
        m.get ⟨p.x * yLen + p.y, j⟩ = .ok v := by
  have key : ∀ {o : Option (Grid K)}, distancesWithMatrix o yLen p indices = .ok ds →
      ∃ m, o = some m ∧ ds.length = indices.length ∧
      ∀ n j : Nat, indices[n]? = some j → ∃ v, ds[n]? = some v ∧
        m.get ⟨p.x * yLen + p.y, j⟩ = .ok v := by
    intro o ho
    obtain ⟨m, h1, h2⟩ := distancesWithMatrix_ok ho
    exact ⟨m, h1, h2.length_eq.symm, fun n j hn => Forall₂.getElem? h2 hn⟩
  cases useMatrix with
  | false => simp [distancesToPoint] at h
  | true =>
    refine ⟨rfl, ?_⟩
    simp only [distancesToPoint, Bool.not_true, Bool.false_eq_true, if_false] at h
    split at h
    · rename_i m hm
      simp only [Prod.mk.injEq] at h
      obtain ⟨h1, rfl⟩ := h
      rw [hm]; exact key h1
    · split at h
      · simp only [Prod.mk.injEq] at h
        obtain ⟨h1, rfl⟩ := h
        exact key h1
      · split at h
        · simp at h
        · split at h
          · simp at h
          · simp only [Prod.mk.injEq] at h
            obtain ⟨h1, rfl⟩ := h
            exact key h1

/-- **C37**: with a matrix that fits the region, the distances are obtained for every point of the
region and every list of point indices, and the object does not change. -/
theorem C37_distances_total {d : σ} {m : Grid K} {r : Region} (hm : matrixOf d = some m) (hwf : m.WF)
    (hf : FitsRegion m r) (hyl : yLen = r.y2 - r.y1) (hx : p.x < r.x2 - r.x1) (hy : p.y < yLen)
    (hi : ∀ j ∈ indices, j < r.points) (only : Bool) :
    ∃ ds, distancesToPoint matrixOf load compute md yLen p indices true only d = (.ok ds, d) := by
  have hrow : p.x * yLen + p.y < m.xLen := by
    subst hyl; rw [hf.1]; exact idx_lt hx hy
  have : ∃ ds, indices.mapM (fun j => m.get ⟨p.x * yLen + p.y, j⟩) = .ok ds := by
    have hv : ∀ j ∈ indices, ∃ v, m.get ⟨p.x * yLen + p.y, j⟩ = .ok v := fun j hj =>
      m.exists_get hwf (p := ⟨p.x * yLen + p.y, j⟩) hrow (by rw [hf.2]; exact hi j hj)
    clear hi
    induction indices with
    | nil => exact ⟨[], rfl⟩
    | cons j js ih =>
      obtain ⟨v, hv1⟩ := hv j (by simp)
      obtain ⟨vs, hvs⟩ := ih fun j hj => hv j (by simp [hj])
      exact ⟨v :: vs, by rw [List.mapM_cons, hv1, hvs]; rfl⟩
  obtain ⟨ds, hds⟩ := this
  refine ⟨ds, ?_⟩
  simp only [distancesToPoint, Bool.not_true, Bool.false_eq_true, if_false, hm, distancesWithMatrix,
    distancesToPointWithMatrix, hds]

/-- Distances from the point (1, 0) of a 2 x 2 region to the points with indices 3 and 0. -/
example : distancesToPoint (σ := Option (Grid Nat)) id loadMatrix2d (plainCompute (.error .valueError))
    (some (.matrix (Grid.ofFn 4 4 fun i j => 10 * i + j), ⟨3, 5, 1, 3⟩)) 2 ⟨1, 0⟩ [3, 0] true true
    none = (.ok [23, 20], some (Grid.ofFn 4 4 fun i j => 10 * i + j)) := by decide +kernel

/-! ### C57 -/

/-- **C57** (partial: the claim is for every reason for which no saved matrix is available). Without
metadata, or with a file that holds no fitting matrix but can be read, the matrix is calculated and
used (for the plain distance). -/
theorem C57_calculated_partial {md : Option (MatrixFile K × Region)} {m : Grid K}
    (h : md = none ∨ ∃ file r, md = some (file, r) ∧ file ≠ .unreadable ∧
      ∀ g, file = .matrix g → ¬ FitsRegion g r) :
    distancesToPoint (σ := Option (Grid K)) id loadMatrix2d (plainCompute (.ok m)) md yLen p indices
      true false none = (distancesToPointWithMatrix m yLen p indices, some m) := by
  rcases h with rfl | ⟨file, r, rfl, h1, h2⟩
  · rfl
  · rcases C37_load file r (none : Option (Grid K)) with ⟨g, e1, e2, _⟩ | ⟨e1, _⟩ | ⟨_, _, e⟩
    · exact absurd e2 (h2 g e1)
    · exact absurd e1 h1
    · simp only [distancesToPoint, Bool.not_true, Bool.false_eq_true, if_false, id, loadMd, e,
        plainCompute, distancesWithMatrix]

/-- **C57** is refuted: when the file of the matrix is missing (the usual case) the plain distance
calculates nothing and fails an assertion. -/
theorem C57_missing_file_refuted {r : Region} {outcome : Except PyErr (Grid K)} :
    distancesToPoint (σ := Option (Grid K)) id loadMatrix2d (plainCompute outcome)
      (some (.unreadable, r)) yLen p indices true false none = (.error .assertionError, none) := rfl

/-- **C57** (trying): without metadata nothing is loaded and nothing changes; with metadata a matrix that fits is loaded,
and a file that cannot be read is no matrix. -/
theorem C57_try (r : Region) (dm : Option (Grid K)) :
    tryLoad loadMatrix2d none dm = (.ok none, dm) ∧
    (∀ g : Grid K, FitsRegion g r → tryLoad loadMatrix2d (some (.matrix g, r)) dm = (.ok (some g), some g)) ∧
    (∀ g : Grid K, ¬ FitsRegion g r → tryLoad loadMatrix2d (some (.matrix g, r)) dm = (.error .valueError, dm)) ∧
    tryLoad loadMatrix2d (some (.unreadable, r)) dm = (.ok none, dm) :=
  ⟨rfl, fun _ h => loadMatrix2d_fits h dm, fun _ h => loadMatrix2d_misfit h dm, rfl⟩

example : tryLoad loadMatrix2d (some (.matrix (⟨2, 2, [0, 1, 1, 0]⟩ : Grid ℚ), ⟨5, 7, 3, 4⟩)) none =
    (.ok (some ⟨2, 2, [0, 1, 1, 0]⟩), some ⟨2, 2, [0, 1, 1, 0]⟩) ∧
    tryLoad loadMatrix2d none (some (⟨2, 2, [0, 1, 1, 0]⟩ : Grid ℚ)) = (.ok none, some ⟨2, 2, [0, 1, 1, 0]⟩) := by
  decide +kernel

/-- **C57** for the spatial distance: there the missing file is noticed and the matrix is calculated,
but it is used without weights. -/
theorem C57_spatial [CommRing K] {root : Nat → K} {weight : K} {r : Region} {m : Grid K} :
    distancesToPoint (SpatialDist.matrix) (SpatialDist.load root)
      (SpatialDist.compute (.ok m)) (some (.unreadable, r)) yLen p indices true false
      (SpatialDist.new weight) =
      (distancesToPointWithMatrix m yLen p indices, ⟨some m, weight, false⟩) := rfl

end

end Spta
