import Verif.Spec.QueryFigure
import Verif.Props.SolverFiles
import Verif.Props.Silhouette
import Mathlib.Algebra.Order.Floor.Ring

/-!
# C134: the figure of a query
-/

namespace Spta

section

variable {K : Type} [Field K] [LinearOrder K] {C : Type} [DecidableEq C]

theorem mapColours_get {cmap : K → C} {g : Grid Nat} {m : Grid C} (h : mapColours cmap g = .ok m) :
    m.xLen = g.xLen ∧ m.yLen = g.yLen ∧ ∃ top, top ∈ g.data ∧ (∀ l ∈ g.data, l ≤ top) ∧
      m.data = g.data.map fun l : Nat => cmap ((l : K) / ((top + 1 : Nat) : K)) := by
  unfold mapColours clusterColours at h
  cases ht : g.data.max? with
  | none => rw [ht] at h; cases h
  | some top =>
    rw [ht] at h
    cases h
    have := List.max?_eq_some_iff.1 ht
    exact ⟨rfl, rfl, top, this.1, this.2, by simp [Function.comp_def]⟩

theorem grid_map_get {A B : Type} (f : A → B) (g : Grid A) (p : Point) :
    (⟨g.xLen, g.yLen, g.data.map f⟩ : Grid B).get p = (g.get p).map f := by
  unfold Grid.get
  simp only [List.getElem?_map]
  split
  · cases g.data[p.x * g.yLen + p.y]? <;> rfl
  · rfl

theorem figureMarks_spec (black : C) (m : Grid C) (ps : List Point) :
    (∀ ms, figureMarks black m ps = .ok ms ↔ List.Forall₂ (fun (p : Point) (k : FigureMark) =>
      k.horizontal = p.y ∧ k.vertical = p.x ∧ ∃ c, m.get p = .ok c ∧ (k.white = true ↔ c = black)) ps ms) ∧
    (∀ e, figureMarks black m ps = .error e ↔ e = .indexError ∧ ∃ p ∈ ps, m.get p = .error .indexError) := by
  have hget : ∀ p e, m.get p = .error e → e = .indexError := by
    intro p e h
    unfold Grid.get at h
    split at h
    · split at h
      · cases h
      · cases h; rfl
    · cases h; rfl
  induction ps with
  | nil =>
    refine ⟨fun ms => ?_, fun e => ?_⟩
    · simp only [figureMarks, Except.ok.injEq, List.forall₂_nil_left_iff]
      exact eq_comm
    · simp [figureMarks]
  | cons p ps ih =>
    unfold figureMarks
    cases hp : m.get p with
    | error e' =>
      have he := hget p e' hp
      subst he
      refine ⟨fun ms => ?_, fun e => ?_⟩
      · simp only [reduceCtorEq, false_iff]
        intro h
        cases h with
        | cons h _ =>
          obtain ⟨_, _, c, hc, _⟩ := h
          rw [hp] at hc
          cases hc
      · simp only [Except.error.injEq]
        constructor
        · rintro rfl
          exact ⟨rfl, p, List.mem_cons_self .., hp⟩
        · rintro ⟨rfl, _⟩
          rfl
    | ok c =>
      cases hr : figureMarks black m ps with
      | error e' =>
        obtain ⟨rfl, q, hq, hq'⟩ := (ih.2 e').1 hr
        refine ⟨fun ms => ?_, fun e => ?_⟩
        · simp only [reduceCtorEq, false_iff]
          intro h
          cases h with
          | cons _ h =>
            rw [(ih.1 _).2 h] at hr
            cases hr
        · simp only [Except.error.injEq]
          constructor
          · rintro rfl
            exact ⟨rfl, q, List.mem_cons_of_mem _ hq, hq'⟩
          · rintro ⟨rfl, _⟩
            rfl
      | ok rest =>
        refine ⟨fun ms => ?_, fun e => ?_⟩
        · simp only [Except.ok.injEq]
          constructor
          · rintro rfl
            exact .cons ⟨rfl, rfl, c, hp, by simp⟩ ((ih.1 _).1 hr)
          · intro h
            cases h with
            | @cons _ k _ ks h1 h2 =>
              have h3 := (ih.1 _).2 h2
              rw [hr] at h3
              cases h3
              obtain ⟨k1, k2, c', hc', k3⟩ := h1
              rw [hp] at hc'
              cases hc'
              have : decide (c = black) = k.white := by
                rw [Bool.eq_iff_iff, k3]; simp
              cases k
              simp_all
        · simp only [reduceCtorEq, false_iff]
          rintro ⟨_, q, hq, hq'⟩
          rcases List.mem_cons.1 hq with rfl | hq
          · rw [hp] at hq'; cases hq'
          · rw [(ih.2 .indexError).2 ⟨rfl, q, hq, hq'⟩] at hr
            cases hr

/-- **C134**: the figure of a query is drawn unless the partition is empty (ValueError) or a medoid is outside of
it (IndexError). -/
theorem C134_drawn (cmap : K → C) (black : C) (clustering : ClusterMeta) (md : Region) {pt : Partition}
    (hwf : pt.labels.WF) (medoids : List Point) (r : Region) :
    (∀ e, queryFigure cmap black clustering md pt (some medoids) r = .error e ↔
      (e = .valueError ∧ (pt.labels.xLen = 0 ∨ pt.labels.yLen = 0)) ∨
      (e = .indexError ∧ pt.labels.xLen ≠ 0 ∧ pt.labels.yLen ≠ 0 ∧
        ∃ p ∈ medoids, ¬ (p.x < pt.labels.xLen ∧ p.y < pt.labels.yLen))) := by
  intro e
  have h0 : pt.labels.data = [] ↔ (pt.labels.xLen = 0 ∨ pt.labels.yLen = 0) := by
    rw [← List.length_eq_zero_iff, hwf, Nat.mul_eq_zero]
  unfold queryFigure
  cases hm : mapColours cmap pt.labels with
  | error e' =>
    have : pt.labels.data.max? = none ∧ e' = .valueError := by
      unfold mapColours clusterColours at hm
      cases ht : pt.labels.data.max? with
      | none => rw [ht] at hm; cases hm; exact ⟨rfl, rfl⟩
      | some top => rw [ht] at hm; cases hm
    obtain ⟨h1, rfl⟩ := this
    have h2 := h0.1 (List.max?_eq_none_iff.1 h1)
    simp only [Except.error.injEq]
    constructor
    · rintro rfl; exact .inl ⟨rfl, h2⟩
    · rintro (⟨rfl, _⟩ | ⟨_, h3, h4, _⟩)
      · rfl
      · exact absurd h2 (by simp [h3, h4])
  | ok m =>
    obtain ⟨hx, hy, top, ht, _, hd⟩ := mapColours_get hm
    have hne : ¬ (pt.labels.xLen = 0 ∨ pt.labels.yLen = 0) := by
      rw [← h0]; rintro h; rw [h] at ht; cases ht
    have hin : ∀ p : Point, m.get p = .error .indexError ↔ ¬ (p.x < pt.labels.xLen ∧ p.y < pt.labels.yLen) := by
      intro p
      unfold Grid.get
      rw [hx, hy]
      split
      · rename_i hp
        have hlt : p.x * pt.labels.yLen + p.y < pt.labels.data.length := by
          rw [hwf]
          have := Nat.mul_le_mul_right pt.labels.yLen (Nat.succ_le_of_lt hp.1)
          rw [Nat.succ_mul] at this
          omega
        rw [hd, List.getElem?_map, List.getElem?_eq_getElem hlt]
        simp [hp]
      · rename_i hp
        simp only [true_iff]
        exact hp
    simp only [Option.getD_some]
    cases hk : figureMarks black m medoids with
    | error e' =>
      obtain ⟨rfl, q, hq, hq'⟩ := ((figureMarks_spec black m medoids).2 e').1 hk
      simp only [Except.error.injEq]
      constructor
      · rintro rfl
        exact .inr ⟨rfl, fun h => hne (.inl h), fun h => hne (.inr h), q, hq, (hin q).1 hq'⟩
      · rintro (⟨_, h⟩ | ⟨rfl, _⟩)
        · exact absurd h hne
        · rfl
    | ok ms =>
      simp only [reduceCtorEq, false_iff]
      rintro (⟨_, h⟩ | ⟨_, _, _, q, hq, hq'⟩)
      · exact hne h
      · rw [((figureMarks_spec black m medoids).2 .indexError).2 ⟨rfl, q, hq, (hin q).2 hq'⟩] at hk
        cases hk

/-- **C134**: on the map of the figure, the points of a cluster have the same colour, and the points of different
clusters have different colours if the colour map distinguishes the values from 0 to 1 (1 excluded). -/
theorem C134_map [IsStrictOrderedRing K] {cmap : K → C} {black : C} {clustering : ClusterMeta} {md : Region}
    {pt : Partition} {medoids : Option (List Point)} {r : Region} {fig : QueryFigure K C}
    (h : queryFigure cmap black clustering md pt medoids r = .ok fig) :
    fig.colours.xLen = pt.labels.xLen ∧ fig.colours.yLen = pt.labels.yLen ∧
    (∀ p l, pt.labels.get p = .ok l → ∃ c, fig.colours.get p = .ok c) ∧
    ∀ p q l l' c c', pt.labels.get p = .ok l → pt.labels.get q = .ok l' → fig.colours.get p = .ok c →
      fig.colours.get q = .ok c' → (l = l' → c = c') ∧
      ((∀ a b : K, 0 ≤ a → a < 1 → 0 ≤ b → b < 1 → cmap a = cmap b → a = b) → c = c' → l = l') := by
  unfold queryFigure at h
  cases hm : mapColours cmap pt.labels with
  | error e => rw [hm] at h; cases h
  | ok m =>
    rw [hm] at h
    simp only at h
    split at h
    · cases h
    cases h
    obtain ⟨hx, hy, top, ht, hle, hd⟩ := mapColours_get hm
    have hg : ∀ p, m.get p = (pt.labels.get p).map fun l : Nat => cmap ((l : K) / ((top + 1 : Nat) : K)) := by
      intro p
      rw [← grid_map_get]
      cases m
      simp only at hx hy hd
      rw [hx, hy, hd]
    have hmem : ∀ p l, pt.labels.get p = .ok l → l ≤ top := by
      intro p l hl
      refine hle l ?_
      unfold Grid.get at hl
      split at hl
      · split at hl
        · rename_i v hv
          cases hl
          exact List.mem_of_getElem? hv
        · cases hl
      · cases hl
    have hpos : (0 : K) < ((top + 1 : Nat) : K) := Nat.cast_pos.2 (Nat.succ_pos _)
    refine ⟨hx, hy, fun p l hl => ⟨_, by rw [hg, hl]; rfl⟩, fun p q l l' c c' hl hl' hc hc' => ?_⟩
    rw [hg, hl] at hc
    rw [hg, hl'] at hc'
    cases hc
    cases hc'
    refine ⟨fun e => by rw [e], fun hinj e => ?_⟩
    have hb : ∀ l ≤ top, (0 : K) ≤ (l : K) / ((top + 1 : Nat) : K) ∧ (l : K) / ((top + 1 : Nat) : K) < 1 := by
      intro l hl
      refine ⟨div_nonneg (Nat.cast_nonneg _) hpos.le, (div_lt_one hpos).2 (Nat.cast_lt.2 (by omega))⟩
    have h1 := hb l (hmem p l hl)
    have h2 := hb l' (hmem q l' hl')
    have := hinj _ _ h1.1 h1.2 h2.1 h2.2 e
    rw [div_left_inj' hpos.ne'] at this
    exact_mod_cast this

/-- **C134**: the medoids are marked, in their order, each in its own square and no other one, with a symbol of
another colour than the square. -/
theorem C134_marks [IsStrictOrderedRing K] {cmap : K → C} {black white : C} (hbw : black ≠ white)
    {clustering : ClusterMeta} {md : Region} {pt : Partition} {medoids : List Point}
    {r : Region} {fig : QueryFigure K C}
    (h : queryFigure cmap black clustering md pt (some medoids) r = .ok fig) :
    List.Forall₂ (fun p k =>
      (∀ q, InSquare q ((k.horizontal : Nat) : K) ((k.vertical : Nat) : K) ↔ q = p) ∧
      ∃ c, fig.colours.get p = .ok c ∧ c ≠ if k.white then white else black) medoids fig.marks := by
  unfold queryFigure at h
  cases hm : mapColours cmap pt.labels with
  | error e => rw [hm] at h; cases h
  | ok m =>
    rw [hm] at h
    simp only [Option.getD_some] at h
    split at h
    · cases h
    rename_i ms hms
    cases h
    refine (((figureMarks_spec black m medoids).1 ms).1 hms).imp fun p k hk => ?_
    obtain ⟨k1, k2, c, hc, k3⟩ := hk
    refine ⟨fun q => ?_, c, hc, ?_⟩
    · rw [k1, k2]
      unfold InSquare
      have key : ∀ a b : Nat, ((a : K) - 1 / 2 ≤ b ∧ (b : K) ≤ a + 1 / 2) ↔ a = b := by
        intro a b
        constructor
        · rintro ⟨h1, h2⟩
          by_contra hne
          rcases Nat.lt_or_gt_of_ne hne with hlt | hlt
          · have : (a : K) + 1 ≤ b := by exact_mod_cast hlt
            linarith
          · have : (b : K) + 1 ≤ a := by exact_mod_cast hlt
            linarith
        · rintro rfl
          constructor <;> linarith
      rw [← and_assoc, key, key]
      cases p; cases q
      simp [and_comm]
    · cases hkw : k.white
      · intro e
        have := k3.2 (by simpa using e)
        rw [hkw] at this
        cases this
      · simp only [if_true]
        rw [k3.1 hkw]
        exact hbw

/-- **C134**: the rectangle of the figure consists of the squares of the points of the prediction region: every
position in it belongs to the square of such a point, and the squares of exactly these points are inside. -/
theorem C134_rectangle [IsStrictOrderedRing K] [FloorRing K] {cmap : K → C} {black : C} {clustering : ClusterMeta}
    {md : Region} {pt : Partition} {medoids : Option (List Point)} {r : Region} {fig : QueryFigure K C}
    (h : queryFigure cmap black clustering md pt medoids r = .ok fig) (hx : r.x1 < r.x2) (hy : r.y1 < r.y2) :
    (∀ p, (∀ u v, InSquare p u v → fig.rectangle.Covers u v) ↔ r.Has p) ∧
    ∀ u v, fig.rectangle.Covers u v → ∃ p, r.Has p ∧ InSquare p u v := by
  have hr : fig.rectangle = regionRectangle r := by
    unfold queryFigure at h
    split at h
    · cases h
    split at h
    · cases h
    cases h
    rfl
  rw [hr]
  have half : ∀ (a b : Nat) (t : K), a < b → (a : K) - 1 / 2 ≤ t → t ≤ (b : K) - 1 / 2 →
      ∃ n : Nat, a ≤ n ∧ n < b ∧ (n : K) - 1 / 2 ≤ t ∧ t ≤ n + 1 / 2 := by
    intro a b t hab h1 h2
    have hf1 := Int.floor_le (t + 1 / 2)
    have hf2 := Int.lt_floor_add_one (t + 1 / 2)
    have ha : (a : Int) ≤ ⌊t + 1 / 2⌋ := Int.le_floor.2 (by push_cast; linarith)
    by_cases hb : ⌊t + 1 / 2⌋ < (b : Int)
    · obtain ⟨n, hn⟩ := Int.eq_ofNat_of_zero_le (le_trans (Int.natCast_nonneg a) ha)
      rw [hn] at hf1 hf2 ha hb
      push_cast at hf1 hf2
      exact ⟨n, by exact_mod_cast ha, by exact_mod_cast hb, by linarith, by linarith⟩
    · have hb' : ((b : Int) : K) ≤ ⌊t + 1 / 2⌋ := by exact_mod_cast not_lt.1 hb
      push_cast at hb'
      have : ((b - 1 : Nat) : K) = b - 1 := by
        rw [Nat.cast_sub (by omega)]; simp
      exact ⟨b - 1, by omega, by omega, by rw [this]; linarith, by rw [this]; linarith⟩
  refine ⟨fun p => ⟨fun hp => ?_, fun hp u v huv => ?_⟩, fun u v huv => ?_⟩
  · have h1 := hp ((p.y : K) - 1 / 2) ((p.x : K) - 1 / 2) ⟨le_refl _, by linarith, le_refl _, by linarith⟩
    have h2 := hp ((p.y : K) + 1 / 2) ((p.x : K) + 1 / 2) ⟨by linarith, le_refl _, by linarith, le_refl _⟩
    simp only [regionRectangle, Rectangle.Covers] at h1 h2
    obtain ⟨a1, _, a3, _⟩ := h1
    obtain ⟨_, b2, _, b4⟩ := h2
    have e1 : (r.x1 : K) ≤ p.x := by linarith
    have e2 : (p.x : K) + 1 ≤ r.x2 := by linarith
    have e3 : (r.y1 : K) ≤ p.y := by linarith
    have e4 : (p.y : K) + 1 ≤ r.y2 := by linarith
    exact ⟨by exact_mod_cast e1, by exact_mod_cast e2, by exact_mod_cast e3, by exact_mod_cast e4⟩
  · obtain ⟨a1, a2, a3, a4⟩ := hp
    obtain ⟨b1, b2, b3, b4⟩ := huv
    have e1 : (r.x1 : K) ≤ p.x := by exact_mod_cast a1
    have e2 : (p.x : K) + 1 ≤ r.x2 := by exact_mod_cast a2
    have e3 : (r.y1 : K) ≤ p.y := by exact_mod_cast a3
    have e4 : (p.y : K) + 1 ≤ r.y2 := by exact_mod_cast a4
    simp only [regionRectangle, Rectangle.Covers]
    refine ⟨?_, ?_, ?_, ?_⟩ <;> linarith
  · simp only [regionRectangle, Rectangle.Covers] at huv
    obtain ⟨b1, b2, b3, b4⟩ := huv
    obtain ⟨x, x1, x2, x3, x4⟩ := half r.x1 r.x2 v hx b3 (by linarith)
    obtain ⟨y, y1, y2, y3, y4⟩ := half r.y1 r.y2 u hy b1 (by linarith)
    exact ⟨⟨x, y⟩, ⟨x1, x2, y1, y2⟩, y3, y4, x3, x4⟩

/-- **C134**: the title gives the four corners of the prediction region within the whole data, and so two queries
about the same clustering have the same title only if they are about the same region. -/
theorem C134_title {cmap : K → C} {black : C} {clustering : ClusterMeta}
    {md : Region} {pt : Partition} {medoids : Option (List Point)} {r r' : Region} {fig fig' : QueryFigure K C}
    (h : queryFigure cmap black clustering md pt medoids r = .ok fig)
    (h' : queryFigure cmap black clustering md pt medoids r' = .ok fig') :
    (fig.title = fig'.title ↔ r = r') ∧
    ∀ x ∈ [r.x1, r.x2], ∀ y ∈ [r.y1, r.y2], ∃ a b, fig.title =
      a ++ ('(' :: natStr (md.x1 + x) ++ ", ".toList ++ natStr (md.y1 + y) ++ ")".toList) ++ b := by
  have hf : ∀ {r} {fig : QueryFigure K C}, queryFigure cmap black clustering md pt medoids r = .ok fig →
      fig.title = queryTitle clustering md r := by
    intro r fig h
    unfold queryFigure at h
    split at h
    · cases h
    split at h
    · cases h
    cases h
    rfl
  rw [hf h, hf h']
  refine ⟨⟨fun e => ?_, fun e => by rw [e]⟩, ?_⟩
  · unfold queryTitle at e
    replace e := List.append_cancel_left (List.append_cancel_left e)
    unfold cornerText at e
    simp only [List.cons_append, List.append_assoc, List.cons.injEq, true_and, List.nil_append] at e
    obtain ⟨e1, e⟩ := natStr_delim (by decide) (by decide) e
    simp only [List.cons.injEq, true_and] at e
    obtain ⟨e2, e⟩ := natStr_delim (by decide) (by decide) e
    simp only [List.cons.injEq, true_and] at e
    replace e := List.append_cancel_left e
    simp only [List.cons.injEq, true_and] at e
    obtain ⟨_, e⟩ := natStr_delim (by decide) (by decide) e
    simp only [List.cons.injEq, true_and] at e
    obtain ⟨e3, e⟩ := natStr_delim (by decide) (by decide) e
    simp only [List.cons.injEq, true_and] at e
    replace e := List.append_cancel_left e
    simp only [List.cons.injEq, true_and] at e
    obtain ⟨e4, _⟩ := natStr_delim (by decide) (by decide) e
    simp only [absoluteCoordinates, absolutePosition, Nat.add_right_cancel_iff] at e1 e2 e3 e4
    cases r; cases r'
    simp_all
  · intro x hx y hy
    simp only [List.mem_cons, List.not_mem_nil, or_false] at hx hy
    have hc : ∀ x y, '(' :: natStr (md.x1 + x) ++ ", ".toList ++ natStr (md.y1 + y) ++ ")".toList =
        cornerText (x + md.x1) (y + md.y1) := by
      intro x y
      simp [cornerText, Nat.add_comm]
    rw [hc]
    unfold queryTitle
    simp only [absoluteCoordinates, absolutePosition]
    generalize clustering.text = t
    generalize "; Region: ".toList = s
    generalize " - ".toList = d
    rcases hx with rfl | rfl <;> rcases hy with rfl | rfl
    · exact ⟨t ++ s, _, by simp only [List.append_assoc]; rfl⟩
    · exact ⟨t ++ s ++ cornerText (r.x1 + md.x1) (r.y1 + md.y1) ++ d, _, by simp only [List.append_assoc]; rfl⟩
    · exact ⟨t ++ s ++ cornerText (r.x1 + md.x1) (r.y1 + md.y1) ++ d ++ cornerText (r.x1 + md.x1) (r.y2 + md.y1) ++ d,
        _, by simp only [List.append_assoc]; rfl⟩
    · exact ⟨t ++ s ++ cornerText (r.x1 + md.x1) (r.y1 + md.y1) ++ d ++ cornerText (r.x1 + md.x1) (r.y2 + md.y1) ++ d ++
        cornerText (r.x2 + md.x1) (r.y1 + md.y1) ++ d, [], by simp only [List.append_assoc, List.append_nil]⟩

/-- **C134**: with the figure, `predict` gives the same result as without, provided that the figure is drawn; if it
is not, the query fails. -/
theorem C134_result {M : Type} (sv : Solver K M) (forecast : M → Nat → Except PyErr (List (Option K)))
    (cmap : K → C) (black : C) (md : Region) (pt : Partition) (medoids : Option (List Point))
    (clustering : ClusterMeta) (r : Region) (n : Int) :
    sv.query forecast cmap black md pt medoids clustering r n false =
      (sv.queryResult forecast md pt medoids clustering r n, none) ∧
    (∀ fig, queryFigure cmap black clustering md pt medoids r = .ok fig →
      (sv.query forecast cmap black md pt medoids clustering r n true).1 =
        sv.queryResult forecast md pt medoids clustering r n ∧
      ∀ result, (sv.query forecast cmap black md pt medoids clustering r n true).1 = .ok result →
        (sv.query forecast cmap black md pt medoids clustering r n true).2 = some fig) ∧
    (∀ e, queryFigure cmap black clustering md pt medoids r = .error e →
      ∃ e', sv.query forecast cmap black md pt medoids clustering r n true = (.error e', none)) := by
  have ht : ∀ e, sv.testRegion = .error e → sv.queryResult forecast md pt medoids clustering r n = .error e := by
    intro e he
    unfold Solver.queryResult Solver.predict
    rw [he]
  unfold Solver.query
  cases htr : sv.testRegion with
  | error e =>
    refine ⟨by rw [ht e htr], fun fig _ => ⟨by rw [ht e htr], fun result h => by cases h⟩, fun e' _ => ⟨e, rfl⟩⟩
  | ok t =>
    refine ⟨rfl, fun fig hf => ?_, fun e he => ⟨e, ?_⟩⟩
    · simp [hf]
    · simp [he]

end

/-- **C134**: two figures below the same directory have the same file exactly if they agree in the settings, the
parameters of the models and the prediction region; and no figure has the file of a result. -/
theorem C134_files {home : Str} (hh : DirName home) {m m' : SolverMeta} (h : GoodSolver m) (h' : GoodSolver m')
    (r r' : Region) :
    (m.plotFile home r = m'.plotFile home r' ↔
      SameSettings m.md m'.md m.clustering m'.clustering ∧ SameParams m.params m'.params ∧ r = r') ∧
    ∀ (q : CsvResult) (kind : CsvKind), GoodSolver q.meta_ → m.plotFile home r ≠ q.path home kind := by
  have hn : ∀ {m : SolverMeta}, GoodSolver m → ∀ r, FileName ("query-".toList ++ (m.clustering.repr ++
      (sep2 ++ (regionStr r ++ ".pdf".toList)))) := by
    intro m h r
    have h1 := h.1.repr.1
    have h2 := (regionStr_name r).2
    exact ⟨by simp, by simp [sep2, h1, h2]⟩
  have hp : ∀ {m : SolverMeta}, GoodSolver m → ∀ r, m.plotFile home r =
      (osJoin (osJoin home m.md.repr) (osJoin m.dist.repr m.clustering.repr) ++ '/' :: m.params.repr) ++ '/' ::
        ("query-".toList ++ (m.clustering.repr ++ (sep2 ++ (regionStr r ++ ".pdf".toList)))) := by
    intro m h r
    have p1 : FileName m.params.repr := ⟨m.params.repr_good.2, m.params.repr_good.1⟩
    have d1 := subdir_dir hh m.dist h.1
    rw [SolverMeta.plotFile, SolverMeta.outputDir, osJoin_file d1 p1, osJoin_file p1.dir.join (hn h r)]
  refine ⟨?_, fun q kind hq e => ?_⟩
  · rw [hp h, hp h']
    constructor
    · intro e
      obtain ⟨e, e1⟩ := append_slash_inj (hn h r).2 (hn h' r').2 e
      obtain ⟨e, e3⟩ := append_slash_inj m.params.repr_good.1 m'.params.repr_good.1 e
      have e4 := (subdir_inj hh h.1 h'.1).1 e
      have e5 := ((sameSettings_iff h.1 h'.1).2 e4).2
      rw [e5] at e1
      replace e1 := List.append_cancel_left (List.append_cancel_left (List.append_cancel_left e1))
      exact ⟨e4, ModelParams.repr_inj e3, regionStr_inj (List.append_cancel_right e1)⟩
    · rintro ⟨e1, e2, rfl⟩
      have e7 := (subdir_inj (dist := m.dist) (dist' := m'.dist) hh h.1 h'.1).2 e1
      have e8 := ((sameSettings_iff h.1 h'.1).2 e1).2
      rw [e7, e8, e2.repr]
  · have hc := congrArg List.getLast? e
    have h1 : (m.plotFile home r).getLast? = some 'f' := by
      rw [hp h]
      simp [List.getLast?_append, List.getLast?_cons]
    have h2 : (q.path home kind).getLast? = some 'v' := by
      have p1 : FileName q.meta_.params.repr := ⟨q.meta_.params.repr_good.2, q.meta_.params.repr_good.1⟩
      have d1 := subdir_dir hh q.meta_.dist hq.1
      rw [CsvResult.path, SolverMeta.csvDir, SolverMeta.outputDir, osJoin_file d1 p1,
        osJoin_file p1.dir.join (regionStr_name _), osJoin_file (regionStr_name _).dir.join (csvFile_name hq kind),
        csvFile_eq]
      simp [csvTail, List.getLast?_append, List.getLast?_cons]
    rw [h1, h2] at hc
    exact absurd hc (by decide)

/-- A colour map with two colours, and the figure of a query. -/
def exampleMap (a : ℚ) : Nat := if a = 0 then 0 else 1

set_option synthInstance.maxSize 1024 in
/-- A query about the region of the points (0, 1) and (0, 2) of a partition into two clusters. The medoid of the
first one is on black. -/
example : queryFigure exampleMap 0 (.kmedoids { k := 2 }) ⟨40, 42, 50, 53⟩ ⟨⟨2, 3, [0, 0, 1, 0, 1, 1]⟩, 2, 0⟩
      (some [⟨0, 0⟩, ⟨1, 2⟩]) ⟨0, 1, 1, 3⟩ =
    .ok ⟨⟨2, 3, [0, 0, 1, 0, 1, 1]⟩, [⟨0, 0, true⟩, ⟨2, 1, false⟩], ⟨1 / 2, -1 / 2, 2, 1⟩,
      "Kmedoids: k=2 seed=1 mode=lite; Region: (40, 51) - (40, 53) - (41, 51) - (41, 53)".toList⟩ ∧
    (∀ a b : ℚ, 0 ≤ a → a < 1 → 0 ≤ b → b < 1 → id a = id b → a = b) := by
  refine ⟨by decide +kernel, fun _ _ _ _ _ _ h => h⟩

/-- A query with a medoid outside of the partition. -/
example : queryFigure exampleMap 0 (.regular 2) ⟨40, 42, 50, 53⟩ ⟨⟨1, 2, [0, 1]⟩, 2, 0⟩
      (some [⟨0, 0⟩, ⟨1, 1⟩]) ⟨0, 1, 1, 2⟩ = .error .indexError ∧
    queryFigure exampleMap 0 (.regular 2) ⟨40, 42, 50, 53⟩ ⟨⟨0, 2, []⟩, 2, 0⟩ none ⟨0, 1, 1, 2⟩ =
      .error .valueError := by
  refine ⟨by decide +kernel, by decide +kernel⟩

/-- The file of a figure. -/
example : (exampleSolver 1 .dtw).plotFile "outputs".toList ⟨0, 1, 1, 3⟩ =
      ("outputs/a_2014_2015_1spd/dtw/regular_k2/auto-arima-start_p1-start_q1-max_p3-max_q3-dNone-stepwiseTrue/" ++
        "query-regular_k2__region-0-1-1-3.pdf").toList ∧
    GoodSolver (exampleSolver 1 .dtw) ∧ DirName "outputs".toList := by
  refine ⟨by decide +kernel, exampleSolver_good 1 .dtw, by decide, by decide⟩

end Spta
