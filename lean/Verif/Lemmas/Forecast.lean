import Verif.Lemmas.ErrorVal
import Verif.Spec.Forecast
import Verif.Lemmas.Train
import Verif.Props.Solver

/-!
# Lemmas about forecast errors
-/

set_option linter.unusedSectionVars false

namespace Spta

variable {K : Type} [Field K] [LinearOrder K] [IsStrictOrderedRing K]

/-! ### Units -/

theorem DescaledWith.unique {lo hi : Option K} {v w w' : List (Option K)} (h : DescaledWith lo hi v w)
    (h' : DescaledWith lo hi v w') : w = w' := by
  apply List.ext_getElem?
  intro t
  by_cases ht : t < v.length
  · by_cases hn : lo = none ∨ hi = none ∨ v[t]? = some none
    · rw [h.nan t ht hn, h'.nan t ht hn]
    · push Not at hn
      obtain ⟨a, ha⟩ := Option.ne_none_iff_exists'.1 hn.1
      obtain ⟨b, hb⟩ := Option.ne_none_iff_exists'.1 hn.2.1
      have h3 := hn.2.2
      rw [List.getElem?_eq_getElem ht] at h3
      obtain ⟨x, hx⟩ := Option.ne_none_iff_exists'.1 (fun e => h3 (congrArg some e))
      have hx' : v[t]? = some (some x) := by rw [List.getElem?_eq_getElem ht, hx]
      rw [h.value t a b x ha hb hx', h'.value t a b x ha hb hx']
  · rw [List.getElem?_eq_none (by rw [h.length]; omega), List.getElem?_eq_none (by rw [h'.length]; omega)]

theorem InUnits.unique {s : Stack K} {p : Point} {v w w' : List (Option K)} (h : InUnits s p v w)
    (h' : InUnits s p v w') : w = w' := by
  induction h with
  | plain c p v => cases h'; rfl
  | cluster part i h ih => cases h' with | cluster _ _ h' => exact ih h'
  | scaled inner h1 h2 h3 =>
    cases h' with
    | scaled _ k1 k2 k3 =>
      rw [h1] at k1; cases k1
      rw [h2] at k2; cases k2
      exact h3.unique k3

theorem InUnits.length {s : Stack K} {p : Point} {v w : List (Option K)} (h : InUnits s p v w) :
    w.length = v.length := by
  induction h with
  | plain c p v => rfl
  | cluster part i h ih => exact ih
  | scaled inner h1 h2 h3 => exact h3.length

theorem InUnits.new {s : Stack K} {p : Point} {v w : List (Option K)} (h : InUnits s p v w)
    (c : Cube (Option K)) : InUnits (s.new c) p v w := by
  induction h with
  | plain c p v => exact .plain _ _ _
  | cluster part i h ih => exact .cluster part i ih
  | scaled inner h1 h2 h3 => exact .scaled _ h1 h2 h3

theorem InUnits.of_new {s : Stack K} {p : Point} {v w : List (Option K)} {c : Cube (Option K)}
    (h : InUnits (s.new c) p v w) : InUnits s p v w := by
  have := h.new s.data
  rwa [Stack.new_new, Stack.new_data] at this

theorem InUnits.of_unscaled {s : Stack K} (hs : s.hasScaling = false) (p : Point) (v : List (Option K)) :
    InUnits s p v v := by
  induction s with
  | plain c => exact .plain _ _ _
  | scaled inner _ _ _ => cases hs
  | cluster inner part i ih => exact .cluster _ _ (ih hs)

theorem InUnits.exists {s : Stack K} (hs : s.OK) {p : Point} {u : List (Option K)}
    (hp : s.seriesAt p = .ok u) (v : List (Option K)) : ∃ w, InUnits s p v w := by
  induction s with
  | plain c => exact ⟨v, .plain _ _ _⟩
  | scaled inner smin smax _ =>
    obtain ⟨⟨lo, h1⟩, hi, h2⟩ := hs.2.2 p u hp
    exact ⟨_, .scaled inner h1 h2 (descaledWith_descaleSeries lo hi v)⟩
  | cluster inner part i ih =>
    obtain ⟨w, hw⟩ := ih hs.1 (Stack.cluster_seriesAt_iff.1 hp).2
    exact ⟨w, .cluster _ _ hw⟩

theorem Stack.newSpatial_new {V : Type} (s : Stack K) (c : Cube (Option K)) (g : Grid V) :
    (s.new c).newSpatial g = s.newSpatial g := by
  induction s with
  | plain _ => rfl
  | scaled inner _ _ ih => exact ih
  | cluster inner part i ih => simp only [Stack.new, Stack.newSpatial, ih]

theorem Stack.oneScaling_new (s : Stack K) (c : Cube (Option K)) :
    (s.new c).OneScaling ↔ s.OneScaling := by
  induction s with
  | plain _ => rfl
  | scaled inner _ _ ih => simp only [Stack.new, Stack.OneScaling, Stack.hasScaling_new]
  | cluster inner part i ih => exact ih

/-- Bringing a region to its original units. -/
theorem toUnits_ok {s : Stack K} (hs : s.OK) (h1 : s.OneScaling) :
    ∃ d, (if s.hasScaling then s.descale else .ok s) = .ok d ∧ d.OK ∧ d.data.tLen = s.data.tLen ∧
      d.data.grid.xLen = s.data.grid.xLen ∧ d.data.grid.yLen = s.data.grid.yLen ∧
      (∀ (V : Type) (g : Grid V), d.newSpatial g = s.newSpatial g) ∧
      (∀ p v, s.seriesAt p = .ok v → ∃ w, d.seriesAt p = .ok w ∧ InUnits s p v w) ∧
      (∀ p w, d.seriesAt p = .ok w → ∃ v, s.seriesAt p = .ok v ∧ InUnits s p v w) := by
  induction s with
  | plain c => exact ⟨_, rfl, hs, rfl, rfl, rfl, fun _ _ => rfl, fun p v hv => ⟨v, hv, .plain _ _ _⟩,
      fun p v hv => ⟨v, hv, .plain _ _ _⟩⟩
  | scaled inner smin smax _ =>
    obtain ⟨g, g1, g2, g3, g4, g5, _⟩ := descale_scaled_ok hs
    have hpt : ∀ p v, inner.seriesAt p = .ok v → ∃ w,
        (inner.new ⟨inner.data.tLen, g⟩).seriesAt p = .ok w ∧ InUnits (.scaled inner smin smax) p v w := by
      intro p v hv
      obtain ⟨⟨lo, hlo⟩, hi, hhi⟩ := hs.2.2 p v hv
      refine ⟨descaleSeries lo hi v, ?_, .scaled inner hlo hhi (descaledWith_descaleSeries lo hi v)⟩
      rw [Stack.seriesAt_new_eq _ hv]
      exact g5 p v lo hi hv hlo hhi
    refine ⟨inner.new ⟨inner.data.tLen, g⟩, g1, hs.1.new g4 g2 g3, by rw [Stack.data_new]; rfl,
      by rw [Stack.data_new]; exact g2, by rw [Stack.data_new]; exact g3,
      fun V g' => Stack.newSpatial_new _ _ _, hpt, ?_⟩
    intro p w hw
    obtain ⟨_, v, hv⟩ := (Stack.seriesAt_new_iff hs.1 g2 g3).1 hw
    obtain ⟨w', hw', hu⟩ := hpt p v hv
    rw [hw] at hw'; cases hw'
    exact ⟨v, hv, hu⟩
  | cluster inner part i ih =>
    obtain ⟨d, d1, d2, d3, d4, d5, d6, d7, d8⟩ := ih hs.1 h1
    by_cases hsc : inner.hasScaling = true
    · rw [if_pos hsc] at d1
      have hpt : ∀ p v, (Stack.cluster inner part i).seriesAt p = .ok v → ∃ w,
          ((Stack.cluster inner part i).new d.data).seriesAt p = .ok w ∧
            InUnits (.cluster inner part i) p v w := by
        intro p v hv
        obtain ⟨w, hw, hu⟩ := d7 p v (Stack.cluster_seriesAt_iff.1 hv).2
        refine ⟨w, ?_, .cluster _ _ hu⟩
        rw [Stack.seriesAt_new_eq _ hv]
        exact Stack.seriesAt_data hw
      refine ⟨(Stack.cluster inner part i).new d.data, ?_, hs.new d2.data_wf d4 d5,
        by rw [Stack.data_new]; exact d3, by rw [Stack.data_new]; exact d4,
        by rw [Stack.data_new]; exact d5, fun V g => Stack.newSpatial_new _ _ _, hpt, ?_⟩
      · rw [if_pos (show (Stack.cluster inner part i).hasScaling = true from hsc)]
        simp only [Stack.descale, d1]
      · intro p w hw
        obtain ⟨_, v, hv⟩ := (Stack.seriesAt_new_iff hs d4 d5).1 hw
        obtain ⟨w', hw', hu⟩ := hpt p v hv
        rw [hw] at hw'; cases hw'
        exact ⟨v, hv, hu⟩
    · rw [Bool.not_eq_true] at hsc
      have hsc' : (Stack.cluster inner part i).hasScaling = false := hsc
      refine ⟨_, by rw [hsc', if_neg (by simp)], hs, rfl, rfl, rfl, fun _ _ => rfl,
        fun p v hv => ⟨v, hv, .of_unscaled hsc' _ _⟩, fun p v hv => ⟨v, hv, .of_unscaled hsc' _ _⟩⟩

/-! ### Application of a function to the points -/

theorem applyObjects_ok {B : Type} {s : Stack K} (hs : s.OK) (fx fy : Nat)
    (hx : s.data.grid.xLen = fx) (hy : s.data.grid.yLen = fy)
    (f : Point → List (Option K) → Except PyErr B) (zero : B)
    (hf : ∀ p v, s.seriesAt p = .ok v → ∃ m, f p v = .ok m) :
    ∃ g : Grid B, s.applyObjects fx fy f zero = .ok (s.newSpatial g) ∧ g.WF ∧ g.xLen = fx ∧ g.yLen = fy ∧
      (∀ p v, s.seriesAt p = .ok v → g.get p = f p v) ∧
      (∀ p : Point, p.x < fx → p.y < fy → (∀ v, s.seriesAt p ≠ .ok v) → g.get p = .ok zero) := by
  obtain ⟨items, h1, h2, h3, h4⟩ := Stack.items_ok hs
  obtain ⟨g, g1, g2, g3, g4, g5, g6⟩ := applyWith_ok f items
    (Grid.const s.data.grid.xLen s.data.grid.yLen zero)
    (Grid.const_wf _ _ _) h2 (fun it hit => Stack.seriesAt_range (h3 it hit))
    (fun it hit => hf _ _ (h3 it hit))
  refine ⟨g, ?_, g4, by rw [g2]; exact hx, by rw [g3]; exact hy, fun p v hv => g5 (p, v) (h4 p v hv), ?_⟩
  · unfold Stack.applyObjects
    rw [if_pos ⟨hx, hy⟩]
    simp only [h1, g1]
  · intro p hpx hpy hp
    rw [g6 p (by rw [← hx] at hpx; exact hpx) (by rw [← hy] at hpy; exact hpy), Grid.get_const]
    · rw [hx]; exact hpx
    · rw [hy]; exact hpy
    · intro hm
      obtain ⟨it, hit, rfl⟩ := List.mem_map.1 hm
      exact hp _ (h3 it hit)

/-! ### Errors of a region -/

/-- The errors of a forecast region, point by point, in original units. -/
theorem measureError_ok {s : Stack K} (hs : s.OK) (h1 : s.OneScaling) (f : ErrorFun K)
    (co ct cf : Cube (Option K)) (ho : co.WF) (ht : ct.WF) (hf : cf.WF)
    (hox : co.grid.xLen = s.data.grid.xLen) (hoy : co.grid.yLen = s.data.grid.yLen)
    (htx : ct.grid.xLen = s.data.grid.xLen) (hty : ct.grid.yLen = s.data.grid.yLen)
    (hfx : cf.grid.xLen = s.data.grid.xLen) (hfy : cf.grid.yLen = s.data.grid.yLen)
    (herr : ∀ wf wo wt, wf.length = cf.tLen → wo.length = co.tLen → wt.length = ct.tLen →
      ∃ e, f wf wo (some wt) = .ok e) :
    ∃ g, measureError f (s.new co) (some (s.new ct)) (s.new cf) = .ok (s.newSpatial g) ∧ g.WF ∧
      g.xLen = s.data.grid.xLen ∧ g.yLen = s.data.grid.yLen ∧
      ∀ p v vo vt vf wo wt wf, s.seriesAt p = .ok v → co.grid.get p = .ok vo → ct.grid.get p = .ok vt →
        cf.grid.get p = .ok vf → InUnits s p vo wo → InUnits s p vt wt → InUnits s p vf wf →
        g.get p = f wf wo (some wt) := by
  obtain ⟨dO, a1, a2, a3, a4, a5, a6, a7, a8⟩ := toUnits_ok (hs.new ho hox hoy) ((s.oneScaling_new co).2 h1)
  obtain ⟨dT, b1, b2, b3, b4, b5, b6, b7, b8⟩ := toUnits_ok (hs.new ht htx hty) ((s.oneScaling_new ct).2 h1)
  obtain ⟨dF, c1, c2, c3, c4, c5, c6, c7, c8⟩ := toUnits_ok (hs.new hf hfx hfy) ((s.oneScaling_new cf).2 h1)
  have hprep : prepareRegions (s.new co) (some (s.new ct)) = .ok (dO, some dT) := by
    unfold prepareRegions
    by_cases h : s.hasScaling = true
    · rw [Stack.hasScaling_new, if_pos h] at a1 b1
      simp only [Stack.hasScaling_new, h, a1, b1, if_true]
    · rw [Stack.hasScaling_new, if_neg h] at a1 b1
      rw [Stack.hasScaling_new, if_neg h]
      cases a1; cases b1; rfl
  have hat : ∀ p v vo vt, s.seriesAt p = .ok v → co.grid.get p = .ok vo → ct.grid.get p = .ok vt →
      ∃ wo wt, InUnits s p vo wo ∧ InUnits s p vt wt ∧ wo.length = co.tLen ∧ wt.length = ct.tLen ∧
        ∀ w, errorAt f dO (some dT) p w = f w wo (some wt) := by
    intro p v vo vt hv hvo hvt
    obtain ⟨wo, ko, ko'⟩ := a7 p vo ((Stack.seriesAt_new_iff hs hox hoy).2 ⟨hvo, v, hv⟩)
    obtain ⟨wt, kt, kt'⟩ := b7 p vt ((Stack.seriesAt_new_iff hs htx hty).2 ⟨hvt, v, hv⟩)
    refine ⟨wo, wt, ko'.of_new, kt'.of_new, by rw [ko'.length]; exact Cube.get_length ho hvo,
      by rw [kt'.length]; exact Cube.get_length ht hvt, fun w => ?_⟩
    simp only [errorAt, optSeriesAt, ko, kt]
  rw [Stack.data_new] at c4 c5
  obtain ⟨g, g1, g2, g3, g4, g5, _⟩ := applyObjects_ok c2 co.grid.xLen co.grid.yLen
    (by rw [c4, hfx, hox]) (by rw [c5, hfy, hoy]) (errorAt f dO (some dT)) (some 0) (by
      intro p w hw
      obtain ⟨vf, hvf, hu⟩ := c8 p w hw
      obtain ⟨hcf, v, hv⟩ := (Stack.seriesAt_new_iff hs hfx hfy).1 hvf
      have hr := Stack.seriesAt_range hv
      obtain ⟨vo, hvo⟩ := co.grid.exists_get ho.1 (p := p) (by rw [hox]; exact hr.1) (by rw [hoy]; exact hr.2)
      obtain ⟨vt, hvt⟩ := ct.grid.exists_get ht.1 (p := p) (by rw [htx]; exact hr.1) (by rw [hty]; exact hr.2)
      obtain ⟨wo, wt, _, _, hlo, hlt, he⟩ := hat p v vo vt hv hvo hvt
      rw [he]
      exact herr w wo wt (by rw [hu.length]; exact Cube.get_length hf hcf) hlo hlt)
  refine ⟨g, ?_, g2, by rw [g3, hox], by rw [g4, hoy], ?_⟩
  · unfold measureError
    simp only [hprep, c1, Stack.data_new]
    rw [g1, c6, Stack.newSpatial_new]
  · intro p v vo vt vf wo wt wf hv hvo hvt hvf uo ut uf
    obtain ⟨w, hw, hu⟩ := c7 p vf ((Stack.seriesAt_new_iff hs hfx hfy).2 ⟨hvf, v, hv⟩)
    obtain ⟨wo', wt', uo', ut', _, _, he⟩ := hat p v vo vt hv hvo hvt
    rw [g5 p w hw, he, hu.of_new.unique uf, uo'.unique uo, ut'.unique ut]

/-! ### Error functions -/

theorem errorSum_fin (l : List K) :
    errorSum (l.map numVal) = numVal l.sum := by
  induction l with
  | nil => rfl
  | cons a l ih => simp only [List.map_cons, errorSum, ih]; rfl

theorem errorMean_fin {l : List K} (h : l ≠ []) :
    errorMean (l.map numVal) = numVal (l.sum / l.length) := by
  rw [errorMean, if_neg (by simpa using h), errorSum_fin, numVal, Option.map_some, List.length_map]
  rfl

theorem getErrorFunc_cases {errorType : String} {f : ErrorFun K} (h : getErrorFunc errorType = .ok f) :
    (errorType = "MASE" ∧ f = maseFun) ∨ (errorType = "sMAPE" ∧ f = smapeFun) ∨
      (errorType = "MSE" ∧ f = mseFun) := by
  unfold getErrorFunc at h
  split at h
  · rename_i e; cases h; exact .inl ⟨e, rfl⟩
  · split at h
    · rename_i e; cases h; exact .inr (.inl ⟨e, rfl⟩)
    · split at h
      · rename_i e; cases h; exact .inr (.inr ⟨e, rfl⟩)
      · cases h

theorem errorFun_ok {errorType : String} {f : ErrorFun K} (h : getErrorFunc errorType = .ok f)
    {wf wo wt : List (Option K)} (hlen : wf.length = wo.length)
    (ht : errorType = "MASE" → wt.length ≠ 1) : ∃ e, f wf wo (some wt) = .ok e := by
  rcases getErrorFunc_cases h with ⟨e, rfl⟩ | ⟨_, rfl⟩ | ⟨_, rfl⟩
  · exact ⟨_, by simp only [maseFun, broadcastOp_eq _ hlen, if_neg (ht e)]; rfl⟩
  · exact ⟨_, by simp only [smapeFun, broadcastOp_eq _ hlen]; rfl⟩
  · exact ⟨_, by simp only [mseFun, mse, broadcastOp_eq _ hlen]; rfl⟩

theorem stepSum_eq : ∀ t : List K, stepSum t = (List.zipWith (fun x y => |x - y|) t.tail t).sum
  | [] => rfl
  | [_] => rfl
  | x :: y :: rest => by
    rw [stepSum, stepSum_eq (y :: rest)]
    rfl

theorem zipWith_map_val {A : Type} (f : Option K → Option K → A) (g : K → K → A)
    (h : ∀ x y, f (some x) (some y) = g x y) (a b : List K) :
    List.zipWith f (a.map some) (b.map some) = List.zipWith g a b := by
  induction a generalizing b with
  | nil => simp
  | cons x a ih =>
    cases b with
    | nil => simp
    | cons y b => simp [ih, h]

theorem sum_map_div_const (l : List K) (c : K) : (l.map (· / c)).sum = l.sum / c := by
  induction l with
  | nil => simp
  | cons a l ih => rw [List.map_cons, List.sum_cons, List.sum_cons, ih, add_div]

theorem percent_list : ∀ (f o : List K),
    (∀ (i : Nat) (x y : K), f[i]? = some x → o[i]? = some y → x + y ≠ 0) →
    List.zipWith percentDiv ((List.zipWith (liftOp (· - ·)) (f.map some) (o.map some)).map floatAbs)
      (List.zipWith (liftOp (· + ·)) (f.map some) (o.map some)) =
      (List.zipWith (fun x y => 200 * |x - y| / (x + y)) f o).map numVal
  | [], o, _ => by simp
  | x :: f, [], _ => by simp
  | x :: f, y :: o, h => by
    have ih := percent_list f o fun i u v h1 h2 => h (i + 1) u v (by simpa using h1) (by simpa using h2)
    have h0 := h 0 x y rfl rfl
    simp only [List.map_cons, List.zipWith_cons_cons, ih]
    congr 1
    simp only [liftOp, floatAbs_some, percentDiv, if_neg h0, mul_div_assoc, numVal]

/-- The error functions agree with the textbook. -/
theorem errorFun_eq {errorType : String} {f : ErrorFun K} (h : getErrorFunc errorType = .ok f)
    {F O T : List K} {r : K} (hlen : F.length = O.length) (h0 : F ≠ []) (he : ErrorIs errorType F O T r) :
    f (F.map some) (O.map some) (some (T.map some)) = .ok (numVal r) := by
  have hzip : ∀ (g : K → K → K), List.zipWith g F O ≠ [] := by
    intro g e
    have := congrArg List.length e
    rw [List.length_zipWith, ← hlen, min_self, List.length_nil] at this
    exact h0 (List.length_eq_zero_iff.1 this)
  have hzl : ∀ (g : K → K → K), (List.zipWith g F O).length = F.length := by
    intro g; rw [List.length_zipWith, ← hlen, min_self]
  have hl' : (F.map some).length = (O.map some).length := by simpa using hlen
  rcases getErrorFunc_cases h with ⟨e, rfl⟩ | ⟨e, rfl⟩ | ⟨e, rfl⟩
  · cases he with
    | mse => exact absurd e (by decide)
    | smape _ => exact absurd e (by decide)
    | mase _ _ _ hs =>
      have ht : T.length ≠ 1 := by
        intro h1
        obtain ⟨a, rfl⟩ := List.length_eq_one_iff.1 h1
        exact hs rfl
      rw [stepSum_eq] at hs
      have hc : (List.zipWith (fun x y => |x - y|) T.tail T).sum / ((T.length : K) - 1) ≠ 0 :=
        div_ne_zero hs (cast_sub_one_ne ht)
      simp only [maseFun, broadcastOp_eq _ hl', List.length_map, if_neg ht, sumSteps_some,
        floatDiv_ne (cast_sub_one_ne ht)]
      rw [stepSum_eq]
      have hS : 0 < (List.zipWith (fun x y => |x - y|) T.tail T).sum / ((T.length : K) - 1) := by
        apply lt_of_le_of_ne _ hc.symm
        refine div_nonneg (List.sum_nonneg ?_) ?_
        rotate_left
        · have : T ≠ [] := by rintro rfl; simp at hs
          have := List.length_pos_iff.2 this
          have : ((1 : Nat) : K) ≤ T.length := by exact_mod_cast this
          rw [Nat.cast_one] at this; linarith
        · intro v hv
          obtain ⟨j, hj, rfl⟩ := List.getElem_of_mem hv
          rw [List.getElem_zipWith]; exact abs_nonneg _
      generalize (List.zipWith (fun x y => |x - y|) T.tail T).sum / ((T.length : K) - 1) = c at *
      have : ((List.zipWith (liftOp (· - ·)) (F.map some) (O.map some)).map fun e => absDiv e (some c)) =
          ((List.zipWith (fun x y => |x - y|) F O).map (· / c)).map numVal := by
        rw [zipWith_map_some _ (fun x y => x - y) (fun _ _ => rfl), List.map_map, List.map_map,
          List.map_zipWith, List.map_zipWith]
        congr 1
        funext x y
        simp only [Function.comp_apply, absDiv, if_neg hc]
        have : (if (x - y) / c < 0 then -((x - y) / c) else (x - y) / c) = |x - y| / c := by
          rw [show |x - y| / c = |(x - y) / c| from by rw [abs_div, abs_of_pos hS]]
          split
          · rename_i h; rw [abs_of_neg h]
          · rename_i h; rw [abs_of_nonneg (not_lt.1 h)]
        rw [this]; rfl
      rw [this, errorMean_fin (by simpa using hzip (fun x y => |x - y|)), List.length_map, hzl,
        sum_map_div_const, div_right_comm]
  · cases he with
    | mse => exact absurd e (by decide)
    | mase _ => exact absurd e (by decide)
    | smape _ _ _ hs =>
      simp only [smapeFun, broadcastOp_eq _ hl', percent_list F O hs]
      rw [errorMean_fin (hzip _), hzl]
  · cases he with
    | smape _ => exact absurd e (by decide)
    | mase _ => exact absurd e (by decide)
    | mse =>
      simp only [mseFun, mse, broadcastOp_eq _ hl']
      rw [zipWith_map_some _ (fun x y => x - y) (fun _ _ => rfl)]
      have h1 : squared ((List.zipWith (fun x y => x - y) F O).map some) =
          (List.zipWith (fun x y => (x - y) ^ 2) F O).map some := by
        rw [squared, List.map_map, List.map_zipWith, List.map_zipWith]
        congr 1
        funext x y
        simp only [Function.comp_apply, liftOp, pow_two]
      rw [meanSquared, h1, nanMean]
      have h2 : ((List.zipWith (fun x y => (x - y) ^ 2) F O).map some).filter (·.isSome) =
          (List.zipWith (fun x y => (x - y) ^ 2) F O).map some :=
        List.filter_eq_self.2 (by intro a ha; obtain ⟨x, _, rfl⟩ := List.mem_map.1 ha; rfl)
      rw [h2, floatMean_some (hzip _), hzl]
      rfl

/-! ### The forecast region -/

theorem SpStack.data_newTemporal {V : Type} (s : SpStack V) (c : Cube (Option K)) :
    (s.newTemporal c).data = c := by
  induction s with
  | plain _ => rfl
  | cluster inner part i ih => exact ih

theorem Stack.newTemporal_newSpatial {V : Type} {s : Stack K} (h : s.hasScaling = false) (g : Grid V)
    (c : Cube (Option K)) : (s.newSpatial g).newTemporal c = s.new c := by
  induction s with
  | plain _ => rfl
  | scaled inner _ _ _ => cases h
  | cluster inner part i ih => simp only [Stack.newSpatial, SpStack.newTemporal, Stack.new, ih h]

theorem forecastEach_ok {M : Type} {s : Stack K} (hs : s.OK) {tr te : Stack K} {n : Nat} (c : Cube (Option K))
    (htr : tr = s.new c) (hc : c.WF) (hcx : c.grid.xLen = s.data.grid.xLen)
    (hcy : c.grid.yLen = s.data.grid.yLen)
    (forecast : M → Nat → Except PyErr (List (Option K))) (junk : Option K) (models : Grid (Option M))
    (hm : models.WF) (hmx : models.xLen = s.data.grid.xLen) (hmy : models.yLen = s.data.grid.yLen)
    (hf : ∀ p v m, s.seriesAt p = .ok v → models.get p = .ok (some m) →
      ∃ w, forecast m n = .ok w ∧ w.length = n) :
    ∃ g : Grid (List (Option K)), forecastEach forecast junk ⟨s, tr, te, n⟩ models n = .ok (s.new ⟨n, g⟩) ∧
      (⟨n, g⟩ : Cube (Option K)).WF ∧ g.xLen = s.data.grid.xLen ∧ g.yLen = s.data.grid.yLen ∧
      ∀ p v m raw, s.seriesAt p = .ok v → models.get p = .ok m → RawForecast forecast n m raw →
        g.get p = .ok raw := by
  subst htr
  have hsN := hs.new hc hcx hcy
  set e : Grid (Option K) := Grid.const (s.new c).data.grid.xLen (s.new c).data.grid.yLen junk with he
  have hex : e.xLen = (s.new c).data.grid.xLen := rfl
  have hey : e.yLen = (s.new c).data.grid.yLen := rfl
  obtain ⟨items, i1, i2, i3, i4⟩ := items_newSpatial hsN (g := e) (Grid.const_wf _ _ _) hex hey
  have hpt : ∀ p, p ∈ items.map Prod.fst ↔ ∃ v, s.seriesAt p = .ok v := by
    intro p
    rw [i4]
    constructor
    · rintro ⟨w, hw⟩
      exact ((Stack.seriesAt_new_iff hs hcx hcy).1 hw).2
    · rintro ⟨v, hv⟩
      have hr := Stack.seriesAt_range hv
      obtain ⟨w, hw⟩ := c.grid.exists_get hc.1 (p := p) (by rw [hcx]; exact hr.1) (by rw [hcy]; exact hr.2)
      exact ⟨w, (Stack.seriesAt_new_iff hs hcx hcy).2 ⟨hw, v, hv⟩⟩
  have hfa : ∀ p v, s.seriesAt p = .ok v → ∀ m raw, models.get p = .ok m → RawForecast forecast n m raw →
      forecastAt forecast n models p = .ok raw ∧ raw.length = n := by
    intro p v hv m raw hmod hraw
    cases hraw with
    | missing => simp [forecastAt, hmod, forecastOf, assignSeries]
    | model h =>
      obtain ⟨w, hw, hl⟩ := hf p v _ hv hmod
      rw [h] at hw; cases hw
      simp [forecastAt, hmod, forecastOf, h, assignSeries, hl]
  have hraw : ∀ p v, s.seriesAt p = .ok v → ∃ m raw, models.get p = .ok m ∧ RawForecast forecast n m raw := by
    intro p v hv
    have hr := Stack.seriesAt_range hv
    obtain ⟨m, hmod⟩ := models.exists_get hm (p := p) (by rw [hmx]; exact hr.1) (by rw [hmy]; exact hr.2)
    cases m with
    | none => exact ⟨_, _, hmod, .missing⟩
    | some m =>
      obtain ⟨w, hw, _⟩ := hf p v _ hv hmod
      exact ⟨_, _, hmod, .model hw⟩
  have hdata : ((s.new c).newSpatial e).data = e := SpStack.data_newSpatial _ _
  obtain ⟨g, g1, g2, g3, g4, g5, g6⟩ := applyWith_ok
    (fun p (_ : Option K) => forecastAt forecast n models p) items
    (Grid.const e.xLen e.yLen (List.replicate n (some 0))) (Grid.const_wf _ _ _) i2
    (fun it hit => by
      obtain ⟨v, hv⟩ := (hpt it.1).1 (List.mem_map.2 ⟨it, hit, rfl⟩)
      have hr := Stack.seriesAt_range hv
      show it.1.x < e.xLen ∧ it.1.y < e.yLen
      rw [hex, hey, Stack.data_new, hcx, hcy]; exact hr)
    (fun it hit => by
      obtain ⟨v, hv⟩ := (hpt it.1).1 (List.mem_map.2 ⟨it, hit, rfl⟩)
      obtain ⟨m, raw, h1, h2⟩ := hraw _ _ hv
      exact ⟨raw, (hfa _ _ hv _ _ h1 h2).1⟩)
  have hgx : g.xLen = s.data.grid.xLen := by rw [g2]; show e.xLen = _; rw [hex, Stack.data_new, hcx]
  have hgy : g.yLen = s.data.grid.yLen := by rw [g3]; show e.yLen = _; rw [hey, Stack.data_new, hcy]
  have hget : ∀ p v, s.seriesAt p = .ok v → g.get p = forecastAt forecast n models p := by
    intro p v hv
    obtain ⟨it, hit, rfl⟩ := List.mem_map.1 ((hpt p).2 ⟨v, hv⟩)
    exact g5 it hit
  refine ⟨g, ?_, Cube.wf_of_get g4 ?_, hgx, hgy, ?_⟩
  · unfold forecastEach
    have : applyModelsTo forecast models n ((s.new c).newSpatial e) =
        .ok (((s.new c).newSpatial e).newTemporal ⟨n, g⟩) := by
      unfold applyModelsTo
      rw [if_pos]
      · simp only [i1, hdata, g1]
      · rw [hdata, hex, hey, hmx, hmy, Stack.data_new, hcx, hcy]; exact ⟨rfl, rfl⟩
    simp only [← he, this, SpStack.data_newTemporal]
    by_cases hsc : s.hasScaling = true
    · rw [if_pos hsc]
    · rw [if_neg hsc, Stack.newTemporal_newSpatial (by rw [Stack.hasScaling_new]; simpa using hsc),
        Stack.new_new]
  · intro p w hw
    show w.length = n
    by_cases hp : ∃ v, s.seriesAt p = .ok v
    · obtain ⟨v, hv⟩ := hp
      obtain ⟨m, raw, h1, h2⟩ := hraw _ _ hv
      obtain ⟨h3, h4⟩ := hfa _ _ hv _ _ h1 h2
      have hw' : g.get p = .ok w := hw
      rw [hget p v hv, h3] at hw'
      cases hw'; exact h4
    · have hr := (Grid.get_eq_ok_iff _ _ _).1 (show g.get p = .ok w from hw)
      have hrx : p.x < e.xLen := by have := hr.1; rw [hgx] at this; rw [hex, Stack.data_new, hcx]; exact this
      have hry : p.y < e.yLen := by have := hr.2.1; rw [hgy] at this; rw [hey, Stack.data_new, hcy]; exact this
      have hw' : g.get p = .ok w := hw
      rw [g6 p hrx hry (fun h => hp ((hpt p).1 h)), Grid.get_const hrx hry] at hw'
      cases hw'; simp
  · intro p v m raw hv h1 h2
    rw [hget p v hv]; exact (hfa p v hv m raw h1 h2).1

end Spta
