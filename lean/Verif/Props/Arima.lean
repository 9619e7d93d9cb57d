import Verif.Props.Train
import Verif.Spec.Arima

/-!
# C96 – C99: regions of ARIMA models
-/

set_option linter.unusedSectionVars false

namespace Spta

variable {K A M : Type} [Field K] [LinearOrder K]

/-! ### Lemmas -/

theorem trainPdq_some {lib : ArimaLib K A M} {o : PDQ} {v : List (Option K)} (h : Expected (lib.fit o v)) :
    trainPdq lib (some o) (some v) = .ok (pdqModel lib o v) := by
  unfold trainPdq pdqModel resultOf
  simp only
  cases hf : lib.fit o v with
  | ok m => rfl
  | error e =>
    cases e with
    | valueError => rfl
    | linAlgError => rfl
    | other e => exact absurd hf (h e)

theorem trainAuto_some {lib : ArimaLib K A M} {a : A} {v : List (Option K)} (h : Expected (lib.auto a v))
    (hf : ∀ o, lib.auto a v = .ok o → Expected (lib.fit o v)) :
    trainAuto lib (some a) (some v) = .ok (autoModel lib a v) := by
  unfold trainAuto autoModel
  simp only
  cases ha : lib.auto a v with
  | ok o => exact trainPdq_some (hf o ha)
  | error e =>
    cases e with
    | valueError => rfl
    | linAlgError => rfl
    | other e => exact absurd ha (h e)

theorem const_get {B : Type} {x y : Nat} {b b' : B} {p : Point} (h : (Grid.const x y b).get p = .ok b') :
    b' = b := by
  have hr := (Grid.get_eq_ok_iff _ _ _).1 h
  have hc := Grid.get_const (v := b) (p := p) hr.1 hr.2.1
  change (Grid.const x y b).get p = _ at hc
  rw [hc] at h
  cases h; rfl

/-- Cells outside of the points of the region keep the initial value. -/
theorem trainApply_outside {B : Type} {s : Stack K} (hs : s.OK) {fx fy : Nat}
    {f : Point → List (Option K) → Except PyErr (Option B)} {zero : Option B} {g : Grid (Option B)} {n : Nat}
    (h : trainApply fx fy f zero s = .ok (g, n)) {p : Point} (hx : p.x < s.data.grid.xLen)
    (hy : p.y < s.data.grid.yLen) (hp : ∀ v, s.seriesAt p ≠ .ok v) : g.get p = .ok zero := by
  obtain ⟨items, h1, h2, h3, h4⟩ := Stack.items_ok hs
  unfold trainApply Stack.applyObjects at h
  split at h
  · cases h
  · rename_i models hm
    split at hm
    · rw [h1] at hm
      simp only at hm
      split at hm
      · cases hm
      · rename_i g' hg'
        cases hm
        rw [SpStack.data_newSpatial] at h
        split at h
        · cases h
        · cases h
          obtain ⟨g2, e1, e2, e3, e4, e5, e6⟩ := applyWith_ok f items
            (Grid.const s.data.grid.xLen s.data.grid.yLen zero) (Grid.const_wf _ _ _) h2
            (fun it hit => Stack.seriesAt_range (h3 it hit)) (applyWith_inv f items _ _ hg')
          rw [hg'] at e1
          cases e1
          rw [e6 p hx hy]
          · exact Grid.get_const hx hy
          · intro hmem
            obtain ⟨it, hit, rfl⟩ := List.mem_map.1 hmem
            exact hp _ (h3 it hit)
    · cases hm

/-- A trainer that raises nothing, applied to a region. -/
theorem arimaApply_ok {P : Type} (lib : ArimaLib K A M) (withPdq : Bool) (t : Trainer K P (ArimaCell M))
    {s : Stack K} (hs : s.OK) (hx0 : 0 < s.data.grid.xLen) (hy0 : 0 < s.data.grid.yLen)
    (ht : t.params.WF) (tx : t.params.xLen = s.data.grid.xLen) (ty : t.params.yLen = s.data.grid.yLen)
    (want : Point → List (Option K) → Option M)
    (hw : ∀ p v q, s.seriesAt p = .ok v → t.params.get p = .ok q →
      t.train q v = .ok ((want p v).map .model)) :
    ∃ r, arimaApply lib withPdq t s = .ok r ∧ ArimaRegionOf lib s want r ∧
      (r.models.WF ∧ r.models.xLen = s.data.grid.xLen ∧ r.models.yLen = s.data.grid.yLen) ∧
      (if withPdq then ∃ orders, r.pdq = some orders ∧
        ((∀ p v m, s.seriesAt p = .ok v → want p v = some m → SmallOrder (lib.order m)) →
          OrdersOf lib s want orders) else r.pdq = none) := by
  have hfun : ∀ p v, s.seriesAt p = .ok v → t.functionAt p v = .ok ((want p v).map .model) := by
    intro p v hv
    obtain ⟨h1, h2⟩ := Stack.seriesAt_range hv
    obtain ⟨q, hq⟩ := t.params.exists_get ht (p := p) (by rw [tx]; exact h1) (by rw [ty]; exact h2)
    simp only [Trainer.functionAt, hq]
    exact hw p v q hv hq
  obtain ⟨g, items, a1, a2, a3, a4, a5, a6, a7, a8⟩ := trainApply_ok hs t.params.xLen t.params.yLen tx.symm
    ty.symm t.functionAt (some .zero) (fun p v hv => ⟨_, hfun p v hv⟩)
  have hin : ∀ p v, s.seriesAt p = .ok v → g.get p = .ok ((want p v).map .model) := fun p v hv => by
    rw [a5 p v hv, hfun p v hv]
  have hout := fun (p : Point) hx hy hp => trainApply_outside hs a1 (p := p) hx hy hp
  have gx : g.xLen = s.data.grid.xLen := a3.trans tx
  have gy : g.yLen = s.data.grid.yLen := a4.trans ty
  have haic : ∀ p, (⟨g.xLen, g.yLen, g.data.map (extractAic lib)⟩ : Grid (Option K)).get p =
      (g.get p).map (extractAic lib) := fun p => Grid.get_map g _ p
  obtain ⟨c0, hc0⟩ := g.exists_get a2 (p := ⟨0, 0⟩) (by rw [gx]; exact hx0) (by rw [gy]; exact hy0)
  have h00 := haic ⟨0, 0⟩
  rw [hc0] at h00
  simp only [arimaApply, Trainer.applyTo, a1, createArimaRegion, h00, Except.map]
  refine ⟨_, rfl, ⟨?_, ?_, ?_⟩, ⟨a2, gx, gy⟩, ?_⟩
  · intro p v hv
    refine ⟨hin p v hv, ?_⟩
    simp only
    rw [haic p, hin p v hv]
    cases want p v <;> rfl
  · intro p hx hy hp
    refine ⟨hout p hx hy hp, ?_⟩
    simp only
    rw [haic p, hout p hx hy hp]; rfl
  · refine ⟨(items.filter fun it => it.2.isNone).map Prod.fst, a6.sublist (List.Sublist.map _ List.filter_sublist),
      by rw [List.length_map, List.countP_eq_length_filter], ?_⟩
    intro p
    constructor
    · intro hp
      obtain ⟨it, hit, rfl⟩ := List.mem_map.1 hp
      obtain ⟨h1, h2⟩ := List.mem_filter.1 hit
      obtain ⟨v, hv⟩ := (a8 it.1).1 (List.mem_map_of_mem h1)
      refine ⟨v, hv, ?_⟩
      have := a7 it h1
      rw [hin _ v hv] at this
      have h3 := Except.ok.inj this
      rw [← h3] at h2
      cases hw' : want it.1 v with
      | none => rfl
      | some m => rw [hw'] at h2; cases h2
    · rintro ⟨v, hv, hnone⟩
      obtain ⟨it, hit, rfl⟩ := List.mem_map.1 ((a8 p).2 ⟨v, hv⟩)
      refine List.mem_map.2 ⟨it, List.mem_filter.2 ⟨hit, ?_⟩, rfl⟩
      have := a7 it hit
      rw [hin _ v hv, hnone] at this
      have h3 := Except.ok.inj this
      rw [← h3]; rfl
  · cases withPdq with
    | false => rfl
    | true =>
      refine ⟨_, rfl, ?_⟩
      intro hsmall
      have hpdq : ∀ p, (⟨g.xLen, g.yLen, g.data.map fun c => (⟨int8 (extractPdq lib c).p,
          int8 (extractPdq lib c).d, int8 (extractPdq lib c).q⟩ : PDQ)⟩ : Grid PDQ).get p =
          (g.get p).map fun c => (⟨int8 (extractPdq lib c).p,
          int8 (extractPdq lib c).d, int8 (extractPdq lib c).q⟩ : PDQ) := fun p => Grid.get_map g _ p
      have hint : ∀ o, SmallOrder o → (⟨int8 o.p, int8 o.d, int8 o.q⟩ : PDQ) = o := by
        rintro ⟨p, d, q⟩ ⟨h1, h2, h3, h4, h5, h6⟩
        simp only [int8, PDQ.mk.injEq] at *
        omega
      refine ⟨?_, ?_⟩
      · intro p v hv
        rw [hpdq p, hin p v hv]
        cases hm : want p v with
        | none => rfl
        | some m =>
          simp only [Option.map_some, Option.getD_some, Except.map, extractPdq]
          rw [hint _ (hsmall p v m hv hm)]
      · intro p hx hy hp
        rw [hpdq p, hout p hx hy hp]
        rfl

/-! ### C96 -/

/-- **C96** for a fixed order: over any region (also a scaled one or a cluster), if the library raises only the
exceptions that are expected, training does not raise, and the result has at every point of the region the
model of its series. A failure at some point affects no other point. -/
theorem C96_pdq (lib : ArimaLib K A M) (o : PDQ) {s : Stack K} (hs : s.OK) (hx : 0 < s.data.grid.xLen)
    (hy : 0 < s.data.grid.yLen) (hlib : ∀ v, Expected (lib.fit o v)) :
    ∃ r, arimaApply lib false (pdqTrainer lib (some o) s.data.grid.xLen s.data.grid.yLen) s = .ok r ∧
      ArimaRegionOf lib s (fun _ v => pdqModel lib o v) r ∧ r.pdq = none := by
  obtain ⟨r, h1, h2, _, h3⟩ := arimaApply_ok lib false
    (pdqTrainer lib (some o) s.data.grid.xLen s.data.grid.yLen) hs hx hy
    (Grid.const_wf _ _ _) rfl rfl (fun _ v => pdqModel lib o v) (by
      intro p v q hv hq
      have hq' := const_get hq
      subst hq'
      simp only [pdqTrainer, Trainer.constant, trainPdq_some (hlib v), asCell])
  exact ⟨r, h1, h2, h3⟩

/-- **C96** for auto ARIMA: the model of a point has the order found by the search for its series. The region
also has the orders, which are stored as 8 bit integers. -/
theorem C96_auto (lib : ArimaLib K A M) (a : A) {s : Stack K} (hs : s.OK) (hx : 0 < s.data.grid.xLen)
    (hy : 0 < s.data.grid.yLen) (hauto : ∀ v, Expected (lib.auto a v)) (hlib : ∀ o v, Expected (lib.fit o v)) :
    ∃ r orders, arimaApply lib true (autoTrainer lib (some a) s.data.grid.xLen s.data.grid.yLen) s = .ok r ∧
      ArimaRegionOf lib s (fun _ v => autoModel lib a v) r ∧ r.pdq = some orders ∧
      ((∀ p v m, s.seriesAt p = .ok v → autoModel lib a v = some m → SmallOrder (lib.order m)) →
        OrdersOf lib s (fun _ v => autoModel lib a v) orders) := by
  obtain ⟨r, h1, h2, _, h3⟩ := arimaApply_ok lib true
    (autoTrainer lib (some a) s.data.grid.xLen s.data.grid.yLen) hs hx hy
    (Grid.const_wf _ _ _) rfl rfl (fun _ v => autoModel lib a v) (by
      intro p v q hv hq
      have hq' := const_get hq
      subst hq'
      simp only [autoTrainer, Trainer.constant, trainAuto_some (hauto v) (fun o _ => hlib o v), asCell])
  obtain ⟨orders, h4, h5⟩ := h3
  exact ⟨r, orders, h1, h2, h4, h5⟩

/-- A library for the examples: "fitting" gives the order and the first value; it fails with an expected
exception for a series that starts with NaN, and the search finds the number of samples as `p`. The AIC is
that value. -/
def exampleLib : ArimaLib ℚ Nat (PDQ × ℚ) where
  fit o v := match v with
    | some x :: _ => .ok (o, x)
    | [] => .error .valueError
    | none :: _ => .error .linAlgError
  auto a v := if v.length < a then .error .valueError else .ok ⟨v.length, 1, 0⟩
  order m := m.1
  aic m := some m.2

theorem exampleLib_fit (o : PDQ) (v : List (Option ℚ)) : Expected (exampleLib.fit o v) := by
  intro e h
  match v, h with
  | [], h => cases h
  | none :: _, h => cases h
  | some _ :: _, h => cases h

theorem exampleLib_auto (a : Nat) (v : List (Option ℚ)) : Expected (exampleLib.auto a v) := by
  intro e h
  unfold exampleLib at h
  simp only at h
  split at h <;> cases h

/-- A 1 by 3 region with series of two samples, one of which is not usable; the point (0, 2) is in another
cluster. -/
example : arimaApply exampleLib true (autoTrainer exampleLib (some 2) 1 3)
      (.cluster (.plain ⟨2, ⟨1, 3, [[some 5, none], [none, some 1], [some 2, some 2]]⟩⟩)
        ⟨⟨1, 3, [0, 0, 1]⟩, 2, 0⟩ 0) =
    .ok ⟨⟨1, 3, [some (.model (⟨2, 1, 0⟩, 5)), none, some .zero]⟩, 1, ⟨1, 3, [some 5, none, none]⟩,
      some ⟨1, 3, [⟨2, 1, 0⟩, ⟨-1, -1, -1⟩, ⟨-1, -1, -1⟩]⟩⟩ := by decide +kernel

/-! ### C97 -/

/-- **C97**, what holds: for a fixed order, and for refitting, no parameters or no data mean no model; for auto
ARIMA only no parameters do. The full claim is refuted below. -/
theorem C97_no_data_partial (lib : ArimaLib K A M) (pdq : Option PDQ) (series : Option (List (Option K)))
    (v : List (Option K)) :
    ((pdq = none ∨ series = none) → trainPdq lib pdq series = .ok none) ∧
      trainAuto lib none (some v) = .ok none := by
  refine ⟨?_, rfl⟩
  rintro (rfl | rfl)
  · rfl
  · cases pdq <;> rfl

/-- **C97** does not hold for auto ARIMA: for all parameters (also none) missing data raises TypeError. -/
theorem C97_no_data_refuted (lib : ArimaLib K A M) (params : Option A) :
    trainAuto lib params none = .error .typeError := rfl

/-- **C97**: a failure of the library other than the two exceptions is not turned into "no model": then the
training of the whole region fails, at any point of it. -/
theorem C97_other_refuted (lib : ArimaLib K A M) (o : PDQ) (withPdq : Bool) {s : Stack K} (hs : s.OK)
    {p : Point} {v : List (Option K)} (hv : s.seriesAt p = .ok v) {e : PyErr}
    (he : lib.fit o v = .error (.other e)) :
    ∃ e', arimaApply lib withPdq (pdqTrainer lib (some o) s.data.grid.xLen s.data.grid.yLen) s =
      .error e' := by
  cases h : arimaApply lib withPdq (pdqTrainer lib (some o) s.data.grid.xLen s.data.grid.yLen) s with
  | error e' => exact ⟨e', rfl⟩
  | ok r =>
    exfalso
    unfold arimaApply at h
    split at h
    · cases h
    · rename_i models missing hm
      obtain ⟨items, h1, h2, h3, h4⟩ := Stack.items_ok hs
      unfold Trainer.applyTo trainApply Stack.applyObjects at hm
      split at hm
      · cases hm
      · rename_i sp hsp
        split at hsp
        · rw [h1] at hsp
          simp only at hsp
          split at hsp
          · cases hsp
          · rename_i g hg
            obtain ⟨b, hb⟩ := applyWith_inv _ _ _ _ hg _ (h4 p v hv)
            simp only [Trainer.functionAt] at hb
            split at hb
            · cases hb
            · rename_i q hq
              have := const_get hq
              subst this
              simp only [pdqTrainer, Trainer.constant, trainPdq, he, exceptArima, asCell] at hb
              cases hb
        · cases hsp

/-- If the training raises at a point, it raises for the region. -/
theorem arimaApply_raises {P : Type} (lib : ArimaLib K A M) (withPdq : Bool) (t : Trainer K P (ArimaCell M)) {s : Stack K}
    (hs : s.OK) {p : Point} {v : List (Option K)} (hv : s.seriesAt p = .ok v)
    (hp : ∀ b, t.functionAt p v ≠ .ok b) : ∃ e, arimaApply lib withPdq t s = .error e := by
  cases h : arimaApply lib withPdq t s with
  | error e' => exact ⟨e', rfl⟩
  | ok r =>
    exfalso
    unfold arimaApply at h
    split at h
    · cases h
    · rename_i models missing hm
      obtain ⟨items, h1, h2, h3, h4⟩ := Stack.items_ok hs
      unfold Trainer.applyTo trainApply Stack.applyObjects at hm
      split at hm
      · cases hm
      · rename_i sp hsp
        split at hsp
        · rw [h1] at hsp
          simp only at hsp
          split at hsp
          · cases hsp
          · rename_i g hg
            obtain ⟨b, hb⟩ := applyWith_inv _ _ _ _ hg _ (h4 p v hv)
            exact hp b hb
        · cases hsp

/-- **C97** (exactly, fixed order): the training of a region succeeds if and only if no call of the library for a series
of the region raises an exception other than the two; then a point has a model if and only if the library gives one. -/
theorem C97_exactly_partial (lib : ArimaLib K A M) (o : PDQ) {s : Stack K} (hs : s.OK) (hx : 0 < s.data.grid.xLen)
    (hy : 0 < s.data.grid.yLen) :
    ((∃ r, arimaApply lib false (pdqTrainer lib (some o) s.data.grid.xLen s.data.grid.yLen) s = .ok r) ↔
      ∀ p v, s.seriesAt p = .ok v → Expected (lib.fit o v)) ∧
    ∀ r, arimaApply lib false (pdqTrainer lib (some o) s.data.grid.xLen s.data.grid.yLen) s = .ok r →
      ArimaRegionOf lib s (fun _ v => pdqModel lib o v) r := by
  have fwd : ∀ r, arimaApply lib false (pdqTrainer lib (some o) s.data.grid.xLen s.data.grid.yLen) s = .ok r →
      ∀ p v, s.seriesAt p = .ok v → Expected (lib.fit o v) := by
    intro r h p v hv e he
    obtain ⟨e', h'⟩ := C97_other_refuted lib o false hs hv he
    rw [h] at h'
    cases h'
  have bwd : (∀ p v, s.seriesAt p = .ok v → Expected (lib.fit o v)) →
      ∃ r, arimaApply lib false (pdqTrainer lib (some o) s.data.grid.xLen s.data.grid.yLen) s = .ok r ∧
        ArimaRegionOf lib s (fun _ v => pdqModel lib o v) r := by
    intro hlib
    obtain ⟨r, h1, h2, -⟩ := arimaApply_ok lib false
      (pdqTrainer lib (some o) s.data.grid.xLen s.data.grid.yLen) hs hx hy
      (Grid.const_wf _ _ _) rfl rfl (fun _ v => pdqModel lib o v) (by
        intro p v q hv hq
        have hq' := const_get hq
        subst hq'
        simp only [pdqTrainer, Trainer.constant, trainPdq_some (hlib p v hv), asCell])
    exact ⟨r, h1, h2⟩
  refine ⟨⟨fun ⟨r, h⟩ => fwd r h, fun h => (bwd h).imp fun _ h => h.1⟩, fun r h => ?_⟩
  obtain ⟨r', h1, h2⟩ := bwd (fwd r h)
  cases h.symm.trans h1
  exact h2

/-- **C97** (exactly, auto ARIMA): the same for the search of an order and the fit of that order. -/
theorem C97_exactly_auto_partial (lib : ArimaLib K A M) (a : A) {s : Stack K} (hs : s.OK) (hx : 0 < s.data.grid.xLen)
    (hy : 0 < s.data.grid.yLen) :
    ((∃ r, arimaApply lib true (autoTrainer lib (some a) s.data.grid.xLen s.data.grid.yLen) s = .ok r) ↔
      ∀ p v, s.seriesAt p = .ok v → Expected (lib.auto a v) ∧ ∀ o, lib.auto a v = .ok o → Expected (lib.fit o v)) ∧
    ∀ r, arimaApply lib true (autoTrainer lib (some a) s.data.grid.xLen s.data.grid.yLen) s = .ok r →
      ArimaRegionOf lib s (fun _ v => autoModel lib a v) r := by
  have fwd : ∀ r, arimaApply lib true (autoTrainer lib (some a) s.data.grid.xLen s.data.grid.yLen) s = .ok r →
      ∀ p v, s.seriesAt p = .ok v →
        Expected (lib.auto a v) ∧ ∀ o, lib.auto a v = .ok o → Expected (lib.fit o v) := by
    intro r h p v hv
    have key : (∃ b, trainAuto lib (some a) (some v) = .ok b) := by
      by_contra hno
      obtain ⟨e', h'⟩ := arimaApply_raises lib true (autoTrainer lib (some a) s.data.grid.xLen s.data.grid.yLen) hs hv
        (by
          intro b hb
          simp only [Trainer.functionAt] at hb
          split at hb
          · cases hb
          · rename_i q hq
            have := const_get hq
            subst this
            simp only [autoTrainer, Trainer.constant] at hb
            cases ht : trainAuto lib (some a) (some v) with
            | ok b' => exact hno ⟨b', ht⟩
            | error e => rw [ht] at hb; cases hb)
      rw [h] at h'
      cases h'
    obtain ⟨b, hb⟩ := key
    unfold trainAuto at hb
    simp only at hb
    refine ⟨fun e he => ?_, fun o ho e he => ?_⟩
    · rw [he] at hb
      cases hb
    · rw [ho] at hb
      simp only [trainPdq, he] at hb
      cases hb
  have bwd : (∀ p v, s.seriesAt p = .ok v →
        Expected (lib.auto a v) ∧ ∀ o, lib.auto a v = .ok o → Expected (lib.fit o v)) →
      ∃ r, arimaApply lib true (autoTrainer lib (some a) s.data.grid.xLen s.data.grid.yLen) s = .ok r ∧
        ArimaRegionOf lib s (fun _ v => autoModel lib a v) r := by
    intro hlib
    obtain ⟨r, h1, h2, -⟩ := arimaApply_ok lib true
      (autoTrainer lib (some a) s.data.grid.xLen s.data.grid.yLen) hs hx hy
      (Grid.const_wf _ _ _) rfl rfl (fun _ v => autoModel lib a v) (by
        intro p v q hv hq
        have hq' := const_get hq
        subst hq'
        simp only [autoTrainer, Trainer.constant, trainAuto_some (hlib p v hv).1 (hlib p v hv).2, asCell])
    exact ⟨r, h1, h2⟩
  refine ⟨⟨fun ⟨r, h⟩ => fwd r h, fun h => (bwd h).imp fun _ h => h.1⟩, fun r h => ?_⟩
  obtain ⟨r', h1, h2⟩ := bwd (fwd r h)
  cases h.symm.trans h1
  exact h2

/-- A library with such a failure, for the example. -/
def exampleBrokenLib : ArimaLib ℚ Nat Nat where
  fit _ v := if v = [some 1] then .error (.other .indexError) else .ok v.length
  auto _ _ := .error .valueError
  order _ := ⟨1, 0, 0⟩
  aic _ := none

/-- One of two points raises. -/
example : arimaApply exampleBrokenLib false (pdqTrainer exampleBrokenLib (some ⟨1, 0, 0⟩) 1 2)
    (.plain ⟨1, ⟨1, 2, [[some 0], [some 1]]⟩⟩) = .error .indexError := by decide +kernel

/-- The hypotheses of C97_exactly_partial are met: this library raises for no series of the region, although it does for
another one; of the search for orders, ValueError gives missing models. -/
example : (∃ r, arimaApply exampleBrokenLib false (pdqTrainer exampleBrokenLib (some ⟨1, 0, 0⟩) 1 2)
      (.plain ⟨1, ⟨1, 2, [[some 0], [some 2]]⟩⟩) = .ok r) ∧
    arimaApply exampleBrokenLib true (autoTrainer exampleBrokenLib (some 3) 1 2)
      (.plain ⟨1, ⟨1, 2, [[some 0], [some 1]]⟩⟩) =
      .ok ⟨⟨1, 2, [none, none]⟩, 2, ⟨1, 2, [none, none]⟩, some ⟨1, 2, [⟨-1, -1, -1⟩, ⟨-1, -1, -1⟩]⟩⟩ := by
  refine ⟨((C97_exactly_partial exampleBrokenLib ⟨1, 0, 0⟩ (s := .plain ⟨1, ⟨1, 2, [[some 0], [some 2]]⟩⟩)
    ⟨rfl, by decide⟩ (by decide) (by decide)).1).2 ?_, by decide +kernel⟩
  intro p v hv e he
  obtain ⟨hx, hy, hz⟩ := (Grid.get_eq_ok_iff _ _ _).1 (Stack.seriesAt_data hv)
  obtain ⟨x, y⟩ := p
  have hx' : x < 1 := hx
  have hy' : y < 2 := hy
  interval_cases x
  interval_cases y
  all_goals
    cases hz
    simp [exampleBrokenLib] at he

/-! ### C98 -/

/-- The order for the refit of a model. -/
theorem refitParams_eq (lib : ArimaLib K A M) (c : Option (ArimaCell M))
    (h : ∀ m, c = some (.model m) → lib.order m ≠ ⟨-1, -1, -1⟩) :
    refitParams lib c = match c with
      | some (.model m) => some (lib.order m)
      | _ => none := by
  unfold refitParams
  match c, h with
  | none, _ => rfl
  | some .zero, _ => rfl
  | some (.model m), h =>
    exact if_pos (h m rfl)

/-- The model after a refit with the series `v`. -/
def refitted (lib : ArimaLib K A M) (before : Option (ArimaCell M)) (v : List (Option K)) : Option M :=
  match before with
  | some (.model m) => pdqModel lib (lib.order m) v
  | _ => none

theorem refitTrain_eq (lib : ArimaLib K A M) (c : Option (ArimaCell M)) (v : List (Option K))
    (h : ∀ m, c = some (.model m) → lib.order m ≠ ⟨-1, -1, -1⟩) (hlib : ∀ o v, Expected (lib.fit o v)) :
    asCell (trainPdq lib (refitParams lib c) (some v)) = .ok ((refitted lib c v).map .model) := by
  rw [refitParams_eq lib c h]
  match c, h with
  | none, _ => rfl
  | some .zero, _ => rfl
  | some (.model m), _ =>
    simp only [trainPdq_some (hlib _ _), asCell, refitted]

/-- **C98**: refitting a region of models with a region of new data. Every point of the new data that had a
model gets the model of the same order for its new series; all others have none. -/
theorem C98_refit (lib : ArimaLib K A M) (models : Grid (Option (ArimaCell M))) (hm : models.WF)
    {s : Stack K} (hs : s.OK) (hx : 0 < s.data.grid.xLen) (hy : 0 < s.data.grid.yLen)
    (mx : models.xLen = s.data.grid.xLen) (my : models.yLen = s.data.grid.yLen)
    (hlib : ∀ o v, Expected (lib.fit o v))
    (hord : ∀ p m, models.get p = .ok (some (.model m)) → lib.order m ≠ ⟨-1, -1, -1⟩) :
    ∃ r, arimaApply lib false (refitTrainer lib models) s = .ok r ∧ r.pdq = none ∧
      ArimaRegionOf lib s (fun p v => match models.get p with
        | .ok (some (.model m)) => pdqModel lib (lib.order m) v
        | _ => none) r := by
  have hget : ∀ p, (refitTrainer (K := K) lib models).params.get p = (models.get p).map (refitParams lib) :=
    fun p => Grid.get_map models _ p
  obtain ⟨r, h1, h2, _, h3⟩ := arimaApply_ok lib false (refitTrainer lib models) hs hx hy
    (by have : models.data.length = models.xLen * models.yLen := hm
        simpa [refitTrainer, Grid.WF] using this) mx my
    (fun p v => match models.get p with
        | .ok (some (.model m)) => pdqModel lib (lib.order m) v
        | _ => none) (by
      intro p v q hv hq
      rw [hget p] at hq
      cases hc : models.get p with
      | error e => rw [hc] at hq; cases hq
      | ok c =>
        rw [hc] at hq
        cases hq
        have := refitTrain_eq lib c v (fun m e => hord p m (by rw [hc, e])) hlib
        simp only [refitTrainer]
        rw [this]
        match c with
        | none => rfl
        | some .zero => rfl
        | some (.model m) => rfl)
  exact ⟨r, h1, h3, h2⟩

/-- **C98** for a solver with auto ARIMA: at every point, with `v` the series of the medoid of its cluster, the
training model is that of auto ARIMA for the training part of `v`; the model for forecasts beyond the data is
the one of the same order for all of `v`, or none if there is no training model. -/
theorem C98_solver (lib : ArimaLib K A M) (a : A) (s : Stack K) (hs : s.OK)
    (hall : ∀ p : Point, p.x < s.data.grid.xLen → p.y < s.data.grid.yLen → ∃ v, s.seriesAt p = .ok v)
    (testLen : Nat) (htl : testLen ≤ s.data.tLen)
    (pt : Partition) (hp : pt.Valid) (h0 : pt.pointIndex = 0)
    (sx : pt.labels.xLen = s.data.grid.xLen) (sy : pt.labels.yLen = s.data.grid.yLen)
    (medoids : List Point) (hlen : medoids.length = pt.k)
    (hmed : ∀ i m, medoids[i]? = some m → pt.labels.get m = .ok i)
    (hauto : ∀ v, Expected (lib.auto a v)) (hlib : ∀ o v, Expected (lib.fit o v))
    (hord : ∀ m, lib.order m ≠ ⟨-1, -1, -1⟩) (junk : Option (ArimaCell M)) :
    ∃ training whole, trainSolver (autoTrainer lib (some a) s.data.grid.xLen s.data.grid.yLen)
        (refitTrainer lib) s testLen pt medoids (some .zero) junk = .ok (training, whole) ∧
      ∀ p : Point, p.x < s.data.grid.xLen → p.y < s.data.grid.yLen →
        ∃ l m v, pt.labels.get p = .ok l ∧ medoids[l]? = some m ∧ s.seriesAt m = .ok v ∧
          training.get p = .ok ((autoModel lib a (v.take (v.length - testLen))).map .model) ∧
          whole.get p = .ok (((autoModel lib a (v.take (v.length - testLen))).bind fun model =>
            pdqModel lib (lib.order model) v).map .model) := by
  have htrain : ∀ v, (autoTrainer lib (some a) s.data.grid.xLen s.data.grid.yLen).train (some a) v =
      .ok ((autoModel lib a v).map .model) := by
    intro v
    simp only [autoTrainer, Trainer.constant, trainAuto_some (hauto v) (fun o _ => hlib o v), asCell]
  have hrefit : ∀ c v, asCell (trainPdq lib (refitParams lib c) (some v)) =
      .ok ((refitted lib c v).map .model) := fun c v => refitTrain_eq lib c v (fun m _ => hord m) hlib
  have hget : ∀ (g : Grid (Option (ArimaCell M))) p, (refitTrainer (K := K) lib g).params.get p =
      (g.get p).map (refitParams lib) := fun g p => Grid.get_map g _ p
  obtain ⟨g, gT, gW, h1, -, -, -, -, -, -, h2⟩ := C47_models_of_medoids
    (autoTrainer lib (some a) s.data.grid.xLen s.data.grid.yLen) (refitTrainer lib) s hs hall testLen htl
    pt hp h0 sx sy medoids hlen hmed (Grid.const_wf _ _ _) rfl rfl
    (fun m _ q v hq _ => by
      have := const_get hq
      subst this
      exact ⟨_, htrain _⟩)
    (fun g hg gx gy => ⟨by
        have : g.data.length = g.xLen * g.yLen := hg
        simpa [refitTrainer, Grid.WF] using this, gx, gy, fun p q v hq _ => by
      rw [hget] at hq
      cases hc : g.get p with
      | error e => rw [hc] at hq; cases hq
      | ok c =>
        rw [hc] at hq
        cases hq
        exact ⟨_, hrefit c v⟩⟩) (some .zero) junk
  refine ⟨gT, gW, h1, ?_⟩
  intro p hx hy
  obtain ⟨l, m, v, q, q', e1, e2, e3, e4, e5, e6, e7, e8⟩ := h2 p hx hy
  have e4' := const_get e4
  subst e4'
  rw [htrain] at e5 e6
  refine ⟨l, m, v, e1, e2, e3, e5, ?_⟩
  rw [hget, e6] at e7
  have e7' := Except.ok.inj e7
  rw [e8, ← e7']
  simp only [refitTrainer]
  rw [hrefit]
  cases autoModel lib a (v.take (v.length - testLen)) <;> rfl

set_option synthInstance.maxSize 512 in
/-- Two points, one cluster with medoid (0, 1), one test sample: the order of the whole model is that found
for two samples. -/
example : trainSolver (autoTrainer exampleLib (some 2) 1 2) (refitTrainer exampleLib)
      (.plain ⟨3, ⟨1, 2, [[some 5, none, some 1], [some 7, some 1, some 1]]⟩⟩) 1
      ⟨⟨1, 2, [0, 0]⟩, 1, 0⟩ [⟨0, 1⟩] (some .zero) none =
    .ok (⟨1, 2, [some (.model (⟨2, 1, 0⟩, 7)), some (.model (⟨2, 1, 0⟩, 7))]⟩,
      ⟨1, 2, [some (.model (⟨2, 1, 0⟩, 7)), some (.model (⟨2, 1, 0⟩, 7))]⟩) := by decide +kernel

/-! ### C99 -/

/-- **C99**: the sweep over ARIMA parameters gives every combination of the values, and nothing else. -/
theorem C99_complete (ps ds qs : List Int) (o : PDQ) :
    o ∈ arimaParamsGen ps ds qs ↔ o.p ∈ ps ∧ o.d ∈ ds ∧ o.q ∈ qs := by
  obtain ⟨p, d, q⟩ := o
  simp only [arimaParamsGen, List.mem_flatMap, List.mem_map, PDQ.mk.injEq]
  constructor
  · rintro ⟨p', hp, d', hd, q', hq, rfl, rfl, rfl⟩
    exact ⟨hp, hd, hq⟩
  · rintro ⟨hp, hd, hq⟩
    exact ⟨p, hp, d, hd, q, hq, rfl, rfl, rfl⟩

/-- **C99** (how often): every combination is given as often as its values are repeated in the lists; exactly once if they
are not. -/
theorem C99_count (ps ds qs : List Int) (o : PDQ) :
    (arimaParamsGen ps ds qs).count o = ps.count o.p * (ds.count o.d * qs.count o.q) ∧
    (ps.Nodup → ds.Nodup → qs.Nodup → (arimaParamsGen ps ds qs).Nodup) := by
  have key : ∀ (f : Int → List PDQ) (b : Int) (n : Nat) (o : PDQ), (f b).count o = n →
      (∀ a, a ≠ b → (f a).count o = 0) → ∀ l : List Int, (l.flatMap f).count o = l.count b * n := by
    intro f b n o h1 h2 l
    induction l with
    | nil => simp
    | cons a l ih =>
      rw [List.flatMap_cons, List.count_append, ih, List.count_cons]
      by_cases h : a = b
      · subst h; simp [h1, Nat.succ_mul, Nat.add_comm]
      · simp [h2 a h, h]
  have hq : ∀ (p d : Int) (o : PDQ), p = o.p → d = o.d →
      (qs.map fun q => (⟨p, d, q⟩ : PDQ)).count o = qs.count o.q := by
    rintro p d ⟨p', d', q⟩ rfl rfl
    exact List.count_map_of_injective qs (fun q => (⟨p, d, q⟩ : PDQ)) (fun a b h => by cases h; rfl) q
  have hcount : ∀ o : PDQ, (arimaParamsGen ps ds qs).count o = ps.count o.p * (ds.count o.d * qs.count o.q) := by
    intro o
    refine key _ o.p _ o (key _ o.d _ o (hq _ _ o rfl rfl) ?_ ds) ?_ ps
    · intro a ha
      refine List.count_eq_zero.2 fun hm => ?_
      obtain ⟨q, -, hq'⟩ := List.mem_map.1 hm
      exact ha (congrArg PDQ.d hq')
    · intro a ha
      refine List.count_eq_zero.2 fun hm => ?_
      obtain ⟨d, -, hm⟩ := List.mem_flatMap.1 hm
      obtain ⟨q, -, rfl⟩ := List.mem_map.1 hm
      exact ha rfl
  refine ⟨hcount o, fun h1 h2 h3 => List.nodup_iff_count_le_one.2 fun o => ?_⟩
  rw [hcount o]
  have a1 := List.nodup_iff_count_le_one.1 h1 o.p
  have a2 := List.nodup_iff_count_le_one.1 h2 o.d
  have a3 := List.nodup_iff_count_le_one.1 h3 o.q
  calc _ ≤ 1 * (1 * 1) := Nat.mul_le_mul a1 (Nat.mul_le_mul a2 a3)
    _ = 1 := rfl

/-- A repeated value is swept twice. -/
example : (arimaParamsGen [1, 1] [0] [2, 3]).count ⟨1, 0, 3⟩ = 2 ∧ (arimaParamsGen [1, 2] [0] [2, 3]).Nodup := by
  decide

/-- **C99**: the parameters number `k` of the sweep, in the order of the documentation: `q` varies first, then
`d`, then `p`. There are as many as combinations of positions. -/
theorem C99_order (ps ds qs : List Int) :
    (arimaParamsGen ps ds qs).length = ps.length * (ds.length * qs.length) ∧
    ∀ (i j k : Nat) (p d q : Int), ps[i]? = some p → ds[j]? = some d → qs[k]? = some q →
      (arimaParamsGen ps ds qs)[(i * ds.length + j) * qs.length + k]? = some ⟨p, d, q⟩ := by
  have key : ∀ {B C : Type} (n : Nat) (f : B → List C) (l : List B), (∀ b ∈ l, (f b).length = n) →
      (l.flatMap f).length = l.length * n ∧ ∀ (i k : Nat) (b : B) (c : C), l[i]? = some b →
        (f b)[k]? = some c → (l.flatMap f)[i * n + k]? = some c := by
    intro B C n f l
    induction l with
    | nil => intro _; exact ⟨by simp, by intro i k b c h; simp at h⟩
    | cons b l ih =>
      intro h
      obtain ⟨i1, i2⟩ := ih fun b hb => h b (by simp [hb])
      have hb := h b (by simp)
      refine ⟨by simp [List.flatMap_cons, i1, hb, Nat.succ_mul, Nat.add_comm], ?_⟩
      intro i k b' c hi hk
      rw [List.flatMap_cons]
      cases i with
      | zero =>
        simp only [List.getElem?_cons_zero, Option.some.injEq] at hi
        subst hi
        rw [Nat.zero_mul, Nat.zero_add, List.getElem?_append_left (List.getElem?_eq_some_iff.1 hk).1]
        exact hk
      | succ i =>
        simp only [List.getElem?_cons_succ] at hi
        rw [List.getElem?_append_right (by rw [hb, Nat.succ_mul]; omega), hb]
        have : (i + 1) * n + k - n = i * n + k := by rw [Nat.succ_mul]; omega
        rw [this]
        exact i2 i k b' c hi hk
  have kd : ∀ p : Int, (ds.flatMap fun d => qs.map fun q => (⟨p, d, q⟩ : PDQ)).length = ds.length * qs.length ∧
      ∀ (j k : Nat) (d : Int) (c : PDQ), ds[j]? = some d → (qs.map fun q => (⟨p, d, q⟩ : PDQ))[k]? = some c →
        (ds.flatMap fun d => qs.map fun q => (⟨p, d, q⟩ : PDQ))[j * qs.length + k]? = some c := fun p =>
    key qs.length (fun d => qs.map fun q => (⟨p, d, q⟩ : PDQ)) ds (by simp)
  obtain ⟨kp1, kp2⟩ := key (ds.length * qs.length)
    (fun p => ds.flatMap fun d => qs.map fun q => (⟨p, d, q⟩ : PDQ)) ps (fun p _ => (kd p).1)
  refine ⟨kp1, ?_⟩
  intro i j k p d q hi hj hk
  have h := (kd p).2 j k d ⟨p, d, q⟩ hj (by rw [List.getElem?_map, hk]; rfl)
  have := kp2 i (j * qs.length + k) p _ hi h
  rw [Nat.add_mul, Nat.mul_assoc, Nat.add_assoc]
  exact this

/-- The example of the documentation. -/
example : arimaParamsGen [1, 2] [0, 2] [0, 1] = [⟨1, 0, 0⟩, ⟨1, 0, 1⟩, ⟨1, 2, 0⟩, ⟨1, 2, 1⟩, ⟨2, 0, 0⟩,
    ⟨2, 0, 1⟩, ⟨2, 2, 0⟩, ⟨2, 2, 1⟩] := by decide

end Spta
