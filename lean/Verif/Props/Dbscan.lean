import Verif.Lemmas.Clustering
import Verif.Lemmas.Grid
import Verif.Lemmas.Region
import Verif.Model.ClusterRun
import Verif.Model.Dbscan
import Verif.Spec.Dbscan

/-!
# The DBSCAN clustering (C117)
-/

namespace Spta

variable {M : Type}

theorem labelsWithNoise_max {groups : Nat} {labels : List Int} (hl : GroupLabels groups labels)
    (hne : labels ≠ []) : (labelsWithNoise labels).max? = some groups := by
  rw [List.max?_eq_some_iff]
  refine ⟨?_, ?_⟩
  · unfold labelsWithNoise
    rw [List.mem_map]
    cases groups with
    | zero =>
      obtain ⟨l, hl'⟩ := List.exists_mem_of_ne_nil labels hne
      have := hl.range l hl'
      exact ⟨l, hl', by omega⟩
    | succ g => exact ⟨(g : Int), hl.all g (by omega), by omega⟩
  · intro b hb
    obtain ⟨l, hl', rfl⟩ := List.mem_map.1 hb
    have := hl.range l hl'
    omega

/-- C117: executed as a program, DBSCAN gives a partition with one cluster more than groups: cluster 0 has exactly
the noise, cluster `g + 1` exactly group `g`. All clusters but the first have points, the first one if there
is noise. -/
theorem C117_groups_partial {fit : M → List Int} {matrix own : M} {groups tLen xLen yLen : Nat}
    (hl : GroupLabels groups (fit matrix)) (hlen : (fit matrix).length = xLen * yLen) (hne : 0 < xLen * yLen)
    (withMedoids : Bool) : ∃ pt,
    dbscanPartitionImpl fit (some matrix) own (.temporal tLen xLen yLen) withMedoids = .ok (pt, none) ∧
    pt.k = groups + 1 ∧ pt.labels.xLen = xLen ∧ pt.labels.yLen = yLen ∧
    (∀ p : Point, p.x < xLen → p.y < yLen → ∃ l, (fit matrix)[p.x * yLen + p.y]? = some l ∧
      (pt.isMember p 0 = .ok true ↔ l = -1) ∧
      ∀ g, pt.isMember p (g + 1) = .ok true ↔ l = (g : Int)) ∧
    (∀ i, 0 < i → i < pt.k → ∃ p : Point, pt.isMember p i = .ok true) ∧
    ((∃ p : Point, pt.isMember p 0 = .ok true) ↔ (-1) ∈ fit matrix) := by
  have hnil : fit matrix ≠ [] := by
    intro h; rw [h, List.length_nil] at hlen; omega
  have hget : ∀ p : Point, p.x < xLen → p.y < yLen → ∃ l, (fit matrix)[p.x * yLen + p.y]? = some l ∧
      (⟨xLen, yLen, labelsWithNoise (fit matrix)⟩ : Grid Nat).get p = .ok (l + 1).toNat := by
    intro p hx hy
    have hlt : p.x * yLen + p.y < (fit matrix).length := by
      rw [hlen]
      calc p.x * yLen + p.y < p.x * yLen + yLen := by omega
        _ = (p.x + 1) * yLen := by rw [Nat.add_mul, Nat.one_mul]
        _ ≤ xLen * yLen := Nat.mul_le_mul_right _ hx
    refine ⟨_, List.getElem?_eq_getElem hlt, ?_⟩
    rw [Grid.get_eq_ok_iff]
    refine ⟨hx, hy, ?_⟩
    unfold labelsWithNoise
    rw [List.getElem?_map, List.getElem?_eq_getElem hlt]
    rfl
  have hmem : ∀ p : Point, ∀ i, Partition.isMember ⟨⟨xLen, yLen, labelsWithNoise (fit matrix)⟩, groups + 1, 0⟩ p i =
      .ok true ↔ (⟨xLen, yLen, labelsWithNoise (fit matrix)⟩ : Grid Nat).get p = .ok i := by
    intro p i
    unfold Partition.isMember
    simp only
    cases h : (⟨xLen, yLen, labelsWithNoise (fit matrix)⟩ : Grid Nat).get p with
    | error e => simp
    | ok v => simp
  have hpoint : ∀ (l : Int), l ∈ fit matrix → ∃ p : Point, p.x < xLen ∧ p.y < yLen ∧
      (fit matrix)[p.x * yLen + p.y]? = some l := by
    intro l h
    obtain ⟨n, hn⟩ := List.mem_iff_getElem?.1 h
    have hlt := (List.getElem?_eq_some_iff.1 hn).1
    rw [hlen] at hlt
    have hy : 0 < yLen := Nat.pos_of_ne_zero fun h0 => by rw [h0] at hne; simp at hne
    refine ⟨⟨n / yLen, n % yLen⟩, ?_, Nat.mod_lt _ hy, ?_⟩
    · exact (Nat.div_lt_iff_lt_mul hy).2 hlt
    · have : n / yLen * yLen + n % yLen = n := by rw [Nat.mul_comm]; exact Nat.div_add_mod n yLen
      simpa [this] using hn
  refine ⟨⟨⟨xLen, yLen, labelsWithNoise (fit matrix)⟩, groups + 1, 0⟩, ?_, rfl, rfl, rfl, ?_, ?_, ?_⟩
  · unfold dbscanPartitionImpl Partition.fromMembershipArray Partition.create
    have : (labelsWithNoise (fit matrix)).length = xLen * yLen := by
      unfold labelsWithNoise; rw [List.length_map, hlen]
    simp only [labelsWithNoise_max hl hnil, this, if_true]
  · intro p hx hy
    obtain ⟨l, h1, h2⟩ := hget p hx hy
    have hr := hl.range l (List.mem_of_getElem? h1)
    refine ⟨l, h1, ?_, ?_⟩
    · rw [hmem, h2]
      constructor
      · intro h; have := Except.ok.inj h; omega
      · rintro rfl; rfl
    · intro g
      rw [hmem, h2]
      constructor
      · intro h; have := Except.ok.inj h; omega
      · rintro rfl; congr 1
  · intro i h0 hk
    obtain ⟨g, rfl⟩ : ∃ g, i = g + 1 := ⟨i - 1, by omega⟩
    obtain ⟨p, hx, hy, hp⟩ := hpoint (g : Int) (hl.all g (by simpa using hk))
    obtain ⟨l, h1, h2⟩ := hget p hx hy
    rw [hp] at h1
    have := Option.some.inj h1
    subst this
    exact ⟨p, (hmem p _).2 (by rw [h2]; congr 1)⟩
  · constructor
    · rintro ⟨p, hp⟩
      rw [hmem] at hp
      obtain ⟨hx, hy, _⟩ := (Grid.get_eq_ok_iff _ _ _).1 hp
      obtain ⟨l, h1, h2⟩ := hget p hx hy
      rw [h2] at hp
      have := Except.ok.inj hp
      have hr := hl.range l (List.mem_of_getElem? h1)
      have : l = -1 := by omega
      rw [← this]
      exact List.mem_of_getElem? h1
    · intro h
      obtain ⟨p, hx, hy, hp⟩ := hpoint (-1) h
      obtain ⟨l, h1, h2⟩ := hget p hx hy
      rw [hp] at h1
      have := Option.some.inj h1
      subst this
      exact ⟨p, (hmem p _).2 (by rw [h2]; rfl)⟩

example : GroupLabels 2 [1, -1, 0, 0] ∧
    dbscanPartitionImpl (M := Unit) (fun _ => [1, -1, 0, 0]) (some ()) () (.temporal 5 2 2) true =
      .ok (⟨⟨2, 2, [2, 0, 1, 1]⟩, 3, 0⟩, none) :=
  ⟨⟨by decide, by decide⟩, by decide⟩

/-- C117, refuted part: used from another module the algorithm always raises NameError, whatever distances it was
created with. -/
theorem C117_name_refuted (fit : M → List Int) (own : M) (shape : RegionShape) (withMedoids : Bool) :
    dbscanPartitionImpl fit none own shape withMedoids = .error .nameError := rfl

/-- C117, refuted part: it never clusters spatial regions, although `partition_2d` is documented to do so. -/
theorem C117_spatial_refuted (fit : M → List Int) (matrix own : M) (xLen yLen : Nat) (withMedoids : Bool) :
    dbscanPartitionImpl fit (some matrix) own (.spatial xLen yLen) withMedoids = .error .valueError := rfl

/-- C117, refuted part: the medoids that were asked for are missing. -/
theorem C117_medoids_refuted {fit : M → List Int} {global : Option M} {own : M} {shape : RegionShape}
    {r : Partition × Option (List (Option Point))} (h : dbscanPartitionImpl fit global own shape true = .ok r) :
    r.2 = none := by
  unfold dbscanPartitionImpl at h
  split at h
  · cases h
  · split at h
    · cases h
    · split at h
      · cases h
      · cases h; rfl

/-- C117, refuted part: without noise the partition has an empty cluster, one more than the estimated number; and
the report of the clustering, whose number of clusters is 0 by default, is empty. -/
theorem C117_empty_refuted : ∃ (labels : List Int) (pt : Partition), GroupLabels 2 labels ∧
    dbscanPartitionImpl (M := Unit) (fun _ => labels) (some ()) () (.temporal 5 2 2) true = .ok (pt, none) ∧
    pt.k = estimatedClusters labels + 1 ∧ (∀ p : Point, pt.isMember p 0 ≠ .ok true) ∧
    clusteringReport (K := ℚ) pt 0 = .ok [] := by
  refine ⟨[1, 1, 0, 0], ⟨⟨2, 2, [2, 2, 1, 1]⟩, 3, 0⟩, ⟨by decide, by decide⟩, by decide, by decide, ?_, rfl⟩
  intro p h
  have h1 : (⟨2, 2, [2, 2, 1, 1]⟩ : Grid Nat).get p = .ok 0 := by
    unfold Partition.isMember at h
    split at h
    · cases h
    · rename_i l hl
      rw [hl]
      simpa using h
  have := ((Grid.get_eq_ok_iff _ _ _).1 h1).2.2
  have := List.mem_of_getElem? this
  revert this
  decide

/-- C117: the number of clusters is recovered from the representation by the class, but not by the factory. -/
theorem C117_repr (k : Int) : dbscanFromRepr (dbscanRepr k) = .ok k ∧
    factoryFromRepr (dbscanRepr k) = .error .valueError := by
  have h1 : '_' ∉ sDbscan := by decide
  have h2 : '_' ∉ 'k' :: intStr k := by
    have := intStr_no_underscore k
    simp [this]
  have e : pySplit '_' (dbscanRepr k) = [sDbscan, 'k' :: intStr k] := by
    have e : dbscanRepr k = sDbscan ++ '_' :: ('k' :: intStr k) := by simp [dbscanRepr]
    rw [e, pySplit_append, pySplit_of_not_mem h1, pySplit_of_not_mem h2]
    rfl
  have h3 : sDbscan ≠ sRegular := by decide
  have h4 : sDbscan ≠ sKmedoids := by decide
  unfold dbscanFromRepr factoryFromRepr
  rw [e]
  simp [listAt, pyInt_intStr, h3, h4]

end Spta
