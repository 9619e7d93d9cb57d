import Verif.Spec.SolverSession
import Verif.Props.SolverFiles
import Verif.Props.SolverTrain

/-!
# C120: sessions of the solver programs
-/

set_option linter.unusedSectionVars false

namespace Spta

/-- **C120** (catalogue): the predefined regions are found under their own representation, and are a good
catalogue. -/
theorem C120_catalogue : GoodCatalogue (predefinedRegions.map Prod.snd) ∧
    (∀ e ∈ predefinedRegions, e.1 = e.2.repr) ∧ (predefinedRegions.map Prod.fst).Nodup := by
  unfold GoodCatalogue
  decide +kernel

/-- **C120** (arguments): the metadata of a solver hold all arguments, so that two runs ask for the same solver
exactly if their arguments agree; only the regular clustering ignores the seed. -/
theorem C120_arguments (a a' : SolverArgs) : a.metadata = a'.metadata ↔
    a.program = a'.program ∧ a.region = a'.region ∧ a.clustering = a'.clustering ∧ a.k = a'.k ∧
      (a.clustering = .kmedoids → a.seed = a'.seed) ∧ a.testLen = a'.testLen ∧
      a.errorType = a'.errorType := by
  obtain ⟨p, r, c, k, s, t, e⟩ := a
  obtain ⟨p', r', c', k', s', t', e'⟩ := a'
  have hp : p.params = p'.params ↔ p = p' := by
    cases p <;> cases p' <;> simp [SolverProgram.params]
  simp only [SolverArgs.metadata, SolverMeta.mk.injEq, hp]
  cases c <;> cases c' <;> simp <;> tauto

/-- **C120** (arguments): the clustering has the number of clusters and the seed of the arguments, the distance
is DTW, and the models have the parameters of the program. -/
theorem C120_metadata (r : RegionMeta) (k seed past : Int) (t : Nat) (e : Str) :
    (SolverArgs.metadata ⟨.autoArima, r, .kmedoids, k, seed, t, e⟩ = ⟨r, .autoArima 1 1 3 3 none true, t, e,
      .kmedoids ⟨k, seed, "lite".toList, none, 1000⟩, .dtw⟩) ∧
    (SolverArgs.metadata ⟨.meanPast past, r, .regular, k, seed, t, e⟩ = ⟨r, .mean past, t, e, .regular k, .dtw⟩) ∧
    (SolverArgs.metadata ⟨.knn past, r, .regular, k, seed, t, e⟩ = ⟨r, .knn past .dtw, t, e, .regular k, .dtw⟩) :=
  ⟨rfl, rfl, rfl⟩

section

variable {K : Type} [Field K] [LinearOrder K] {P Q M : Type} {w : SolverWorld K P Q M}
variable {regions : List RegionMeta}

theorem kmMeta_good (k seed : Int) : ({ k := k, seed := seed } : KmMeta).NatInitial := by
  intro im h
  cases h

theorem accepted_good (hc : GoodCatalogue regions) {a : SolverArgs} (h : a.Accepted regions) :
    GoodSolver a.metadata := by
  have hn := hc.1 _ h.1
  have he := h.2
  refine ⟨?_, ?_⟩
  · unfold SolverArgs.metadata
    cases a.clustering with
    | regular => exact hn
    | kmedoids => exact ⟨hn, by show '/' ∉ sLite; decide, by show '_' ∉ sLite; decide, kmMeta_good _ _⟩
  · show '/' ∉ a.errorType
    simp only [List.mem_cons, List.not_mem_nil, or_false] at he
    rcases he with e | e | e <;> rw [e] <;> decide

theorem accepted_settings (hc : GoodCatalogue regions) {a a' : SolverArgs} (h : a.Accepted regions)
    (h' : a'.Accepted regions)
    (hs : SameSettings a.metadata.md a'.metadata.md a.metadata.clustering a'.metadata.clustering) :
    a.metadata.md = a'.metadata.md ∧ a.metadata.clustering = a'.metadata.clustering := by
  obtain ⟨h1, h2, h3, h4, h5, h6⟩ := hs
  refine ⟨hc.2 _ h.1 _ h'.1 h1 h2 h3 h4 h5, ?_⟩
  revert h6
  unfold SolverArgs.metadata
  cases a.clustering <;> cases a'.clustering <;> simp

theorem accepted_params {a a' : SolverArgs} (hp : SameParams a.metadata.params a'.metadata.params) :
    a.metadata.params = a'.metadata.params := by
  revert hp
  show SameParams a.program.params a'.program.params → a.program.params = a'.program.params
  cases a.program <;> cases a'.program <;> simp [SolverProgram.params, SameParams]

theorem accepted_same (hc : GoodCatalogue regions) {a a' : SolverArgs} (h : a.Accepted regions)
    (h' : a'.Accepted regions)
    (hs : SameSettings a.metadata.md a'.metadata.md a.metadata.clustering a'.metadata.clustering)
    (hp : SameParams a.metadata.params a'.metadata.params) : SameButTest a.metadata a'.metadata :=
  ⟨(accepted_settings hc h h' hs).1, accepted_params hp, (accepted_settings hc h h' hs).2, rfl⟩

theorem meta_ext {m m' : SolverMeta} (h : SameButTest m m') (ht : m.testLen = m'.testLen)
    (he : m.errorType = m'.errorType) : m = m' := by
  obtain ⟨h1, h2, h3, h4⟩ := h
  cases m; cases m'
  simp_all

theorem SameSettings.rfl' (md : RegionMeta) (c : ClusterMeta) : SameSettings md md c c := by
  unfold SameSettings
  cases c <;> simp

theorem SameButTest.whole {m m' : SolverMeta} (h : SameButTest m m') : m.wholePath = m'.wholePath := by
  obtain ⟨h1, h2, h3, h4⟩ := h
  unfold SolverMeta.wholePath SolverMeta.pickleDir
  rw [modelFile_false, modelFile_false, h1, h2, h3, h4]

theorem SameButTest.training {m m' : SolverMeta} (h : SameButTest m m') (ht : m.testLen = m'.testLen) :
    m.trainingPath = m'.trainingPath := by
  obtain ⟨h1, h2, h3, h4⟩ := h
  unfold SolverMeta.trainingPath SolverMeta.pickleDir
  rw [modelFile_true, modelFile_true, h1, h2, h3, h4, ht]

/-! ### Training from scratch -/

theorem trainCompleteSolver_ok {t : Trainer K P M} {refitter : Grid (Option M) → Trainer K Q M}
    {forecast : M → Nat → Except PyErr (List (Option K))} {errorType : String} {scaled : Bool}
    {s : Stack K} {testLen : Nat} {pt : Partition} {medoids : List Point} {zero junk : Option M}
    {sv : Solver K M}
    (h : trainCompleteSolver t refitter forecast errorType scaled s testLen pt medoids zero junk = .ok sv) :
    trainSolver t refitter s testLen pt medoids zero junk = .ok (sv.training, sv.whole) ∧
      sv.testLen = testLen ∧ sv.scaled = scaled ∧ sv.spt = s := by
  unfold trainCompleteSolver at h
  unfold trainSolver
  cases a1 : t.applyAtRepresentatives medoids zero (splitLast s testLen).1 with
  | error e => simp [a1] at h
  | ok atMedoids =>
    simp only [a1] at h ⊢
    cases a2 : replicateModels atMedoids.1 pt medoids junk with
    | error e => simp [a2] at h
    | ok tr =>
      simp only [a2] at h ⊢
      cases a5 : calculateErrors forecast errorType tr (splitLast s testLen).1 (splitLast s testLen).2 with
      | error e => simp [a5] at h
      | ok errors =>
        simp only [a5] at h
        cases a3 : (refitter atMedoids.1).applyTo zero s with
        | error e => simp [a3] at h
        | ok refitted =>
          simp only [a3] at h ⊢
          cases a4 : replicateModels refitted.1 pt medoids junk with
          | error e => simp [a4] at h
          | ok wh =>
            simp only [a4, Except.ok.injEq] at h ⊢
            subst h
            exact ⟨rfl, rfl, rfl, rfl⟩

/-- What training from scratch is made of. -/
theorem freshSolver_ok {m : SolverMeta} {sv : Solver K M} {p : Partition × List Point}
    (h : freshSolver w m = .ok (sv, p)) :
    w.matrix m.md = .ok () ∧ w.region m.md = .ok sv.spt ∧ w.partition m.md m.dist m.clustering = .ok p ∧
      sv.testLen = m.testLen ∧ sv.scaled = m.md.scaled ∧
      trainCompleteSolver (w.trainer m.params m.md) (w.refitter m.params m.md) w.forecast
        (String.ofList m.errorType) m.md.scaled sv.spt m.testLen p.1 p.2 w.zero w.junk = .ok sv ∧
      trainSolver (w.trainer m.params m.md) (w.refitter m.params m.md) sv.spt m.testLen p.1 p.2 w.zero
        w.junk = .ok (sv.training, sv.whole) := by
  unfold freshSolver at h
  cases h1 : w.matrix m.md with
  | error e => simp [h1, bind, Except.bind] at h
  | ok u =>
    cases h2 : w.region m.md with
    | error e => simp [h1, h2, bind, Except.bind] at h
    | ok spt =>
      cases h3 : w.partition m.md m.dist m.clustering with
      | error e => simp [h1, h2, h3, bind, Except.bind] at h
      | ok p' =>
        simp only [h1, h2, h3, bind, Except.bind] at h
        cases h4 : trainCompleteSolver (w.trainer m.params m.md) (w.refitter m.params m.md) w.forecast
            (String.ofList m.errorType) m.md.scaled spt m.testLen p'.1 p'.2 w.zero w.junk with
        | error e => simp [h4] at h
        | ok sv' =>
          simp only [h4, pure, Except.pure, Except.ok.injEq, Prod.mk.injEq] at h
          obtain ⟨rfl, rfl⟩ := h
          obtain ⟨g1, g2, g3, g4⟩ := trainCompleteSolver_ok h4
          subst g4
          exact ⟨rfl, rfl, rfl, g2, g3, h4, g1⟩

/-- The training models do not depend on the type of error. -/
theorem fresh_training {m m' : SolverMeta} {sv sv' : Solver K M} {p p' : Partition × List Point}
    (hs : SameButTest m m') (ht : m.testLen = m'.testLen) (h : freshSolver w m = .ok (sv, p))
    (h' : freshSolver w m' = .ok (sv', p')) : sv.training = sv'.training := by
  obtain ⟨-, a2, a3, -, -, -, a7⟩ := freshSolver_ok h
  obtain ⟨-, b2, b3, -, -, -, b7⟩ := freshSolver_ok h'
  obtain ⟨e1, e2, e3, e4⟩ := hs
  rw [e1] at a2 a3 a7
  rw [e2] at a7
  rw [e3, e4] at a3
  rw [ht] at a7
  rw [a2] at b2
  rw [a3] at b3
  injection b2 with b2
  injection b3 with b3
  rw [b2, b3, b7] at a7
  injection a7 with a7
  injection a7 with a7
  exact a7.symm

/-- The models of the whole series do not depend on the type of error. -/
theorem fresh_whole {m m' : SolverMeta} {sv sv' : Solver K M} {p p' : Partition × List Point}
    (hs : SameButTest m m') (ht : m.testLen = m'.testLen) (h : freshSolver w m = .ok (sv, p))
    (h' : freshSolver w m' = .ok (sv', p')) : sv.whole = sv'.whole := by
  obtain ⟨-, a2, a3, -, -, -, a7⟩ := freshSolver_ok h
  obtain ⟨-, b2, b3, -, -, -, b7⟩ := freshSolver_ok h'
  obtain ⟨e1, e2, e3, e4⟩ := hs
  rw [e1] at a2 a3 a7
  rw [e2] at a7
  rw [e3, e4] at a3
  rw [ht] at a7
  rw [a2] at b2
  rw [a3] at b3
  injection b2 with b2
  injection b3 with b3
  rw [b2, b3, b7] at a7
  injection a7 with a7
  injection a7 with _ a7
  exact a7.symm

/-- With its own refitter, they do not depend on the number of test samples either. -/
theorem fresh_whole_own {w : SolverWorld K P P M} {m m' : SolverMeta} (hown : OwnRefitter w m'.params)
    {sv sv' : Solver K M} {p p' : Partition × List Point}
    (hs : SameButTest m m') (h : freshSolver w m = .ok (sv, p))
    (h' : freshSolver w m' = .ok (sv', p')) : sv.whole = sv'.whole := by
  obtain ⟨-, a2, a3, -, -, -, a7⟩ := freshSolver_ok h
  obtain ⟨-, b2, b3, -, -, -, b7⟩ := freshSolver_ok h'
  obtain ⟨e1, e2, e3, e4⟩ := hs
  rw [e1] at a2 a3 a7
  rw [e2] at a7
  rw [e3, e4] at a3
  rw [a2] at b2
  rw [a3] at b3
  injection b2 with b2
  injection b3 with b3
  rw [b2, b3] at a7
  have hr : w.refitter m'.params m'.md = (w.trainer m'.params m'.md).sameRefitter := by
    funext g
    exact hown _ g
  rw [hr] at a7 b7
  exact C78_same_refitter _ _ _ _ _ _ _ _ a7 b7

/-! ### The runs of the commands -/

theorem compute_request (m : SolverMeta) (b : Bool) :
    w.compute (m.request b) = w.partition m.md m.dist m.clustering := rfl

/-- The partitions among the files are the ones that would be computed. -/
def GoodPartitions (w : SolverWorld K P Q M) (regions : List RegionMeta)
    (store : SolverStore K M (Partition × List Point)) : Prop :=
  ∀ a : SolverArgs, a.Accepted regions → ∀ p,
    store.partitions (picklePath a.metadata.md a.metadata.dist a.metadata.clustering) = some p →
      w.partition a.metadata.md a.metadata.dist a.metadata.clustering = .ok p

theorem partitionOf_fst {store : SolverStore K M (Partition × List Point)}
    (hp : GoodPartitions w regions store) {a : SolverArgs} (h : a.Accepted regions) (b : Bool) :
    (partitionOf w.compute a.metadata b store).1 =
      w.partition a.metadata.md a.metadata.dist a.metadata.clustering := by
  unfold partitionOf
  cases hs : store.partitions (picklePath a.metadata.md a.metadata.dist a.metadata.clustering) with
  | some p => simp only [hp a h p hs]
  | none =>
    simp only [compute_request]
    cases w.partition a.metadata.md a.metadata.dist a.metadata.clustering <;> rfl

theorem pickleFile_iff {m m' : SolverMeta} (h : GoodSolver m) (h' : GoodSolver m') :
    picklePath m.md m.dist m.clustering = picklePath m'.md m'.dist m'.clustering ↔
      SameSettings m.md m'.md m.clustering m'.clustering := C38_path h.1 h'.1

theorem partitionOf_good (hc : GoodCatalogue regions) {store : SolverStore K M (Partition × List Point)}
    (hp : GoodPartitions w regions store) {a : SolverArgs} (h : a.Accepted regions) (b : Bool) :
    GoodPartitions w regions (partitionOf w.compute a.metadata b store).2 := by
  intro a' h' p hs
  by_cases e : picklePath a'.metadata.md a'.metadata.dist a'.metadata.clustering =
      picklePath a.metadata.md a.metadata.dist a.metadata.clustering
  · obtain ⟨e1, e2⟩ := accepted_settings hc h' h
      ((pickleFile_iff (accepted_good hc h') (accepted_good hc h)).1 e)
    rw [e1, e2, show a'.metadata.dist = a.metadata.dist from rfl]
    rw [e] at hs
    cases hk : w.partition a.metadata.md a.metadata.dist a.metadata.clustering with
    | ok p' =>
      have := partitionOf_found (compute := w.compute) a.metadata b store (p := p')
        (by rw [partitionOf_fst hp h, hk])
      rw [this] at hs
      injection hs with hs
      rw [hs]
    | error er =>
      exfalso
      unfold partitionOf at hs
      cases hs' : store.partitions (picklePath a.metadata.md a.metadata.dist a.metadata.clustering) with
      | some q => rw [hp a h q hs'] at hk; cases hk
      | none =>
        simp only [hs', compute_request, hk] at hs
        cases hs
  · refine hp a' h' p ?_
    have := partitionOf_other (compute := w.compute) a.metadata b store e
    unfold SolverStore.partitions at hs ⊢
    rw [this] at hs
    exact hs

/-- A run of the train command. -/
theorem trainCommand_cases {store : SolverStore K M (Partition × List Point)}
    (hp : GoodPartitions w regions store) {a : SolverArgs} (h : a.Accepted regions) :
    ∃ st, (st = store ∨ st = (partitionOf w.compute a.metadata true store).2) ∧
      ((∃ e, freshSolver w a.metadata = .error e ∧ trainCommand w a.metadata store = (.error e, st)) ∨
       ∃ sv p, freshSolver w a.metadata = .ok (sv, p) ∧ trainCommand w a.metadata store =
        (.ok (), saveSolver a.metadata ⟨sv.training, sv.whole, sv.errors, p⟩ st)) := by
  have hfst := partitionOf_fst hp h true
  unfold freshSolver trainCommand
  cases h1 : w.matrix a.metadata.md with
  | error e => exact ⟨store, .inl rfl, .inl ⟨e, rfl, rfl⟩⟩
  | ok u =>
    cases h2 : w.region a.metadata.md with
    | error e => exact ⟨store, .inl rfl, .inl ⟨e, rfl, rfl⟩⟩
    | ok spt =>
      refine ⟨_, .inr rfl, ?_⟩
      generalize partitionOf w.compute a.metadata true store = r at hfst ⊢
      obtain ⟨r1, st⟩ := r
      simp only at hfst ⊢
      rw [← hfst]
      cases r1 with
      | error e => exact .inl ⟨e, rfl, rfl⟩
      | ok p =>
        simp only [bind, Except.bind]
        cases h4 : trainCompleteSolver (w.trainer a.metadata.params a.metadata.md)
            (w.refitter a.metadata.params a.metadata.md) w.forecast (String.ofList a.metadata.errorType)
            a.metadata.md.scaled spt a.metadata.testLen p.1 p.2 w.zero w.junk with
        | error e => exact .inl ⟨e, rfl, rfl⟩
        | ok sv => exact .inr ⟨sv, p, rfl, rfl⟩

theorem loadSolver_after (m : SolverMeta) (store : SolverStore K M (Partition × List Point)) :
    (loadSolver w.compute m store).2 = (partitionOf w.compute m false store).2 := by
  unfold loadSolver
  rw [loadPartition_eq]
  generalize partitionOf w.compute m false store = r
  obtain ⟨r1, st⟩ := r
  cases r1 with
  | error e => rfl
  | ok p =>
    simp only
    split
    · rfl
    · split
      · rfl
      · split <;> rfl

theorem predictCommand_store (m : SolverMeta) (r : Region) (n : Int)
    (store : SolverStore K M (Partition × List Point)) :
    (predictCommand w m r n store).2 = (partitionOf w.compute m false store).2 := by
  rw [← loadSolver_after]
  unfold predictCommand
  generalize loadSolver w.compute m store = l
  obtain ⟨l1, st⟩ := l
  cases l1 with
  | error e => rfl
  | ok s =>
    simp only
    split <;> rfl

/-! ### The files of a session -/

/-- What the files hold after a session. -/
structure SessionFiles (w : SolverWorld K P Q M) (regions : List RegionMeta) (session : List SolverCommand)
    (store : SolverStore K M (Partition × List Point)) : Prop where
  part : GoodPartitions w regions store
  errors : ∀ a : SolverArgs, a.Accepted regions → ∀ f, store a.metadata.errorsPath = some f ↔
    ∃ sv p, freshSolver w a.metadata = .ok (sv, p) ∧ TrainedIn session a.metadata ∧ f = .errors sv.errors
  training : ∀ a : SolverArgs, a.Accepted regions → ∀ sv p, freshSolver w a.metadata = .ok (sv, p) →
    TrainedIn session a.metadata → store a.metadata.trainingPath = some (.models sv.training)
  whole : ∀ a : SolverArgs, a.Accepted regions → ∀ sv p, freshSolver w a.metadata = .ok (sv, p) →
    TrainedIn session a.metadata → ∃ a' sv' p', SameButTest a'.metadata a.metadata ∧ .train a' ∈ session ∧
      freshSolver w a'.metadata = .ok (sv', p') ∧ store a.metadata.wholePath = some (.models sv'.whole)
  kinds : ∀ a : SolverArgs, a.Accepted regions → ∀ f,
    store a.metadata.trainingPath = some f ∨ store a.metadata.wholePath = some f → ∃ g, f = .models g

theorem TrainedIn.mono {session : List SolverCommand} {m : SolverMeta} (h : TrainedIn session m)
    (c : SolverCommand) : TrainedIn (session ++ [c]) m := by
  obtain ⟨a, h1, h2⟩ := h
  exact ⟨a, List.mem_append_left _ h1, h2⟩

theorem TrainedIn.last {session : List SolverCommand} {m : SolverMeta} {c : SolverCommand}
    (h : TrainedIn (session ++ [c]) m) : TrainedIn session m ∨ ∃ a, c = .train a ∧ a.metadata = m := by
  obtain ⟨a, h1, h2⟩ := h
  rw [List.mem_append, List.mem_singleton] at h1
  rcases h1 with h1 | h1
  · exact .inl ⟨a, h1, h2⟩
  · exact .inr ⟨a, h1.symm, h2⟩

/-- A request for a partition. -/
theorem SessionFiles.partitionOf (hc : GoodCatalogue regions) {session : List SolverCommand}
    {store : SolverStore K M (Partition × List Point)} (hi : SessionFiles w regions session store)
    {a : SolverArgs} (h : a.Accepted regions) (b : Bool) :
    SessionFiles w regions session (Spta.partitionOf w.compute a.metadata b store).2 := by
  have hg := accepted_good hc h
  refine ⟨partitionOf_good hc hi.part h b, ?_, ?_, ?_, ?_⟩
  · intro a' h' f
    rw [partitionOf_other _ _ _ (C78_kinds (accepted_good hc h') hg).2.2.2.2.2]
    exact hi.errors a' h' f
  · intro a' h' sv p e ht
    rw [partitionOf_other _ _ _ (C78_kinds (accepted_good hc h') hg).2.2.2.1]
    exact hi.training a' h' sv p e ht
  · intro a' h' sv p e ht
    rw [partitionOf_other _ _ _ (C78_kinds (accepted_good hc h') hg).2.2.2.2.1]
    exact hi.whole a' h' sv p e ht
  · intro a' h' f
    rw [partitionOf_other _ _ _ (C78_kinds (accepted_good hc h') hg).2.2.2.1,
      partitionOf_other _ _ _ (C78_kinds (accepted_good hc h') hg).2.2.2.2.1]
    exact hi.kinds a' h' f

/-- A run that trains nothing. -/
theorem SessionFiles.skip {session : List SolverCommand}
    {store : SolverStore K M (Partition × List Point)} (hi : SessionFiles w regions session store)
    {c : SolverCommand} (hno : ∀ a, c = .train a → ∃ e, freshSolver w a.metadata = .error e) :
    SessionFiles w regions (session ++ [c]) store := by
  have key : ∀ {m sv p}, freshSolver w m = .ok (sv, p) → TrainedIn (session ++ [c]) m →
      TrainedIn session m := by
    intro m sv p e ht
    rcases ht.last with ht | ⟨a, e1, e2⟩
    · exact ht
    · obtain ⟨er, he⟩ := hno a e1
      rw [e2, e] at he
      cases he
  refine ⟨hi.part, ?_, ?_, ?_, hi.kinds⟩
  · intro a h f
    rw [hi.errors a h f]
    constructor
    · rintro ⟨sv, p, e, ht, hf⟩
      exact ⟨sv, p, e, ht.mono c, hf⟩
    · rintro ⟨sv, p, e, ht, hf⟩
      exact ⟨sv, p, e, key e ht, hf⟩
  · intro a h sv p e ht
    exact hi.training a h sv p e (key e ht)
  · intro a h sv p e ht
    obtain ⟨a', sv', p', h1, h2, h3⟩ := hi.whole a h sv p e (key e ht)
    exact ⟨a', sv', p', h1, List.mem_append_left _ h2, h3⟩

/-- A run that trains a solver. -/
theorem SessionFiles.save (hc : GoodCatalogue regions) {session : List SolverCommand}
    {store : SolverStore K M (Partition × List Point)} (hi : SessionFiles w regions session store)
    {a : SolverArgs} (h : a.Accepted regions) {sv : Solver K M} {p : Partition × List Point}
    (hf : freshSolver w a.metadata = .ok (sv, p)) :
    SessionFiles w regions (session ++ [.train a])
      (saveSolver a.metadata ⟨sv.training, sv.whole, sv.errors, p⟩ store) := by
  have hg := accepted_good hc h
  have hself : TrainedIn (session ++ [.train a]) a.metadata := ⟨a, by simp, rfl⟩
  refine ⟨?_, ?_, ?_, ?_, ?_⟩
  · intro a' h' q hq
    refine hi.part a' h' q ?_
    unfold SolverStore.partitions at hq ⊢
    rw [saveSolver_partition hg (accepted_good hc h')] at hq
    exact hq
  · intro a' h' f
    have k := C78_kinds hg (accepted_good hc h')
    by_cases e : a'.metadata.errorsPath = a.metadata.errorsPath
    · obtain ⟨e1, e2, e3, e4⟩ := (C78_errors_path (accepted_good hc h') hg).1 e
      have em : a'.metadata = a.metadata := meta_ext (accepted_same hc h' h e1 e2) e3 e4
      rw [em, saveSolver_errors]
      constructor
      · intro hs
        injection hs with hs
        exact ⟨sv, p, hf, hself, hs.symm⟩
      · rintro ⟨sv', p', e', -, hf'⟩
        rw [hf] at e'
        cases e'
        rw [hf']
    · have : saveSolver a.metadata ⟨sv.training, sv.whole, sv.errors, p⟩ store a'.metadata.errorsPath =
          store a'.metadata.errorsPath := by
        simp only [saveSolver, SolverStore.write]
        rw [if_neg e, if_neg (Ne.symm k.2.2.1), if_neg (Ne.symm k.2.1)]
      rw [this, hi.errors a' h' f]
      constructor
      · rintro ⟨sv', p', e', ht, hf'⟩
        exact ⟨sv', p', e', ht.mono _, hf'⟩
      · rintro ⟨sv', p', e', ht, hf'⟩
        refine ⟨sv', p', e', ?_, hf'⟩
        rcases ht.last with ht | ⟨b, e1, e2⟩
        · exact ht
        · injection e1 with e1
          rw [← e1] at e2
          rw [e2] at e
          exact absurd rfl e
  · intro a' h' sv' p' e' ht
    have k := C78_kinds (accepted_good hc h') hg
    by_cases e : a'.metadata.trainingPath = a.metadata.trainingPath
    · obtain ⟨e1, e2, e3⟩ := (C78_training_path (accepted_good hc h') hg).1 e
      rw [e, saveSolver_training hg,
        fresh_training (accepted_same hc h' h e1 e2) e3 e' hf]
    · have : saveSolver a.metadata ⟨sv.training, sv.whole, sv.errors, p⟩ store a'.metadata.trainingPath =
          store a'.metadata.trainingPath := by
        simp only [saveSolver, SolverStore.write]
        rw [if_neg k.2.1, if_neg k.1, if_neg e]
      rw [this]
      refine hi.training a' h' sv' p' e' ?_
      rcases ht.last with ht | ⟨b, e1, e2⟩
      · exact ht
      · injection e1 with e1
        rw [← e1] at e2
        rw [e2] at e
        exact absurd rfl e
  · intro a' h' sv' p' e' ht
    have k := C78_kinds (accepted_good hc h') hg
    have k' := C78_kinds hg (accepted_good hc h')
    by_cases e : a'.metadata.wholePath = a.metadata.wholePath
    · obtain ⟨e1, e2⟩ := (C78_whole_path hg (accepted_good hc h')).1 e.symm
      exact ⟨a, sv, p, accepted_same hc h h' e1 e2, by simp, hf, by rw [e, saveSolver_whole hg]⟩
    · have : saveSolver a.metadata ⟨sv.training, sv.whole, sv.errors, p⟩ store a'.metadata.wholePath =
          store a'.metadata.wholePath := by
        simp only [saveSolver, SolverStore.write]
        rw [if_neg k.2.2.1, if_neg e, if_neg (Ne.symm k'.1)]
      rw [this]
      have ht' : TrainedIn session a'.metadata := by
        rcases ht.last with ht | ⟨b, e1, e2⟩
        · exact ht
        · injection e1 with e1
          rw [← e1] at e2
          rw [e2] at e
          exact absurd rfl e
      obtain ⟨a'', sv'', p'', h1, h2, h3⟩ := hi.whole a' h' sv' p' e' ht'
      exact ⟨a'', sv'', p'', h1, List.mem_append_left _ h2, h3⟩
  · intro a' h' f hf
    have k := C78_kinds (accepted_good hc h') hg
    have k' := C78_kinds hg (accepted_good hc h')
    simp only [saveSolver, SolverStore.write] at hf
    rw [if_neg k.2.1, if_neg k.1, if_neg k.2.2.1, if_neg (Ne.symm k'.1)] at hf
    by_cases e1 : a'.metadata.trainingPath = a.metadata.trainingPath <;>
      by_cases e2 : a'.metadata.wholePath = a.metadata.wholePath <;>
      simp only [e1, e2, if_true, if_false] at hf
    · rcases hf with hf | hf <;> injection hf with hf <;> exact ⟨_, hf.symm⟩
    · rcases hf with hf | hf
      · injection hf with hf; exact ⟨_, hf.symm⟩
      · exact hi.kinds a' h' f (.inr hf)
    · rcases hf with hf | hf
      · exact hi.kinds a' h' f (.inl hf)
      · injection hf with hf; exact ⟨_, hf.symm⟩
    · exact hi.kinds a' h' f hf

theorem sessionFiles (hc : GoodCatalogue regions) {session : List SolverCommand}
    (ha : ∀ c ∈ session, c.args.Accepted regions) :
    SessionFiles w regions session (sessionStore w session) := by
  induction session using List.reverseRecOn with
  | nil =>
    refine ⟨?_, ?_, ?_, ?_, fun a h f hf => by rcases hf with hf | hf <;> cases hf⟩
    · intro a h p e
      cases e
    · intro a h f
      constructor
      · intro e
        cases e
      · rintro ⟨sv, p, -, ⟨b, hb, -⟩, -⟩
        cases hb
    · rintro a h sv p - ⟨b, hb, -⟩
      cases hb
    · rintro a h sv p - ⟨b, hb, -⟩
      cases hb
  | append_singleton session c ih =>
    have hi := ih fun c' hc' => ha c' (List.mem_append_left _ hc')
    have hca : c.args.Accepted regions := ha c (by simp)
    have e : sessionStore w (session ++ [c]) = c.run w (sessionStore w session) := by
      simp [sessionStore]
    rw [e]
    cases c with
    | train a =>
      obtain ⟨st, hst, hcase⟩ := trainCommand_cases hi.part (a := a) hca
      have hi' : SessionFiles w regions session st := by
        rcases hst with rfl | rfl
        · exact hi
        · exact hi.partitionOf hc hca true
      rcases hcase with ⟨er, h1, h2⟩ | ⟨sv, p, h1, h2⟩
      · show SessionFiles w regions _ (trainCommand w a.metadata (sessionStore w session)).2
        rw [h2]
        refine hi'.skip ?_
        intro a' ea
        injection ea with ea
        exact ⟨er, by rw [← ea]; exact h1⟩
      · show SessionFiles w regions _ (trainCommand w a.metadata (sessionStore w session)).2
        rw [h2]
        exact hi'.save hc hca h1
    | predict a r n =>
      show SessionFiles w regions _ (predictCommand w a.metadata r n (sessionStore w session)).2
      rw [predictCommand_store]
      refine (hi.partitionOf hc (a := a) hca false).skip ?_
      intro a' ea
      cases ea

/-! ### The theorems -/

/-- **C120** (training): whatever was run before, the train command succeeds exactly if training from scratch
does, and otherwise raises the same exception. -/
theorem C120_train (hc : GoodCatalogue regions) {session : List SolverCommand}
    (ha : ∀ c ∈ session, c.args.Accepted regions) {a : SolverArgs} (h : a.Accepted regions) :
    (trainCommand w a.metadata (sessionStore w session)).1 =
      (freshSolver w a.metadata).map fun _ => () := by
  obtain ⟨st, -, ⟨e, h1, h2⟩ | ⟨sv, p, h1, h2⟩⟩ := trainCommand_cases (sessionFiles (w := w) hc ha).part h
  · rw [h1, h2]; rfl
  · rw [h1, h2]; rfl

theorem predictCommand_trained (hc : GoodCatalogue regions) {session : List SolverCommand}
    (ha : ∀ c ∈ session, c.args.Accepted regions) {a : SolverArgs} (h : a.Accepted regions)
    (ht : TrainedIn session a.metadata) {sv : Solver K M} {p : Partition × List Point}
    (hf : freshSolver w a.metadata = .ok (sv, p)) (r : Region) (n : Int) :
    ∃ a' sv' p', SameButTest a'.metadata a.metadata ∧ .train a' ∈ session ∧
      freshSolver w a'.metadata = .ok (sv', p') ∧
      (predictCommand w a.metadata r n (sessionStore w session)).1 =
        ({ sv with whole := sv'.whole }).queryResult w.forecast a.metadata.md.region p.1 (some p.2)
          a.metadata.clustering r n := by
  have hi := sessionFiles (w := w) hc ha
  obtain ⟨f1, f2, f3, f4, f5, -, -⟩ := freshSolver_ok hf
  obtain ⟨a', sv', p', w1, w2, w3, w4⟩ := hi.whole a h sv p hf ht
  refine ⟨a', sv', p', w1, w2, w3, ?_⟩
  have hl := loadSolver_of_files (compute := w.compute) (accepted_good hc h) (hi.training a h sv p hf ht) w4
    ((hi.errors a h _).2 ⟨sv, p, hf, ht, rfl⟩) (p := p)
    (by rw [loadPartition_eq, partitionOf_fst hi.part h, f3])
  unfold predictCommand
  generalize loadSolver w.compute a.metadata (sessionStore w session) = l at hl
  obtain ⟨l1, st⟩ := l
  simp only at hl
  subst hl
  simp only [f2, SolverData.solver, ← f4, ← f5]

/-- In-sample queries do not use the models of the whole series. -/
theorem queryResult_in_sample (sv : Solver K M) (g : Grid (Option M))
    (forecast : M → Nat → Except PyErr (List (Option K))) (mdRegion : Region) (pt : Partition)
    (medoids : Option (List Point)) (cl : ClusterMeta) (r : Region) {n : Int} (hn : n ≤ 0) :
    ({ sv with whole := g }).queryResult forecast mdRegion pt medoids cl r n =
      sv.queryResult forecast mdRegion pt medoids cl r n := by
  have h0 : ¬ 0 < n := by omega
  unfold Solver.queryResult Solver.predict
  simp only [h0, if_false]
  rfl

theorem freshAnswer_ok {m : SolverMeta} {sv : Solver K M} {p : Partition × List Point}
    (hf : freshSolver w m = .ok (sv, p)) (r : Region) (n : Int) :
    freshAnswer w m r n = sv.queryResult w.forecast m.md.region p.1 (some p.2) m.clustering r n := by
  unfold freshAnswer
  rw [hf]
  rfl

/-- **C120** (in-sample predictions): after any session in which a solver was trained successfully, an
in-sample prediction with the same arguments is the answer of the solver trained from scratch. -/
theorem C120_in_sample (hc : GoodCatalogue regions) {session : List SolverCommand}
    (ha : ∀ c ∈ session, c.args.Accepted regions) {a : SolverArgs} (h : a.Accepted regions)
    (ht : TrainedIn session a.metadata) {sv : Solver K M} {p : Partition × List Point}
    (hf : freshSolver w a.metadata = .ok (sv, p)) (r : Region) {n : Int} (hn : n ≤ 0) :
    (predictCommand w a.metadata r n (sessionStore w session)).1 = freshAnswer w a.metadata r n := by
  obtain ⟨a', sv', p', -, -, -, e⟩ := predictCommand_trained hc ha h ht hf r n
  rw [e, queryResult_in_sample _ _ _ _ _ _ _ _ hn, freshAnswer_ok hf]

/-- **C120** (out-of-sample predictions): the same holds for out-of-sample predictions if in the session no
solver was trained with the same arguments but another number of test samples. The full statement, without
this hypothesis, is refuted by `C120_refuted`. -/
theorem C120_predict_partial (hc : GoodCatalogue regions) {session : List SolverCommand}
    (ha : ∀ c ∈ session, c.args.Accepted regions) {a : SolverArgs} (h : a.Accepted regions)
    (ht : TrainedIn session a.metadata) {sv : Solver K M} {p : Partition × List Point}
    (hf : freshSolver w a.metadata = .ok (sv, p))
    (hone : ∀ a', .train a' ∈ session → SameButTest a'.metadata a.metadata → a'.testLen = a.testLen)
    (r : Region) (n : Int) :
    (predictCommand w a.metadata r n (sessionStore w session)).1 = freshAnswer w a.metadata r n := by
  obtain ⟨a', sv', p', e1, e2, e3, e⟩ := predictCommand_trained hc ha h ht hf r n
  have : sv'.whole = sv.whole := fresh_whole e1 (hone a' e2 e1) e3 hf
  rw [e, freshAnswer_ok hf, this]

/-- **C120** (models that are refitted by their own trainer, as the mean of the past and k-NN): all predictions
are answers of the solver trained from scratch, whatever else is trained. -/
theorem C120_own_refitter {w : SolverWorld K P P M} (hc : GoodCatalogue regions) {session : List SolverCommand}
    (ha : ∀ c ∈ session, c.args.Accepted regions) {a : SolverArgs} (h : a.Accepted regions)
    (hown : OwnRefitter w a.metadata.params) (ht : TrainedIn session a.metadata) {sv : Solver K M}
    {p : Partition × List Point} (hf : freshSolver w a.metadata = .ok (sv, p)) (r : Region) (n : Int) :
    (predictCommand w a.metadata r n (sessionStore w session)).1 = freshAnswer w a.metadata r n := by
  obtain ⟨a', sv', p', e1, e2, e3, e⟩ := predictCommand_trained hc ha h ht hf r n
  have : sv'.whole = sv.whole := fresh_whole_own hown e1 e3 hf
  rw [e, freshAnswer_ok hf, this]

/-- **C120** (predictions without training): unless the session has a successful training with the same
arguments, a prediction fails: with the exception of the partition or because a file is missing. -/
theorem C120_untrained (hc : GoodCatalogue regions) {session : List SolverCommand}
    (ha : ∀ c ∈ session, c.args.Accepted regions) {a : SolverArgs} (h : a.Accepted regions)
    (hno : ¬ (TrainedIn session a.metadata ∧ ∃ x, freshSolver w a.metadata = .ok x)) (r : Region) (n : Int) :
    (predictCommand w a.metadata r n (sessionStore w session)).1 =
      match w.partition a.metadata.md a.metadata.dist a.metadata.clustering with
      | .error e => .error e
      | .ok _ => .error .ioError := by
  have hi := (sessionFiles (w := w) hc ha)
  have hi' := hi.partitionOf hc h false
  have hfst := partitionOf_fst hi.part h false
  unfold predictCommand loadSolver
  rw [loadPartition_eq]
  generalize Spta.partitionOf w.compute a.metadata false (sessionStore w session) = q at *
  obtain ⟨q1, st⟩ := q
  simp only at hfst hi'
  rw [← hfst]
  cases q1 with
  | error e => rfl
  | ok p =>
    simp only
    have hnone : st a.metadata.errorsPath = none := by
      cases he : st a.metadata.errorsPath with
      | none => rfl
      | some f =>
        obtain ⟨sv, p', h1, h2, -⟩ := (hi'.errors a h f).1 he
        exact absurd ⟨h2, _, h1⟩ hno
    cases h1 : st a.metadata.trainingPath with
    | none => simp only [loadModels, h1]
    | some f1 =>
      obtain ⟨g1, rfl⟩ := hi'.kinds a h f1 (.inl h1)
      cases h2 : st a.metadata.wholePath with
      | none => simp only [loadModels, h1, h2]
      | some f2 =>
        obtain ⟨g2, rfl⟩ := hi'.kinds a h f2 (.inr h2)
        simp only [loadModels, loadErrors, h1, h2, hnone]

/-- **C120** (rows): in-sample predictions of the programs, after any session with the training: the file has
a row for every point of the prediction region, with the cluster of the point, the forecast of the model of
the medoid of that cluster, the last samples of the point, and the error between the two. -/
theorem C120_rows [IsStrictOrderedRing K] (hc : GoodCatalogue regions) {session : List SolverCommand}
    (ha : ∀ c ∈ session, c.args.Accepted regions) {a : SolverArgs} (h : a.Accepted regions)
    (ht : TrainedIn session a.metadata) {s : Stack K} {pt : Partition} {medoids : List Point}
    (hmat : w.matrix a.region = .ok ()) (hreg : w.region a.region = .ok s)
    (hpart : w.partition a.region .dtw a.metadata.clustering = .ok (pt, medoids))
    (hs : TrainingSetup (w.trainer a.program.params a.region) (w.refitter a.program.params a.region)
      a.region.scaled s a.testLen pt medoids)
    (hfc : ∀ q v m, (w.trainer a.program.params a.region).train q v = .ok (some m) →
      ∃ x, w.forecast m a.testLen = .ok x ∧ x.length = a.testLen)
    {f : ErrorFun K} (hfunc : getErrorFunc (String.ofList a.errorType) = .ok f)
    (hmase : String.ofList a.errorType = "MASE" → s.data.tLen ≠ a.testLen + 1)
    {r : Region} (hr : r.Inside s) {n : Int} (hn : n ≤ 0) :
    ∃ atMedoids res rows,
      (predictCommand w a.metadata r n (sessionStore w session)).1 = .ok res ∧ res.rows = .ok rows ∧
      rows.length = (r.x2 - r.x1) * (r.y2 - r.y1) ∧
      ∀ p : Point, r.Has p →
        ∃ l training whole raw shown test e,
          ModelsAt (w.trainer a.program.params a.region) (w.refitter a.program.params a.region) s a.testLen
            pt medoids atMedoids p l training whole ∧
          RawForecast w.forecast a.testLen training raw ∧ InUnits s p raw shown ∧
          ErrorOf f s a.testLen p shown test e ∧
          rows[(p.x - r.x1) * (r.y2 - r.y1) + (p.y - r.y1)]? =
            some [.coords ⟨p.x + a.region.region.x1, p.y + a.region.region.y1⟩, .index l, .errorValue e,
              .series shown, .series test] := by
  obtain ⟨g, sv, res, rows, e1, e2, e3, -, e5, e6⟩ := C91_rows_in_sample hs w.forecast hfc hfunc hmase w.zero
    w.junk hr hn a.region.region a.metadata.clustering
  have hf : freshSolver w a.metadata = .ok (sv, (pt, medoids)) := by
    unfold freshSolver
    rw [show w.matrix a.metadata.md = .ok () from hmat, show w.region a.metadata.md = .ok s from hreg,
      show w.partition a.metadata.md a.metadata.dist a.metadata.clustering = .ok (pt, medoids) from hpart]
    show (trainCompleteSolver (w.trainer a.program.params a.region) (w.refitter a.program.params a.region)
      w.forecast (String.ofList a.errorType) a.region.scaled s a.testLen pt medoids w.zero w.junk >>=
      fun sv => pure (sv, (pt, medoids))) = _
    rw [e1]
    rfl
  refine ⟨g, res, rows, ?_, e3, e5, e6⟩
  rw [C120_in_sample hc ha h ht hf r hn, freshAnswer_ok hf]
  exact e2

end

/-! ### A session where the number of test samples changes -/

/-- A world with one region of three points in two clusters, where the search for the order of a model gives
the number of training samples, and a model predicts its order. -/
def sessionWorld : SolverWorld ℚ Unit (Option Nat) (Nat × Nat) where
  region _ := .ok (.plain ⟨3, ⟨1, 3, [[some 9, some 9, some 9], [some 1, some 2, some 4],
    [some 0, some 7, some 6]]⟩⟩)
  matrix _ := .ok ()
  partition _ _ _ := .ok (⟨⟨1, 3, [0, 0, 1]⟩, 2, 0⟩, [⟨0, 1⟩, ⟨0, 2⟩])
  trainer _ _ := Trainer.constant () 1 3 fun _ v => .ok (some (v.length, v.length))
  refitter _ _ := arimaRefitter (·.1) fun o v => some (o, v.length)
  forecast m n := .ok (List.replicate n (some (m.1 : ℚ)))
  zero := none
  junk := none

/-- The arguments of the auto ARIMA program with some number of test samples. -/
def sessionArgs (testLen : Nat) : SolverArgs :=
  { program := .autoArima, region := ⟨['a'], ⟨0, 1, 0, 3⟩, 2014, 2015, 1, false⟩, clustering := .regular,
    k := 2, testLen := testLen, errorType := ['M', 'S', 'E'] }

/-- The forecasts of a result. -/
def sessionForecasts : Except PyErr (Result ℚ) → Option (List (List (Option ℚ)))
  | .ok (.withPartition (.outOfSample base) _ _ _) => some base.forecast.data.grid.data
  | _ => none

/-- **C120** is refuted for out-of-sample predictions of auto ARIMA: training once more with another number of
test samples changes the predictions of the first solver. -/
theorem C120_refuted :
    ∃ (regions : List RegionMeta) (a a' : SolverArgs) (r : Region) (n : Int), GoodCatalogue regions ∧
      a.Accepted regions ∧ a'.Accepted regions ∧
      sessionForecasts (predictCommand sessionWorld a.metadata r n
        (sessionStore sessionWorld [.train a, .train a'])).1 = some [[some 1], [some 1]] ∧
      sessionForecasts (freshAnswer sessionWorld a.metadata r n) = some [[some 2], [some 2]] := by
  refine ⟨[(sessionArgs 1).region], sessionArgs 1, sessionArgs 2, ⟨0, 1, 1, 3⟩, 1, ?_, ?_, ?_, ?_, ?_⟩
  · unfold GoodCatalogue; decide +kernel
  · unfold SolverArgs.Accepted; decide +kernel
  · unfold SolverArgs.Accepted; decide +kernel
  · decide +kernel
  · decide +kernel

theorem sessionArgs_accepted (n : Nat) : (sessionArgs n).Accepted [(sessionArgs 1).region] :=
  ⟨List.mem_singleton.2 rfl, List.mem_cons_of_mem _ (List.mem_cons_of_mem _ (List.mem_singleton.2 rfl))⟩

theorem exists_ok_of_isSome {α : Type} {e : Except PyErr α} (h : e.toOption.isSome) : ∃ x, e = .ok x := by
  cases e with
  | error e => cases h
  | ok x => exact ⟨x, rfl⟩

/-- A session with a prediction before the training, which fails, and a training with another number of test
samples: the in-sample prediction with one test sample is not affected. -/
example : ∃ (x : Solver ℚ (Nat × Nat) × (Partition × List Point)) (res : Result ℚ),
    freshSolver sessionWorld (sessionArgs 1).metadata = .ok x ∧
    (predictCommand sessionWorld (sessionArgs 1).metadata ⟨0, 1, 1, 3⟩ 0 (sessionStore sessionWorld
      [.predict (sessionArgs 1) ⟨0, 1, 1, 3⟩ 0, .train (sessionArgs 1), .train (sessionArgs 2)])).1 =
      .ok res ∧
    freshAnswer sessionWorld (sessionArgs 1).metadata ⟨0, 1, 1, 3⟩ 0 = .ok res := by
  obtain ⟨x, hx⟩ : ∃ x, freshSolver sessionWorld (sessionArgs 1).metadata = .ok x :=
    exists_ok_of_isSome (by decide +kernel)
  obtain ⟨res, hres⟩ : ∃ res, freshAnswer sessionWorld (sessionArgs 1).metadata ⟨0, 1, 1, 3⟩ 0 = .ok res :=
    exists_ok_of_isSome (by decide +kernel)
  refine ⟨x, res, hx, ?_, hres⟩
  rw [← hres]
  refine C120_in_sample (regions := [(sessionArgs 1).region]) (by unfold GoodCatalogue; decide +kernel) ?_
    (sessionArgs_accepted 1) ⟨sessionArgs 1, by simp, rfl⟩ hx _ (by decide)
  intro c hc
  simp only [List.mem_cons, List.not_mem_nil, or_false] at hc
  rcases hc with rfl | rfl | rfl <;> exact sessionArgs_accepted _

/-- A prediction before any training fails for lack of files; so does one after a training with another
number of test samples. -/
example : (match (predictCommand sessionWorld (sessionArgs 1).metadata ⟨0, 1, 1, 3⟩ 0 (sessionStore sessionWorld
    [.train (sessionArgs 2)])).1 with | .error e => e = .ioError | .ok _ => False) := by
  rw [C120_untrained (regions := [(sessionArgs 1).region]) (by unfold GoodCatalogue; decide +kernel) (by
    intro c hc
    simp only [List.mem_cons, List.not_mem_nil, or_false] at hc
    rcases hc with rfl
    exact sessionArgs_accepted 2) (sessionArgs_accepted 1) ?_]
  · rfl
  · rintro ⟨⟨b, hb, e⟩, -⟩
    simp only [List.mem_cons, List.not_mem_nil, or_false, SolverCommand.train.injEq] at hb
    subst hb
    exact absurd (congrArg SolverMeta.testLen e) (by decide)

/-- The world with models that are refitted by their own trainer. -/
def sessionMeanWorld : SolverWorld ℚ Unit Unit (Nat × Nat) :=
  { sessionWorld with
    trainer := fun _ _ => Trainer.constant () 1 3 fun _ v => .ok (some (v.length, v.length))
    refitter := fun _ _ => Trainer.sameRefitter (Trainer.constant () 1 3 fun _ v =>
      .ok (some (v.length, v.length))) }

/-- The same session does not change the out-of-sample predictions of these models. -/
example : ∃ x, freshSolver sessionMeanWorld (sessionArgs 1).metadata = .ok x ∧
    sessionForecasts (predictCommand sessionMeanWorld (sessionArgs 1).metadata ⟨0, 1, 1, 3⟩ 1
      (sessionStore sessionMeanWorld [.train (sessionArgs 1), .train (sessionArgs 2)])).1 =
      some [[some 3], [some 3]] := by
  obtain ⟨x, hx⟩ : ∃ x, freshSolver sessionMeanWorld (sessionArgs 1).metadata = .ok x :=
    exists_ok_of_isSome (by decide +kernel)
  refine ⟨x, hx, ?_⟩
  rw [C120_own_refitter (regions := [(sessionArgs 1).region]) (by unfold GoodCatalogue; decide +kernel) (by
    intro c hc
    simp only [List.mem_cons, List.not_mem_nil, or_false] at hc
    rcases hc with rfl | rfl <;> exact sessionArgs_accepted _) (sessionArgs_accepted 1) (fun _ _ => rfl)
    ⟨sessionArgs 1, by simp, rfl⟩ hx]
  decide +kernel

/-- The region and the models of the example of C91, as a world. -/
def trainedWorld : SolverWorld ℚ Nat Nat (Option ℚ) where
  region _ := .ok trainedRegion
  matrix _ := .ok ()
  partition _ _ _ := .ok (trainedPartition, [⟨0, 1⟩, ⟨0, 2⟩])
  trainer _ _ := meanTrainer
  refitter _ _ := meanTrainer.sameRefitter
  forecast := repeatMean
  zero := none
  junk := none

/-- The arguments of the program for the mean of the past. -/
def trainedArgs : SolverArgs :=
  { program := .meanPast 2, region := ⟨['b'], ⟨5, 6, 7, 10⟩, 2015, 2015, 1, true⟩, clustering := .kmedoids,
    k := 2, testLen := 1, errorType := ['M', 'S', 'E'] }

/-- The hypotheses of `C120_rows` hold of them. -/
example : ∃ atMedoids res rows,
    (predictCommand trainedWorld trainedArgs.metadata ⟨0, 1, 0, 2⟩ 0
      (sessionStore trainedWorld [.train trainedArgs])).1 = .ok res ∧ res.rows = .ok rows ∧ rows.length = 2 ∧
    ∃ l training whole, ModelsAt meanTrainer meanTrainer.sameRefitter trainedRegion 1 trainedPartition
      [⟨0, 1⟩, ⟨0, 2⟩] atMedoids ⟨0, 1⟩ l training whole := by
  have hacc : trainedArgs.Accepted [trainedArgs.region] := by
    unfold SolverArgs.Accepted; decide +kernel
  obtain ⟨f, hfunc⟩ : ∃ f, getErrorFunc (K := ℚ) (String.ofList trainedArgs.errorType) = .ok f :=
    exists_ok_of_isSome (by decide +kernel)
  obtain ⟨g, res, rows, h1, h2, h3, h4⟩ := C120_rows (w := trainedWorld) (regions := [trainedArgs.region])
    (session := [.train trainedArgs]) (a := trainedArgs) (by unfold GoodCatalogue; decide +kernel)
    (by intro c hc; rw [List.mem_singleton] at hc; rw [hc]; exact hacc) hacc ⟨trainedArgs, by simp, rfl⟩
    rfl rfl rfl trainedSetup (fun _ _ m _ => ⟨_, rfl, List.length_replicate ..⟩) hfunc
    (fun e => absurd e (by decide +kernel)) (r := ⟨0, 1, 0, 2⟩)
    (⟨by decide, by decide, by decide +kernel, by decide +kernel⟩) (n := 0) (by decide)
  obtain ⟨l, training, whole, raw, shown, test, e, k, -⟩ := h4 ⟨0, 1⟩
    ⟨by decide, by decide, by decide, by decide⟩
  exact ⟨g, res, rows, h1, h2, h3, l, training, whole, k⟩

end Spta
