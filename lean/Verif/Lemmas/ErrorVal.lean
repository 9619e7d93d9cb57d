import Verif.Model.ErrorVal

/-!
# Sums of error values
-/

set_option linter.unusedSectionVars false

namespace Spta

variable {K : Type} [Field K] [LinearOrder K] [IsStrictOrderedRing K]

theorem errorSum_none {l : List (ErrorVal K)} (h : none ∈ l) : errorSum l = none := by
  induction l with
  | nil => simp at h
  | cons a l ih =>
    rcases List.mem_cons.1 h with h | h
    · subst h; rfl
    · simp only [errorSum, ih h]

theorem errorSum_top {l : List (ErrorVal K)} (h : none ∉ l) (ht : some ⊤ ∈ l) :
    errorSum l = some ⊤ := by
  have hex : ∀ l : List (ErrorVal K), none ∉ l → ∃ t, errorSum l = some t := by
    intro l
    induction l with
    | nil => intro _; exact ⟨0, rfl⟩
    | cons a l ih =>
      intro h
      obtain ⟨t, e⟩ := ih (fun h' => h (List.mem_cons_of_mem _ h'))
      cases a with
      | none => simp at h
      | some x => exact ⟨x + t, by simp only [errorSum, e]⟩
  induction l with
  | nil => simp at ht
  | cons a l ih =>
    have hn : none ∉ l := fun h' => h (List.mem_cons_of_mem _ h')
    cases a with
    | none => simp at h
    | some x =>
      rcases List.mem_cons.1 ht with e | e
      · cases e
        obtain ⟨t, e⟩ := hex l hn
        simp only [errorSum, e, top_add]
      · simp only [errorSum, ih hn e, add_top]

theorem errorSum_coe (l : List K) :
    errorSum (l.map fun x => (some (WithTop.some x) : ErrorVal K)) = some (WithTop.some l.sum) := by
  induction l with
  | nil => rfl
  | cons a l ih => simp only [List.map_cons, errorSum, ih]; rfl

end Spta
