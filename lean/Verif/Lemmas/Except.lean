import Mathlib.Data.List.Forall2
import Verif.Model.Basic

/-!
# Lemmas on `mapM` in the exception monad
-/

namespace Spta

/-- A `mapM` whose steps all succeed. -/
theorem mapM_ok {γ δ : Type} (f : γ → Except PyErr δ) (h : γ → δ) :
    ∀ (l : List γ), (∀ x ∈ l, f x = .ok (h x)) → l.mapM f = .ok (l.map h) := by
  intro l
  induction l with
  | nil => intro _; rfl
  | cons a l ih =>
    intro hh
    rw [List.mapM_cons, hh a (by simp), ih (fun x hx => hh x (by simp [hx]))]; rfl

/-- A successful `mapM`: every step succeeds. -/
theorem mapM_eq_ok {γ δ : Type} {f : γ → Except PyErr δ} :
    ∀ {l : List γ} {r : List δ}, l.mapM f = .ok r ↔ List.Forall₂ (fun a b => f a = .ok b) l r := by
  intro l
  induction l with
  | nil =>
    intro r
    constructor
    · intro h; cases h; exact .nil
    · intro h; cases h; rfl
  | cons a l ih =>
    intro r
    rw [List.mapM_cons]
    constructor
    · intro h
      cases ha : f a with
      | error e => rw [ha] at h; cases h
      | ok b =>
        rw [ha] at h
        cases hl : l.mapM f with
        | error e => rw [hl] at h; cases h
        | ok bs =>
          rw [hl] at h
          cases h
          exact .cons ha (ih.1 hl)
    · intro h
      cases h with
      | cons h1 h2 => rw [h1, ih.2 h2]; rfl

theorem Forall₂.getElem? {γ δ : Type} {R : γ → δ → Prop} :
    ∀ {l : List γ} {r : List δ}, List.Forall₂ R l r → ∀ {n : Nat} {a : γ}, l[n]? = some a →
      ∃ b, r[n]? = some b ∧ R a b := by
  intro l r h
  induction h with
  | nil => intro n a h; simp at h
  | cons h _ ih =>
    intro n a hn
    cases n with
    | zero => simp at hn; subst hn; exact ⟨_, rfl, h⟩
    | succ n => simpa using ih (by simpa using hn)

theorem Forall₂.getElem?' {γ δ : Type} {R : γ → δ → Prop} {l : List γ} {r : List δ}
    (h : List.Forall₂ R l r) {n : Nat} {b : δ} (hb : r[n]? = some b) :
      ∃ a, l[n]? = some a ∧ R a b := Forall₂.getElem? h.flip hb

end Spta
