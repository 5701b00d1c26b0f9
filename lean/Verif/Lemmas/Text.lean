/-
Lemmas on splitting and joining strings.
-/
import Verif.Model.Basic

set_option autoImplicit false

namespace Xls

theorem splitOn_ne_nil (sep : Char) (s : Str) : splitOn sep s ≠ [] := by
  cases s with
  | nil => simp [splitOn]
  | cons c s =>
    unfold splitOn
    split
    · simp
    · split <;> simp

theorem splitOn_join (sep : Char) (s : Str) : joinWith [sep] (splitOn sep s) = s := by
  induction s with
  | nil => rfl
  | cons c s ih =>
    unfold splitOn
    split
    · next h =>
      subst h
      cases hw : splitOn c s with
      | nil => exact absurd hw (splitOn_ne_nil _ _)
      | cons w ws => rw [hw] at ih; rw [joinWith, ih]; rfl
    · cases hw : splitOn sep s with
      | nil => rw [hw] at ih; rw [← ih]; rfl
      | cons w ws =>
        rw [hw] at ih
        simp only
        cases ws with
        | nil => simp only [joinWith] at ih ⊢; rw [ih]
        | cons x xs =>
          simp only [joinWith, List.cons_append] at ih ⊢; rw [ih]

theorem splitOn_none {sep : Char} {s : Str} (h : sep ∉ s) : splitOn sep s = [s] := by
  induction s with
  | nil => rfl
  | cons c s ih =>
    have h1 : c ≠ sep := fun e => h (by simp [e])
    have h2 : sep ∉ s := fun e => h (by simp [e])
    rw [splitOn, if_neg h1, ih h2]

theorem splitOn_cons {sep : Char} {a b : Str} (h : sep ∉ a) :
    splitOn sep (a ++ sep :: b) = a :: splitOn sep b := by
  induction a with
  | nil => simp [splitOn]
  | cons c a ih =>
    have h1 : c ≠ sep := fun e => h (by simp [e])
    have h2 : sep ∉ a := fun e => h (by simp [e])
    rw [List.cons_append, splitOn, if_neg h1, ih h2]

theorem splitOn_joinWith {sep : Char} {ps : List Str} (hne : ps ≠ []) (h : ∀ p ∈ ps, sep ∉ p) :
    splitOn sep (joinWith [sep] ps) = ps := by
  induction ps with
  | nil => exact absurd rfl hne
  | cons p ps ih =>
    cases ps with
    | nil => simpa [joinWith] using splitOn_none (h p (by simp))
    | cons q qs =>
      have := ih (by simp) fun x hx => h x (by simp [hx])
      rw [joinWith, List.append_assoc, List.singleton_append, splitOn_cons (h p (by simp)), this]

/-- No part contains the separator. -/
theorem splitOn_parts {sep : Char} (s : Str) : ∀ p ∈ splitOn sep s, sep ∉ p := by
  induction s with
  | nil => simp [splitOn]
  | cons c s ih =>
    rw [splitOn]
    split
    · intro p hp
      simp only [List.mem_cons] at hp
      rcases hp with rfl | hp
      · simp
      · exact ih p hp
    · next hc =>
      split
      · intro p hp
        simp only [List.mem_singleton] at hp
        subst hp
        simp [Ne.symm hc]
      · next w ws hw =>
        rw [hw] at ih
        intro p hp
        simp only [List.mem_cons] at hp
        rcases hp with rfl | hp
        · simp only [List.mem_cons, not_or]
          exact ⟨Ne.symm hc, ih w (by simp)⟩
        · exact ih p (by simp [hp])

end Xls
