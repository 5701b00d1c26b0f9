/-
Which texts Python's `int()` takes, and what it gives.
-/
import Verif.Model.Basic

set_option autoImplicit false

namespace Xls

/-- What is taken for digits is groups of digits with single underscores between them. -/
theorem digitsWithUnderscores_groups : ∀ {s : Str} {prev : Bool} {d : Str}, digitsWithUnderscores prev s = some d →
    ∃ gs : List Str, (∀ g ∈ gs.tail, g ≠ [] ∧ ∀ c ∈ g, isDigit c = true) ∧
      (∃ g, gs.head? = some g ∧ (prev = false → g ≠ []) ∧ ∀ c ∈ g, isDigit c = true) ∧
      s = c!"_".intercalate gs ∧ d = gs.flatten
  | [], prev, d, h => by
    cases prev with
    | false => cases h
    | true => cases h; exact ⟨[[]], by simp, ⟨[], rfl, by simp, by simp⟩, rfl, rfl⟩
  | [c], prev, d, h => by
    rw [digitsWithUnderscores] at h
    by_cases hc : isDigit c = true
    · rw [if_pos hc] at h
      cases h
      exact ⟨[[c]], by simp, ⟨[c], rfl, by simp, by simpa using hc⟩, rfl, rfl⟩
    · rw [if_neg hc] at h
      split at h <;> cases h
  | c :: e :: s, prev, d, h => by
    rw [digitsWithUnderscores] at h
    by_cases hc : isDigit c = true
    · rw [if_pos hc] at h
      obtain ⟨d', hd, rfl⟩ := Option.map_eq_some_iff.1 h
      obtain ⟨gs, h1, ⟨g, h2, -, h3⟩, h4, rfl⟩ := digitsWithUnderscores_groups hd
      cases gs with
      | nil => cases h2
      | cons g' gs =>
        cases h2
        refine ⟨(c :: g) :: gs, h1, ⟨c :: g, rfl, by simp, ?_⟩, ?_, rfl⟩
        · simpa [hc] using h3
        · rw [h4]
          cases gs <;> rfl
    · rw [if_neg hc] at h
      by_cases hu : (c = '_' && prev) = true
      · rw [if_pos hu] at h
        by_cases he : isDigit e = true
        · rw [if_pos he] at h
          obtain ⟨d', hd, rfl⟩ := Option.map_eq_some_iff.1 h
          obtain ⟨gs, h1, ⟨g, h2, -, h3⟩, h4, rfl⟩ := digitsWithUnderscores_groups hd
          simp only [Bool.and_eq_true, decide_eq_true_eq] at hu
          obtain ⟨rfl, rfl⟩ := hu
          cases gs with
          | nil => cases h2
          | cons g' gs =>
            cases h2
            refine ⟨[] :: (e :: g) :: gs, ?_, ⟨[], rfl, by simp, by simp⟩, ?_, rfl⟩
            · intro x hx
              rcases List.mem_cons.1 hx with rfl | hx
              · exact ⟨by simp, by simpa [he] using h3⟩
              · exact h1 x hx
            · rw [h4]
              cases gs <;> rfl
        · rw [if_neg he] at h
          cases h
      · rw [if_neg hu] at h
        cases h

theorem digitsWithUnderscores_digit {c : Char} (h : isDigit c = true) (prev : Bool) (s : Str) :
    digitsWithUnderscores prev (c :: s) = (digitsWithUnderscores true s).map (c :: ·) := by
  cases s with
  | nil => simp [digitsWithUnderscores, h]
  | cons d s => rw [digitsWithUnderscores, if_pos h]

theorem digitsWithUnderscores_append : ∀ {g : Str} {prev : Bool} (rest : Str), (∀ c ∈ g, isDigit c = true) →
    (prev = false → g ≠ []) →
    digitsWithUnderscores prev (g ++ rest) = (digitsWithUnderscores true rest).map (g ++ ·)
  | [], prev, rest, _, hp => by
    cases prev with
    | false => exact absurd rfl (hp rfl)
    | true => simp
  | c :: g, prev, rest, h, _ => by
    rw [List.cons_append, digitsWithUnderscores_digit (h c (by simp)),
      digitsWithUnderscores_append rest (fun x hx => h x (by simp [hx])) (by simp)]
    simp [Option.map_map, Function.comp_def]

theorem digitsWithUnderscores_taken : ∀ {gs : List Str} {prev : Bool}, gs ≠ [] →
    (∀ g ∈ gs, g ≠ [] ∧ ∀ c ∈ g, isDigit c = true) →
    digitsWithUnderscores prev (c!"_".intercalate gs) = some gs.flatten
  | [], _, h, _ => absurd rfl h
  | [g], prev, _, h => by
    have h1 := h g (by simp)
    have e : c!"_".intercalate [g] = g ++ [] := by simp [List.intercalate]
    rw [e, digitsWithUnderscores_append [] h1.2 fun _ => h1.1]
    simp [digitsWithUnderscores]
  | g :: g' :: gs, prev, _, h => by
    have h1 := h g (by simp)
    have ih := digitsWithUnderscores_taken (gs := g' :: gs) (prev := false) (by simp) fun x hx => h x (by simp [hx])
    have e : c!"_".intercalate (g :: g' :: gs) = g ++ '_' :: c!"_".intercalate (g' :: gs) := by
      simp [List.intercalate, List.intersperse]
    rw [e, digitsWithUnderscores_append _ h1.2 fun _ => h1.1]
    have h2 := h g' (by simp)
    cases g' with
    | nil => exact absurd rfl h2.1
    | cons d g' =>
      have hd := h2.2 d (by simp)
      obtain ⟨r, hr⟩ : ∃ r, c!"_".intercalate ((d :: g') :: gs) = d :: r := by
        cases gs <;> exact ⟨_, rfl⟩
      rw [hr] at ih ⊢
      rw [digitsWithUnderscores_digit hd] at ih
      rw [digitsWithUnderscores, if_neg (by decide), if_pos (by decide)]
      rw [if_pos hd, ih]
      rfl

namespace Spec

/-- Groups of digits with single underscores between them, as in `1_000`; their value. -/
def DigitGroups (s : Str) (n : Nat) : Prop :=
  ∃ gs : List Str, gs ≠ [] ∧ (∀ g ∈ gs, g ≠ [] ∧ ∀ c ∈ g, isDigit c = true) ∧ s = c!"_".intercalate gs ∧
    n = digitsVal gs.flatten

/-- The text, without blanks around it, is such digits, perhaps after a sign; its value. -/
def WholeNumber (t : Str) (i : Int) : Prop :=
  ∃ s n, DigitGroups s n ∧ ((strip t = s ∧ i = n) ∨ (strip t = '+' :: s ∧ i = n) ∨ (strip t = '-' :: s ∧ i = -n))

end Spec

open Spec

theorem digitGroups_iff {s : Str} {n : Nat} :
    DigitGroups s n ↔ ∃ d, digitsWithUnderscores false s = some d ∧ n = digitsVal d := by
  constructor
  · rintro ⟨gs, h1, h2, rfl, rfl⟩
    exact ⟨_, digitsWithUnderscores_taken h1 h2, rfl⟩
  · rintro ⟨d, h, rfl⟩
    obtain ⟨gs, h1, ⟨g, h2, h3, h4⟩, rfl, rfl⟩ := digitsWithUnderscores_groups h
    cases gs with
    | nil => cases h2
    | cons g' gs =>
      cases h2
      exact ⟨g :: gs, by simp, by simpa using ⟨⟨h3 rfl, h4⟩, h1⟩, rfl, rfl⟩

theorem digitGroups_first {c : Char} {s : Str} {n : Nat} (h : DigitGroups (c :: s) n) : isDigit c = true := by
  obtain ⟨gs, h1, h2, h3, -⟩ := h
  cases gs with
  | nil => exact absurd rfl h1
  | cons g gs =>
    have hg := h2 g (by simp)
    cases g with
    | nil => exact absurd rfl hg.1
    | cons d g =>
      have : c = d := by
        cases gs <;> (injection h3)
      rw [this]
      exact hg.2 d (by simp)

/-- The texts `int()` takes are exactly these. -/
theorem pyInt_iff {t : Str} {i : Int} : pyInt t = some i ↔ WholeNumber t i := by
  unfold pyInt
  constructor
  · intro h
    split at h
    · obtain ⟨d, hd, rfl⟩ := Option.map_eq_some_iff.1 h
      next e => exact ⟨_, _, digitGroups_iff.2 ⟨d, hd, rfl⟩, .inr (.inr ⟨e, rfl⟩)⟩
    · obtain ⟨d, hd, rfl⟩ := Option.map_eq_some_iff.1 h
      next e => exact ⟨_, _, digitGroups_iff.2 ⟨d, hd, rfl⟩, .inr (.inl ⟨e, rfl⟩)⟩
    · obtain ⟨d, hd, rfl⟩ := Option.map_eq_some_iff.1 h
      exact ⟨_, _, digitGroups_iff.2 ⟨d, hd, rfl⟩, .inl ⟨rfl, rfl⟩⟩
  · rintro ⟨s, n, hs, ⟨e, rfl⟩ | ⟨e, rfl⟩ | ⟨e, rfl⟩⟩
    · obtain ⟨d, hd, rfl⟩ := digitGroups_iff.1 hs
      rw [e]
      split
      · exact absurd (digitGroups_first hs) (by decide)
      · exact absurd (digitGroups_first hs) (by decide)
      · rw [hd]; rfl
    · obtain ⟨d, hd, rfl⟩ := digitGroups_iff.1 hs
      rw [e]
      show Option.map _ (digitsWithUnderscores false s) = _
      rw [hd]
      rfl
    · obtain ⟨d, hd, rfl⟩ := digitGroups_iff.1 hs
      rw [e]
      show Option.map _ (digitsWithUnderscores false s) = _
      rw [hd]
      rfl

example : WholeNumber c!" -1_000 " (-1000) := pyInt_iff.1 (by decide +kernel)

example : ∀ i, ¬ WholeNumber c!"-_5" i := fun i h => by
  have := pyInt_iff.2 h
  rw [show pyInt c!"-_5" = none by decide +kernel] at this
  cases this

end Xls
