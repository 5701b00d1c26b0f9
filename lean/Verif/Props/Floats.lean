/-
C106: the number of decimals of a series of floats.
-/
import Verif.Lemmas.Floats

set_option autoImplicit false

namespace Xls

open Spec

theorem figures_from (start : Int) : ∀ (l : List Rat),
    l.foldl (fun figures value => max figures (-inferDecimals value)) start =
      max start (l.foldl (fun figures value => max figures (-inferDecimals value)) start)
  | [] => by simp
  | v :: l => by
    rw [List.foldl_cons, figures_from _ l]
    omega

theorem figures_max (start : Int) : ∀ (l : List Rat), 0 ≤ start →
    l.foldl (fun figures value => max figures (-inferDecimals value)) start =
      max start (l.foldl (fun figures value => max figures (-inferDecimals value)) 0)
  | [], h => by simp [h]
  | v :: l, h => by
    rw [List.foldl_cons, List.foldl_cons, figures_max (max start _) l (by omega), figures_max (max 0 _) l (by omega)]
    omega

theorem figures_cons (v : Option Rat) (serie : List (Option Rat)) :
    significantFigures (v :: serie) = max (significantFigures [v]) (significantFigures serie) := by
  unfold significantFigures
  cases v with
  | none =>
    have := figures_from 0 (serie.filterMap id)
    simpa using this
  | some v =>
    rw [List.filterMap_cons_some (f := id) (b := v) rfl, List.foldl_cons, figures_max _ _ (by omega)]
    rfl

/-- C106. The number for two series together is the greater of their numbers, a missing value does not count, and
the number is never negative. -/
theorem C106_joined (a b : List (Option Rat)) :
    significantFigures (a ++ b) = max (significantFigures a) (significantFigures b) ∧
    significantFigures (a ++ none :: b) = significantFigures (a ++ b) ∧ 0 ≤ significantFigures a := by
  have nonneg : ∀ s : List (Option Rat), 0 ≤ significantFigures s := by
    intro s
    unfold significantFigures
    rw [figures_from]
    omega
  have join : ∀ a b : List (Option Rat),
      significantFigures (a ++ b) = max (significantFigures a) (significantFigures b) := by
    intro a b
    induction a with
    | nil =>
      have := nonneg b
      rw [List.nil_append, show significantFigures [] = 0 from rfl]
      omega
    | cons v a ih =>
      rw [List.cons_append, figures_cons, ih, figures_cons v a]
      omega
  refine ⟨join a b, ?_, nonneg a⟩
  rw [join, join, figures_cons, show significantFigures [none] = 0 from rfl]
  have := nonneg b
  omega

/-- C106. For whole numbers, halves, quarters and so on with at most 13 digits (`Short`), `significant_figures` is the
number of decimals needed to write all the values: no value has more, and some value has as many unless it is 0.
Missing: other values (`C106_decimals_violated`) and more digits (`C106_whole_violated`). -/
theorem C106_figures_partial (serie : List (Option Rat)) (h : ∀ v, some v ∈ serie → Short v) :
    ∃ k : Nat, significantFigures serie = k ∧ (∀ v, some v ∈ serie → ∃ k' ≤ k, Decimals v k') ∧
      (k = 0 ∨ ∃ v, some v ∈ serie ∧ Decimals v k) := by
  induction serie with
  | nil => exact ⟨0, rfl, by simp, .inl rfl⟩
  | cons x serie ih =>
    obtain ⟨k, h1, h2, h3⟩ := ih fun v hv => h v (List.mem_cons_of_mem _ hv)
    rw [figures_cons, h1]
    cases x with
    | none =>
      refine ⟨k, by rw [show significantFigures [none] = 0 from rfl]; omega, ?_, ?_⟩
      · intro v hv
        simp only [List.mem_cons, reduceCtorEq, false_or] at hv
        exact h2 v hv
      · rcases h3 with h3 | ⟨v, hv, hd⟩
        · exact .inl h3
        · exact .inr ⟨v, List.mem_cons_of_mem _ hv, hd⟩
    | some x =>
      have hx := h x (by simp)
      obtain ⟨kx, hkx⟩ := decimals_exist hx
      have e : significantFigures [some x] = kx := inferDecimals_short hx hkx
      rw [e]
      refine ⟨max kx k, by omega, ?_, ?_⟩
      · intro v hv
        simp only [List.mem_cons, Option.some.injEq] at hv
        rcases hv with rfl | hv
        · exact ⟨kx, by omega, hkx⟩
        · obtain ⟨k', hk', hd⟩ := h2 v hv
          exact ⟨k', by omega, hd⟩
      · by_cases hle : k ≤ kx
        · exact .inr ⟨x, by simp, by rwa [Nat.max_eq_left hle]⟩
        · rw [Nat.max_eq_right (by omega)]
          rcases h3 with h3 | ⟨v, hv, hd⟩
          · exact .inl h3
          · exact .inr ⟨v, List.mem_cons_of_mem _ hv, hd⟩

/-! ### Examples -/

/-- A series with a half, a quarter, a missing value and a large number. -/
example : ∃ k : Nat, significantFigures [some (5 / 2), none, some (-21 / 4), some 9999999999999] = k ∧
    (∀ v, some v ∈ [some (5 / 2), none, some (-21 / 4), some (9999999999999 : Rat)] → ∃ k' ≤ k, Decimals v k') ∧
    (k = 0 ∨ ∃ v, some v ∈ [some (5 / 2), none, some (-21 / 4), some (9999999999999 : Rat)] ∧ Decimals v k) :=
  C106_figures_partial _ (by
    intro v hv
    simp only [List.mem_cons, Option.some.injEq, reduceCtorEq, List.not_mem_nil, or_false, false_or] at hv
    rcases hv with rfl | rfl | rfl
    · exact ⟨1, 1, by omega, by omega, by norm_num [abs_of_pos], 5, by norm_num⟩
    · exact ⟨1, 2, by omega, by omega, by norm_num [abs_of_neg], -21, by norm_num⟩
    · exact ⟨13, 0, by omega, by omega, by norm_num [abs_of_pos], 9999999999999, by norm_num⟩)

example : significantFigures [some (5 / 2), none, some (-21 / 4), some 9999999999999] = 2 := by decide +kernel

/-- C106. Violated: the number read from `0.043` is said to have 16 decimals; `0.042` and `0.044` have three. -/
theorem C106_decimals_violated :
    significantFigures [some (toDouble (43 / 1000))] = 16 ∧ significantFigures [some (toDouble (42 / 1000))] = 3 ∧
      significantFigures [some (toDouble (44 / 1000))] = 3 := by
  decide +kernel

/-- C106. Violated: a whole number of 15 digits, which is a binary64 number, is said to have a decimal. -/
theorem C106_whole_violated :
    toDouble 999999999999902 = 999999999999902 ∧ significantFigures [some 999999999999902] = 1 := by
  decide +kernel

end Xls
