/-
Decimals of a number.
-/
import Mathlib.Algebra.Order.Field.Rat

set_option autoImplicit false

namespace Xls.Spec

/-- A number has `k` decimals: so many are needed to write it. -/
def Decimals (v : Rat) (k : Nat) : Prop :=
  (∃ m : Int, v * 10 ^ k = m) ∧ ∀ k' < k, ¬∃ m : Int, v * 10 ^ k' = m

/-- Whole numbers, halves, quarters and so on: with `n` digits before the point and a denominator `2 ^ j`, at most
13 in all. -/
def Short (v : Rat) : Prop := ∃ n j : Nat, 1 ≤ n ∧ n + j ≤ 13 ∧ |v| < 10 ^ n ∧ ∃ c : Int, v * 2 ^ j = c

end Xls.Spec
