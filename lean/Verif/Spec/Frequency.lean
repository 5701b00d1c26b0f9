/-
Vocabulary for series that mix several frequencies.
-/
import Verif.Spec.TimeIndex

set_option autoImplicit false

namespace Xls.Spec

/-- The frequency letter of the `k`-th period (from 0) of a series that cycles through `pattern`. -/
def letterAt (pattern : Str) (k : Nat) : Option Char := pattern[k % pattern.length]?

/-- The elements of `xs` whose place in the cycle of `pattern` has the letter `c`, in order. -/
def ofLetter {α : Type} (pattern : Str) (c : Char) (xs : List α) : List α :=
  (xs.zipIdx.filter fun p => letterAt pattern p.2 = some c).map Prod.fst

/-- Each date-time is one period after the one before it, or repeats it. -/
def ConsecutiveOrSame (freq : Str) : List Time → Prop
  | [] => True
  | [_] => True
  | a :: b :: rest => (NextPeriod freq a b ∨ b = a) ∧ ConsecutiveOrSame freq (b :: rest)

end Xls.Spec
