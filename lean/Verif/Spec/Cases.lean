/-
Files of test cases and classes of a module, independently of the code.
-/
import Verif.Model.Cases

set_option autoImplicit false

namespace Xls.Spec

/-- `a` stands before `b` in alphabetical order (of code points): `a` is the beginning of `b`, or the first
character in which they differ is smaller in `a`. -/
def Alphabetical (a b : Str) : Prop :=
  (∃ t, b = a ++ t) ∨ ∃ p x y s t, a = p ++ x :: s ∧ b = p ++ y :: t ∧ x.toNat < y.toNat

/-- A class is meant to be used: it is no exception, its name does not begin with `Base` and it is not
`Parameters`. -/
def MeantForUse (c : PyClass) : Prop :=
  c.isException = false ∧ (¬ ∃ t, c.name = c!"Base" ++ t) ∧ c.name ≠ c!"Parameters"

/-- The special case is a text that does not begin with a digit (`b`, `_with_months`, nothing). -/
def PlainSpecial (special : Option Str) : Prop :=
  ∀ s, special = some s → ∀ c ∈ s.head?, ¬ ('0' ≤ c ∧ c ≤ '9')

end Xls.Spec
