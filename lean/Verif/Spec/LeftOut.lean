/-
Parameters that are left out and what the user could have given for them.
-/
import Verif.Spec.Attempts
import Verif.Spec.Scraper

set_option autoImplicit false

namespace Xls.Spec

/-- The parameter `n` was left out: nothing is given for it, although every series needs it. -/
def LeftOut (p : Params) (n : Name) : Prop := p n = .none ∧ n ∉ optionalNames

/-- `q` is `p` with one of the possible values, the same one for all `N` series, for each parameter that was
left out; everything else is as in `p`. -/
def Completion (p : Params) (N : Nat) (q : Params) : Prop :=
  ∀ n, (LeftOut p n → ∃ v ∈ choices n, q n = .list (List.replicate N v)) ∧ (¬ LeftOut p n → q n = p n)

/-- The completion with the usual values. -/
def UsualCompletion (p : Params) (N : Nat) (q : Params) : Prop :=
  ∀ n, (LeftOut p n → q n = .list (List.replicate N (usual n))) ∧ (¬ LeftOut p n → q n = p n)

/-- The same worksheets, whatever `Parameters` objects there are. -/
def SameBooks (w w2 : World) : Prop := w2.sheets = w.sheets ∧ w2.nextSheet = w.nextSheet

/-- The answer and the name of the worksheet a call gives back. -/
def gives (call : Except Err (Answer × Str × Nat) × World) (a : Answer) (title : Str) : Prop :=
  ∃ pr w', call = (.ok (a, title, pr), w')

end Xls.Spec
