/-
Values under the dates beside which they stand.
-/
import Verif.Spec.Scraper
import Verif.Spec.Layout

set_option autoImplicit false

namespace Xls.Spec

/-- From row `start` to row `last`, column `tc` holds days, each later than the one above. -/
def DaysDown (s : Sheet) (tc start last : Int) : Prop :=
  (∀ row, start ≤ row → row ≤ last → ∃ t, s.cells row tc = .dt t ∧ ValidTime t ∧ t.us = 0) ∧
  ∀ row, start ≤ row → row < last → ∀ t t', s.cells row tc = .dt t → s.cells (row + 1) tc = .dt t' → t < t'

/-- Each whole number in column `hc` beside a date in column `tc` stands under this date in the `k`-th column
of the data frame. -/
def UnderOwnDates (s : Sheet) (tc hc start last : Int) (k : Nat) (f : Frame) : Prop :=
  ∀ row, start ≤ row → row ≤ last → ∀ t x, s.cells row tc = .dt t → s.cells row hc = .int x →
    ∃ (j : Nat) (col : List Num), f.index[j]? = some t ∧ f.data[k]? = some col ∧ col[j]? = some (.fin x)

end Xls.Spec
