/-
Specification of rows added below a table and of a data frame that goes on from another one.
-/
import Verif.Spec.Joined
import Verif.Spec.Extraction

set_option autoImplicit false

namespace Xls.Spec

/-- The worksheet `s'` is `s` after rows were added below row `n`: up to this row nothing has changed. What was below it
may have moved or gone. -/
structure RowsAdded (n : Int) (s s' : Sheet) : Prop where
  kept : ∀ r c, r ≤ n → s'.cells r c = s.cells r c
  reaches : n ≤ s'.maxRow

/-- The data frame `f'` goes on from `f`: it has the same frequency and the same columns, its index begins with that of
`f`, and each of its columns with the column of `f`. -/
structure GoesOn (f f' : Frame) : Prop where
  freq : f'.freq = f.freq
  columns : f'.columns = f.columns
  index : f.index <+: f'.index
  data : List.Forall₂ (fun col col' => col <+: col') f.data f'.data

/-- The series go down, beside their dates, and it is not said where they end. -/
structure OpenDown (sp : SParams) : Prop where
  down : sp.alignment = .vertical
  beside : sp.timeAlignment = 0
  open_end : sp.dataEnds = none

/-- The cells that name the series are not below row `n`. -/
def NamedAbove (n : Int) (sp : SParams) : Prop :=
  ∀ coord ∈ sp.headerCoord :: sp.composedHeaders.getD [], ∀ r c, coordOf coord = .ok (r, c) → r ≤ n

/-- The date in row `n` is read without a look at the next one: the dates are composed texts, or it is a date-time and
not a text. -/
def ReadAsItStands (sp : SParams) (s : Sheet) (n : Int) : Prop :=
  sp.timeComposed = true ∨
    ∃ th r c, sp.timeHeader = .single th ∧ coordOf th = .ok (r, c) ∧ IsDate (s.cells n c)

end Xls.Spec
