/-
Specification of tables read from one row to another.
-/
import Verif.Spec.Layout
import Verif.Spec.Later

set_option autoImplicit false

namespace Xls.Spec

/-- The same series, said to start at position `m` and to end at position `n`. -/
def window (m n : Int) (sp : SParams) : SParams := { sp with dataStarts := m, dataEnds := some n }

/-- There is one value in every row of the series. -/
def OnePerRow (sp : SParams) : Prop := sp.continuity = true ∧ sp.blankRows = false

/-- The data frame `g` is the part of `f` from the date `a` to the date `z`: same frequency and columns, and dates and
values are those of `c` consecutive periods of `f`, the same in every column. -/
structure PartOf (g f : Frame) (a z : Time) : Prop where
  freq : g.freq = f.freq
  columns : g.columns = f.columns
  rows : ∃ j c, g.index = (f.index.drop j).take c ∧ g.data = f.data.map fun col => (col.drop j).take c
  first : g.index.head? = some a
  last : g.index.getLast? = some z

end Xls.Spec
