/-
Worksheets that differ in their empty cells only.
-/
import Verif.Spec.Series

set_option autoImplicit false

namespace Xls.Spec

/-- Two worksheets with the same title and the same values in their cells. They may differ in how far
they reach, that is in the number of empty rows and columns that exist. -/
structure SameValues (s t : Sheet) : Prop where
  title : t.title = s.title
  cells : t.cells = s.cells

/-- Each of the series is in a column and starts in the first `n` rows, or its end is given and its time index
is one row or column. If some have several frequencies, then all are in columns and have a first cycle of
frequencies in these rows, and the end if given, and no dates above their values. -/
structure Settled (n : Int) (sps : List SParams) : Prop where
  lies : ∀ sp ∈ sps, (sp.alignment = .vertical ∧ sp.dataStarts ≤ n) ∨ (EndGiven sp ∧ sp.timeMulticolumn = false)
  several : (∀ sp ∈ sps, sp.frequency.length = 1) ∨ ∀ sp ∈ sps, sp.alignment = .vertical ∧ 1 ≤ sp.dataStarts ∧
    sp.dataStarts + sp.frequency.length ≤ n + 1 ∧ (∀ e, sp.dataEnds = some e → e ≤ n) ∧ 0 ≤ sp.timeAlignment

end Xls.Spec
