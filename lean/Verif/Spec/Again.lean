/-
What it takes for a worksheet to be read again with the parameters that were filled in.
-/
import Verif.Spec.TimeIndex
import Verif.Spec.Series

set_option autoImplicit false

namespace Xls.Spec

/-- No cell with a value was emptied. Cleaning empties those with dates that do not exist, such as 30 February. -/
def NoCellEmptied (s s' : Sheet) : Prop := ∀ r c, s'.cells r c = .none → s.cells r c = .none

/-- The time index of the series is a single column (or row) in line with the values, and of one frequency. -/
structure PlainIndex (sp : SParams) : Prop where
  single : sp.timeMulticolumn = false
  inLine : sp.timeAlignment = 0
  oneFrequency : sp.frequency.length = 1

/-- Series with different time headers have their dates in different columns, or in different rows. -/
def SeparateIndexes (sps : List SParams) : Prop :=
  ∀ sp ∈ sps, ∀ sp' ∈ sps, sp.timeHeader ≠ sp'.timeHeader →
    ∀ hr hc hr' hc', HeaderAt sp hr hc → HeaderAt sp' hr' hc' →
      (sp.alignment = .vertical ∧ sp'.alignment = .vertical ∧ hc ≠ hc') ∨
      (sp.alignment ≠ .vertical ∧ sp'.alignment ≠ .vertical ∧ hr ≠ hr')

/-- The last date of the time index, the one where the data end, does not stand above (or to the left) too. -/
def LastDateOnce (sp : SParams) (s : Sheet) : Prop :=
  ∀ hr hc e pos x, HeaderAt sp hr hc → sp.dataEnds = some e → sp.dataStarts ≤ pos → pos < e →
    timeCell s sp.alignment hr hc pos = .dt x → timeCell s sp.alignment hr hc e ≠ .dt x

end Xls.Spec
