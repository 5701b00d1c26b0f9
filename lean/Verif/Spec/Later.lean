/-
Specification of tables read from a later row on.
-/
import Verif.Spec.Cut
import Verif.Spec.Periods
import Verif.Spec.TimeIndex
import Verif.Spec.Offset
import Verif.Spec.Extraction

set_option autoImplicit false

namespace Xls.Spec

/-- The same series, said to start at row `m`. -/
def startAt (m : Int) (sp : SParams) : SParams := { sp with dataStarts := m }

/-- The data frame `g` is the last part of `f`: same frequency and columns, and its dates and the values of each of its
columns are the last ones of those of `f`. -/
structure EndOf (g f : Frame) : Prop where
  freq : g.freq = f.freq
  columns : g.columns = f.columns
  index : g.index <:+ f.index
  data : List.Forall₂ (fun col col' => col <:+ col') g.data f.data

/-- A cell with a date of the time of day `us` that `pandas` can represent. -/
def PlainDate (us : Nat) (v : Cell) : Prop := ∃ t, v = .dt t ∧ ValidTime t ∧ Representable t ∧ t.us = us

/-- The missing values of the series are to be filled in from its dates. Every row down to `last` has a value and a date,
and the dates are some of a run of consecutive periods, the first and the last one included, that could go on. -/
structure FilledIn (s : Sheet) (sp : SParams) (tr tc last : Int) : Prop where
  missings : sp.missings = true
  implicit : ∃ markers, sp.missingValue = .list markers ∧ PVal.str c!"Implicit" ∈ markers
  continuous : sp.continuity = true
  noBlankRows : sp.blankRows = false
  dates : ∃ grid ts, cellsAlong s .vertical tr tc sp.dataStarts last = ts.map .dt ∧ OnGrid sp.frequency grid ts ∧
    ∀ z, grid.getLast? = some z → ∃ z', NextPeriod sp.frequency z z'

end Xls.Spec
