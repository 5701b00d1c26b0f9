/-
What every data frame that is given back looks like.
-/
import Verif.Spec.TimeIndex
import Verif.Spec.Scraper
import Verif.Spec.Periods

set_option autoImplicit false

namespace Xls.Spec

/-- The dates the libraries give are dates of the calendar, business days come in order. -/
structure RealDates (ext : Ext) : Prop where
  parsed : ExtValid ext
  stamped : ∀ v t, ext.pandasTime v = some t → ValidTime t
  business : ∀ a z, Increasing (ext.businessDays a z) ∧ ∀ t ∈ ext.businessDays a z, ValidTime t

/-- The index is the starts of consecutive periods of the kind its frequency names. -/
structure PeriodIndex (freq : Str) (index : List Time) : Prop where
  some_period : index ≠ []
  kind : ∃ letter, (periodShift [letter]).isSome ∧ freq = indexFreq [letter] ∧
    PeriodRun [letter] index ∧ ∀ t ∈ index, PeriodStart [letter] t

/-- A data frame as one expects it: dates of the calendar in increasing order, no gap among them (no period
is left out; for business days it is up to `pandas`), at least one column, no two with the same name, one
value for each date in each of them. -/
structure SoundFrame (ext : Ext) (f : Frame) : Prop where
  real : ∀ t ∈ f.index, ValidTime t
  increasing : Increasing f.index
  periods : PeriodIndex f.freq f.index ∨
    (f.freq = c!"B" ∧ ∃ a z, a ≤ z ∧ f.index = ext.businessDays a z)
  some_column : f.columns ≠ []
  distinct : f.columns.Nodup
  one_each : f.columns.length = f.data.length
  sizes : ∀ d ∈ f.data, d.length = f.index.length

/-- The data frame is (part of) the result of one set of parameters. -/
def InDfs (f : Frame) : Dfs → Prop
  | .one g => f = g
  | .many fs => f ∈ fs

/-- The data frame is (part of) what is given back. -/
def InAnswer (f : Frame) : Answer → Prop
  | .dfs d => InDfs f d
  | .several ds => ∃ d ∈ ds, InDfs f d

end Xls.Spec
