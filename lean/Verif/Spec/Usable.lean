/-
What parameters and worksheet must be like for data frames to be given back.
-/
import Verif.Spec.Series
import Verif.Spec.TimeIndex

set_option autoImplicit false

namespace Xls.Spec

/-- A value `pandas` takes for a date: a date or what it makes one of. -/
def Stamped (ext : Ext) (v : Cell) : Prop := (∃ t, v = .dt t) ∨ ∃ t, v ≠ .none ∧ ext.pandasTime v = some t

/-- The last cycle of a series of several frequencies, complete or not, has all of them. -/
def LastCycleHasAll (pattern : Str) (start last : Int) : Prop :=
  ∀ cycles n : Nat, last - start + 1 = ((cycles * pattern.length + n : Nat) : Int) → 1 ≤ n → n ≤ pattern.length →
    ∀ f ∈ pattern, f ∈ pattern.take n

/-- The parameters of a series (after cleaning) make sense on the (cleaned) worksheet. -/
structure Usable (ext : Ext) (sp : SParams) (s : Sheet) : Prop where
  /-- The header is a cell. -/
  header : ∃ r c, coordOf sp.headerCoord = .ok (r, c)
  /-- The series goes down or to the right. -/
  aligned : sp.alignment = .vertical ∨ sp.alignment = .horizontal
  /-- There is a frequency and it is a known one. -/
  frequency : sp.frequency ≠ [] ∧ ∀ c ∈ sp.frequency, c ∈ c!"AYSQMWD"
  /-- The data start in the sheet. -/
  starts : 1 ≤ sp.dataStarts
  /-- There are at least two positions. -/
  ends : ∃ last, sp.dataEnds = some last ∧ sp.dataStarts < last
  /-- One time header, or several if the time index is in several columns. -/
  timeHeader : sp.timeMulticolumn = false → ∃ c, sp.timeHeader = .single c
  /-- There are dates at the first and at the last position of the time index. -/
  dated : sp.frequency.length = 1 → ∃ tr tc last, HeaderAt sp tr tc ∧ sp.dataEnds = some last ∧
    Stamped ext (timeCell s sp.alignment tr tc (sp.dataStarts + sp.timeAlignment)) ∧
    Stamped ext (timeCell s sp.alignment tr tc (last + sp.timeAlignment))
  /-- Of several frequencies down a column, none is absent from the last cycle. -/
  cycles : 1 < sp.frequency.length → sp.alignment = .vertical → ∀ last, sp.dataEnds = some last →
    LastCycleHasAll sp.frequency sp.dataStarts last

/-- The same series but for its end; and that is the same if it was given and `kept` holds. -/
structure EndFilled (kept : Prop) (sp sp' : SParams) : Prop where
  same : sp' = { sp with dataEnds := sp'.dataEnds }
  given : kept → EndGiven sp → sp'.dataEnds = sp.dataEnds

end Xls.Spec
