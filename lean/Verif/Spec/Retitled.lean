/-
Specification of worksheets that differ in the texts of headers.
-/
import Verif.Spec.Numbers

set_option autoImplicit false

namespace Xls.Spec

/-- The cell holds a text. -/
def HoldsText : Cell → Prop
  | .str _ => True
  | _ => False

/-- No name is given for the series, so that it is taken from the headers. -/
def Unnamed (sp : SParams) : Prop := sp.seriesName = none ∨ sp.seriesName = some []

/-- The two worksheets have the same dates and values. All other cells may be different, the headers among them; only
where a series has several headers, both worksheets have a text or none of them has. -/
structure Retitled (sps : List SParams) (s t : Sheet) : Prop where
  title : t.title = s.title
  rows : t.maxRow = s.maxRow
  cols : t.maxCol = s.maxCol
  dates : ∀ sp ∈ sps, ∀ r c, InDates sp r c → t.cells r c = s.cells r c
  values : ∀ sp ∈ sps, ∀ r c, InValues sp r c → t.cells r c = s.cells r c
  texts : ∀ sp ∈ sps, Unnamed sp → ∀ a ∈ sp.composedHeaders.getD [], ∀ r c, coordOf a = .ok (r, c) →
    (HoldsText (t.cells r c) ↔ HoldsText (s.cells r c))

/-- Data frames that are the same apart from the names of the columns. -/
structure SameButNames (f g : Frame) : Prop where
  freq : g.freq = f.freq
  index : g.index = f.index
  data : g.data = f.data
  number : g.columns.length = f.columns.length

end Xls.Spec
