/-
Specification of worksheets whose dates are written in other ways.
-/
import Verif.Spec.Numbers

set_option autoImplicit false

namespace Xls.Spec

/-- The same text apart from capital and small letters. -/
def SameLetters (a b : Str) : Prop := lower a = lower b

/-- The dates of the series are texts for months or years. (Texts for quarters and semesters have Roman numbers, which
are read only in capital letters.) -/
def MonthsOrYears (sp : SParams) : Prop := sp.timeComposed = true ∧ (sp.frequency = c!"M" ∨ sp.frequency = c!"A")

/-- Two texts for the same date of the series: they are the same apart from blanks around them and accents; for months
and years also apart from capital and small letters. Where the package leaves a text to `pandas` or `arrow` (such as
a text that was given as the end of the data and is not a date of the series), these take both alike. -/
structure SameDateText (ext : Ext) (sp : SParams) (a b : Str) : Prop where
  text : strip (ext.unidecode a) = strip (ext.unidecode b) ∨
    MonthsOrYears sp ∧ SameLetters (strip (ext.unidecode a)) (strip (ext.unidecode b))
  left : strip a ≠ []
  right : strip b ≠ []
  pandas : ext.pandasTime (.str a) = ext.pandasTime (.str b)
  arrow : ext.arrowOfCell (.str a) = ext.arrowOfCell (.str b)

/-- Two cells with the same date: the same contents, or two texts for the same date. -/
inductive SameDate (ext : Ext) (sp : SParams) : Cell → Cell → Prop
  | same (c : Cell) : SameDate ext sp c c
  | texts {a b : Str} (h : SameDateText ext sp a b) : SameDate ext sp (.str a) (.str b)

/-- The two worksheets have the same headers and values, and the same dates, which may be written in other ways. -/
structure Rewritten (ext : Ext) (sps : List SParams) (s t : Sheet) : Prop where
  title : t.title = s.title
  rows : t.maxRow = s.maxRow
  cols : t.maxCol = s.maxCol
  dates : ∀ sp ∈ sps, ∀ r c, InDates sp r c → SameDate ext sp (s.cells r c) (t.cells r c)
  headers : ∀ sp ∈ sps, ∀ a ∈ sp.headerCoord :: sp.composedHeaders.getD [], ∀ r c, coordOf a = .ok (r, c) →
    t.cells r c = s.cells r c
  values : ∀ sp ∈ sps, ∀ r c, InValues sp r c → t.cells r c = s.cells r c

end Xls.Spec
