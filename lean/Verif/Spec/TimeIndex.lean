/-
Vocabulary to state what cleaning a time index does to a worksheet.
-/
import Verif.Model.TimeIndex
import Verif.Spec.Calendar

set_option autoImplicit false

namespace Xls.Spec

/-- Row of position `pos` of a time index: the position itself if the index is vertical, the row of
the header otherwise. -/
def rowOf (al : Align) (hr pos : Int) : Int := if al = .vertical then pos else hr

/-- Column of position `pos` of a time index. -/
def colOf (al : Align) (hc pos : Int) : Int := if al = .vertical then hc else pos

/-- Value of the time index at a position. -/
def timeCell (s : Sheet) (al : Align) (hr hc pos : Int) : Cell :=
  s.cells (rowOf al hr pos) (colOf al hc pos)

/-- Every date-time of the sheet is a real one (always the case for Python's `datetime`). -/
def SheetValid (s : Sheet) : Prop := ∀ r c t, s.cells r c = .dt t → ValidTime t

/-- The date library returns real date-times. -/
def ExtValid (ext : Ext) : Prop := ∀ s f t, ext.arrowParse s f = some t → ValidTime t

/-- Number of components among day, month and year on which two dates agree. -/
def agreeing (a b : Time) : Nat :=
  (if a.day = b.day then 1 else 0) + (if a.month = b.month then 1 else 0) +
    (if a.year = b.year then 1 else 0)

end Xls.Spec

namespace Xls.Spec

/-- The date-times of a time index at positions `lo`, ..., `hi - 1`, in sheet order. -/
def indexTimes (s : Sheet) (al : Align) (hr hc lo hi : Int) : List Time :=
  ((List.range (hi - lo).toNat).map fun i : Nat => timeCell s al hr hc (lo + i)).filterMap
    fun c => match c with
      | .dt t => some t
      | _ => none

/-- `(r, c)` is the cell of the time index at position `pos`. -/
def IsAt (al : Align) (hr hc pos r c : Int) : Prop := r = rowOf al hr pos ∧ c = colOf al hc pos

/-- Each date-time is one period of `freq` after the one before it. -/
def Consecutive (freq : Str) : List Time → Prop
  | [] => True
  | [_] => True
  | a :: b :: rest =>
    (∃ sh, shiftOf freq = some sh ∧ IsShifted a 1 b sh) ∧ Consecutive freq (b :: rest)

/-- Each date-time is strictly before all that follow. -/
def Increasing (ts : List Time) : Prop := ts.Pairwise (· < ·)

end Xls.Spec

namespace Xls.Spec

/-- The parameters describe one time column (or row) of dates that are not composed of several
parts, with a one-letter frequency and header cell `(hr, hc)`. -/
structure TimeColumn (sp : SParams) (hr hc : Int) : Prop where
  single : sp.timeMulticolumn = false
  header : ∃ coord, sp.timeHeader = .single coord ∧ coordOf coord = .ok (hr, hc)
  starts : 1 ≤ sp.dataStarts
  aligned : sp.alignment = .vertical ∨ sp.alignment = .horizontal
  notComposed : sp.timeComposed = false
  oneLetter : sp.frequency.length = 1

/-- Nothing, or a text of blanks only. -/
def BlankCell : Cell → Prop
  | .none => True
  | .str s => ∀ c ∈ s, isSpace c = true
  | _ => False

/-- The last position of a sheet a cleaning may look at: `data_ends` if given (and not 0), otherwise
the last used row (column). -/
def lastPosition (sp : SParams) (s : Sheet) : Int :=
  match sp.dataEnds with
  | some e => if e ≠ 0 then e else if sp.alignment = .vertical then s.maxRow else s.maxCol
  | none => if sp.alignment = .vertical then s.maxRow else s.maxCol

end Xls.Spec

namespace Xls.Spec

/-- `(hr, hc)` is the (first) header cell of the time index: the one whose column (row) receives the
cleaned dates. -/
def HeaderAt (sp : SParams) (hr hc : Int) : Prop :=
  match sp.timeHeader with
  | .single c => coordOf c = .ok (hr, hc)
  | .multi [] => False
  | .multi (c :: _) => coordOf c = .ok (hr, hc)

/-- `missing_value` is not the bare string `Implicit` (parameters objects always hold a list). -/
def NotImplicitString : PVal → Prop
  | .str s => s ≠ c!"Implicit"
  | _ => True

/-- `t'` is the period right after `t` at a frequency. -/
def NextPeriod (freq : Str) (t t' : Time) : Prop :=
  ValidTime t' ∧ ∃ sh, shiftOf freq = some sh ∧ IsShifted t 1 t' sh

end Xls.Spec
