/-
A plain table: a column of dates and columns of numbers beside it.
-/
import Verif.Spec.Frames
import Verif.Spec.Periods

set_option autoImplicit false

namespace Xls.Spec

/-- The parameters say: vertical continuous series without blank rows or missing values, with the given
header cells, one column of dates, one frequency, data from row `start` to the end of the dates. -/
structure Table (p : Params) (headers : List Str) (timeHeader freq : Str) (start : Int) : Prop where
  headersC : p .headersCoord = .list (headers.map .str)
  alignment : p .alignment = .list (List.replicate headers.length (.str c!"vertical"))
  names : p .seriesNames = .list (List.replicate headers.length .none)
  composed : p .composedHeadersCoord = .list (List.replicate headers.length .none)
  context : p .context = .list (List.replicate headers.length .none)
  starts : p .dataStarts = .list (List.replicate headers.length (.int start))
  ends : p .dataEnds = .list (List.replicate headers.length .none)
  continuity : p .continuity = .list (List.replicate headers.length (.bool true))
  blankRows : p .blankRows = .list (List.replicate headers.length (.bool false))
  missings : p .missings = .list (List.replicate headers.length (.bool false))
  missingValue : ∃ v, p .missingValue = .list (List.replicate headers.length v)
  timeAlignment : p .timeAlignment = .list (List.replicate headers.length (.int 0))
  multicolumn : p .timeMulticolumn = .list (List.replicate headers.length (.bool false))
  timeHeaderC : p .timeHeaderCoord = .list (List.replicate headers.length (.str timeHeader))
  timeComposed : p .timeComposed = .list (List.replicate headers.length (.bool false))
  frequency : p .frequency = .list (List.replicate headers.length (.str freq))

/-- A column of numbers: where its header is, what it says and the numbers. -/
structure Column where
  header : Str
  text : Str
  values : List Num

/-- The sheet has the column in rows `start` to `last`. -/
def HasColumn (ext : Ext) (s : Sheet) (start last : Int) (c : Column) : Prop :=
  ∃ hr hc, coordOf c.header = .ok (hr, hc) ∧ s.cells hr hc = .str c.text ∧
    (cellsAlong s .vertical hr hc start last).map (numberIn ext) = c.values.map some

/-- The sheet has the dates `ts` in rows `start` to `last` of the column of the time header, at least
two, and then either ends or has an empty cell. -/
structure HasDates (s : Sheet) (timeHeader : Str) (start last : Int) (ts : List Time) : Prop where
  cells : ∃ tr tc, coordOf timeHeader = .ok (tr, tc) ∧
    cellsAlong s .vertical tr tc start last = ts.map .dt ∧
    (last = s.maxRow ∨ (last < s.maxRow ∧ s.cells (last + 1) tc = .none))
  start_pos : 1 ≤ start
  two : start < last

end Xls.Spec
