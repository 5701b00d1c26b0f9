/-
Time indexes whose dates do not stand beside the values but one position before or after them, possibly
in the column (row) of the values themselves.
-/
import Verif.Spec.Layout

set_option autoImplicit false

namespace Xls.Spec

/-- The date of a date cell. -/
def dateIn : Cell → Option Time
  | .dt t => some t
  | _ => none

/-- The cell stands for no date: it is blank or, where values may stand among the dates, a number with a
decimal point. -/
def PassedOver (sp : SParams) (c : Cell) : Prop := BlankCell c ∨ (sp.timeAlignment ≠ 0 ∧ ∃ x, c = .float x)

/-- What stands at the positions of the dates that belong to the values from `data_starts` to `last`: the
date of the value at position `pos` is at position `pos + time_alignment`. -/
def datesOf (sp : SParams) (s : Sheet) (tr tc last : Int) : List (Option Time) :=
  (cellsAlong s sp.alignment tr tc (sp.dataStarts + sp.timeAlignment) (last + sp.timeAlignment)).map dateIn

/-- A time index of date cells in one column (row), for values from `data_starts` to `last`, the first and
the last of which have a date. What is no date between them, before them (from `data_starts` on) and after
them is passed over. After the last date the part of the sheet in use ends or, in a column, as many cells
follow as end the index. -/
structure OffsetIndex (sp : SParams) (s : Sheet) (tr tc last : Int) : Prop where
  header : ∃ coord, sp.timeHeader = .single coord ∧ coordOf coord = .ok (tr, tc)
  single : sp.timeMulticolumn = false
  plain : sp.timeComposed = false
  aligned : sp.alignment = .vertical ∨ sp.alignment = .horizontal
  starts : 1 ≤ sp.dataStarts
  dates : 1 ≤ sp.dataStarts + sp.timeAlignment
  two : sp.dataStarts < last
  more : sp.dataStarts ≤ last + sp.timeAlignment
  first : ∃ a, timeCell s sp.alignment tr tc (sp.dataStarts + sp.timeAlignment) = .dt a
  final : ∃ z, timeCell s sp.alignment tr tc (last + sp.timeAlignment) = .dt z
  before : ∀ pos, sp.dataStarts ≤ pos → pos < sp.dataStarts + sp.timeAlignment →
    PassedOver sp (timeCell s sp.alignment tr tc pos)
  between : ∀ pos, sp.dataStarts ≤ pos → pos ≤ last + sp.timeAlignment →
    IsDate (timeCell s sp.alignment tr tc pos) ∨
      (PassedOver sp (timeCell s sp.alignment tr tc pos) ∧ Tolerant sp)
  shortGaps : ∀ pos, sp.dataStarts ≤ pos → pos + gapLimit sp ≤ last + sp.timeAlignment →
    ∃ j : Nat, j < gapLimit sp ∧ IsDate (timeCell s sp.alignment tr tc (pos + j))
  within : last + sp.timeAlignment ≤ lastPosition sp s
  after : last + sp.timeAlignment = lastPosition sp s ∨ (sp.alignment = .vertical ∧
    ∀ pos, last + sp.timeAlignment < pos → pos ≤ lastPosition sp s →
      pos ≤ last + sp.timeAlignment + gapLimit sp → PassedOver sp (timeCell s sp.alignment tr tc pos))

/-- The values of the series are not to be spread over periods without a date. -/
def NoImplicit (sp : SParams) : Prop :=
  sp.missings = true → ∃ markers, sp.missingValue = .list markers ∧ PVal.str c!"Implicit" ∉ markers

/-- A series over such a time index. Its values may stand in the column (row) of the dates. -/
structure OffsetSeries (ext : Ext) (s : Sheet) (tr tc last : Int) (grid : List Time) (sp : SParams) (name : Str)
    (xs : List Num) : Prop where
  cells : ∃ hr hc, coordOf sp.headerCoord = .ok (hr, hc) ∧
    ValuesAre ext sp (cellsAlong s sp.alignment hr hc sp.dataStarts last) (datesOf sp s tr tc last) grid xs
  notImplicit : NoImplicit sp
  name : NameIs ext sp s name
  ends : sp.dataEnds = none ∨ sp.dataEnds = some 0 ∨ sp.dataEnds = some last
  size : xs.length = grid.length

/-! ### Dates and values in turn -/

/-- A value, its position and its date. -/
structure Entry where
  pos : Int
  date : Time
  value : Num

/-- Dates and values in turn in the column of the header `(hr, hc)`: each value is a number with a decimal
point, its date is at `time_alignment` from it, all else from the first value to the last date and forty-one
cells beyond is blank. From a value to the next there are at most forty-one cells. -/
structure InTurn (sp : SParams) (s : Sheet) (hr hc : Int) (es : List Entry) : Prop where
  header : coordOf sp.headerCoord = .ok (hr, hc)
  time : sp.timeHeader = .single sp.headerCoord
  single : sp.timeMulticolumn = false
  plain : sp.timeComposed = false
  vertical : sp.alignment = .vertical
  loose : sp.continuity = false
  noMissings : sp.missings = false
  beside : sp.timeAlignment = -1 ∨ sp.timeAlignment = 1
  starts : 1 ≤ sp.dataStarts ∧ 1 ≤ sp.dataStarts + sp.timeAlignment
  first : es.head?.map Entry.pos = some sp.dataStarts
  several : 2 ≤ es.length
  ordered : es.Pairwise fun e e' => e.pos < e'.pos
  close : ∀ (i : Nat) (e e' : Entry), es[i]? = some e → es[i + 1]? = some e' → e'.pos ≤ e.pos + 41
  value : ∀ e ∈ es, s.cells e.pos hc = .float e.value
  date : ∀ e ∈ es, s.cells (e.pos + sp.timeAlignment) hc = .dt e.date
  blank : ∀ pos, sp.dataStarts ≤ pos → pos ≤ lastPosition sp s →
    (∀ e, es.getLast? = some e → pos ≤ e.pos + 42) →
    (∀ e ∈ es, pos ≠ e.pos ∧ pos ≠ e.pos + sp.timeAlignment) → BlankCell (s.cells pos hc)
  within : ∀ e ∈ es, e.pos ≤ lastPosition sp s ∧ e.pos + sp.timeAlignment ≤ lastPosition sp s

end Xls.Spec
