/-
Several tables on one worksheet: series with different time indexes.
-/
import Verif.Spec.Layout

set_option autoImplicit false

namespace Xls.Spec

/-- A table: the cell its dates stand below (beside) as in the parameters, their frequency, where they start
and how they lie; how they are written; row and column of that cell; where they end; the dates; the periods
they are on. -/
structure DateTable where
  header : Str
  freq : Str
  start : Int
  al : Align
  style : Style
  tr : Int
  tc : Int
  last : Int
  ots : List (Option Time)
  grid : List Time

/-- The cell in row `r` and column `c` is where the table has a date. -/
def DateTable.Dated (t : DateTable) (r c : Int) : Prop :=
  ∃ (i : Nat) (d : Time), t.ots[i]? = some (some d) ∧ IsAt t.al t.tr t.tc (t.start + i) r c

/-- A series: its parameters, the table it belongs to, its name and values. -/
structure Member where
  sp : SParams
  table : DateTable
  name : Str
  values : List Num

/-- The index of a series: frequency and periods. -/
def Member.index (m : Member) : PRange := ⟨indexFreq m.table.freq, m.table.grid⟩

/-- The cell in row `r` and column `c` is one a series is made of: on the line of the dates, with the cells
that may be looked at to see that they end, a header of the series, or one of its data. -/
def Member.UsesCell (m : Member) (r c : Int) : Prop :=
  (∃ pos, m.table.start ≤ pos ∧ pos ≤ m.table.last + gapLimit m.sp + 1 ∧
    IsAt m.table.al m.table.tr m.table.tc pos r c) ∨
  (∃ coord ∈ m.sp.headerCoord :: m.sp.composedHeaders.getD [], coordOf coord = .ok (r, c)) ∨
  (∃ hr hc pos, coordOf m.sp.headerCoord = .ok (hr, hc) ∧ m.table.start ≤ pos ∧ pos ≤ m.table.last ∧
    IsAt m.table.al hr hc pos r c)

/-- The parameters of a series say where its table is. -/
structure BelongsTo (sp : SParams) (t : DateTable) : Prop where
  header : sp.timeHeader = .single t.header
  oneColumn : sp.timeMulticolumn = false
  frequency : sp.frequency = t.freq
  starts : sp.dataStarts = t.start
  alignment : sp.alignment = t.al
  offset : sp.timeAlignment = 0

/-- The worksheet has the tables of the series on it, one or more, anywhere: no date of one table is in a cell
another table is made of. Each table on its own is as in C76. -/
structure TablesOn (ext : Ext) (s : Sheet) (ms : List Member) : Prop where
  belong : ∀ m ∈ ms, BelongsTo m.sp m.table
  oneHeader : ∀ m ∈ ms, ∀ m' ∈ ms, m.table.header = m'.table.header → m.table = m'.table
  index : ∀ pre m post, ms = pre ++ m :: post → (∀ x ∈ pre, x.table ≠ m.table) →
    TimeTable ext m.sp s m.table.style m.table.tr m.table.tc m.table.last m.table.ots ∧
    OnPeriods m.sp m.table.grid (m.table.ots.filterMap id)
  series : ∀ m ∈ ms, SeriesIs ext s m.table.tr m.table.tc m.table.last m.table.ots m.table.grid m.sp m.name m.values
  apart : ∀ m ∈ ms, ∀ m' ∈ ms, m.table ≠ m'.table → ∀ r c, m.table.Dated r c → ¬ m'.UsesCell r c

/-- The series of tables in rows have their end given. -/
def EndsKnown (ms : List Member) : Prop := ∀ m ∈ ms, m.table.al = .vertical ∨ EndGiven m.sp

/-- The dates of all tables are written, and nothing else. -/
structure AllDatesWritten (s s' : Sheet) (ms : List Member) : Prop where
  dates : ∀ m ∈ ms, ∀ (i : Nat) (d : Time), m.table.ots[i]? = some (some d) →
    timeCell s' m.table.al m.table.tr m.table.tc (m.table.start + i) = .dt d
  others : ∀ r c, (∀ m ∈ ms, ¬ m.table.Dated r c) → s'.cells r c = s.cells r c

/-- The data frames of the series: one for each index, in the order in which the indexes first appear; in it
the series with that index, in order. -/
structure FramesOfTables (ms : List Member) (frames : List Frame) : Prop where
  indexes : frames.map (fun f => (⟨f.freq, f.index⟩ : PRange)) = (ms.map Member.index).eraseDups
  columns : ∀ f ∈ frames,
    ColumnsOf ((ms.filter fun m => m.index = ⟨f.freq, f.index⟩).map Member.name) f.columns
  data : ∀ f ∈ frames, f.data = (ms.filter fun m => m.index = ⟨f.freq, f.index⟩).map Member.values

end Xls.Spec
