/-
Specification of tables that stand apart on one worksheet.
-/
import Verif.Spec.Joined
import Verif.Spec.Moved
import Verif.Spec.Marks
import Verif.Spec.TimeIndex
import Verif.Spec.Frames

set_option autoImplicit false

namespace Xls.Spec

/-- The cell is one where the series may have a date: in line with its time header, from where the data start on
and, if the end is given, up to it. -/
def DateCell (sp : SParams) (r c : Int) : Prop :=
  ∃ hr hc pos, HeaderAt sp hr hc ∧ sp.dataStarts ≤ pos ∧ (EndGiven sp → ∀ e, sp.dataEnds = some e → pos ≤ e) ∧
    IsAt sp.alignment hr hc pos r c

/-- The name of a cell, in capital letters: `A1`, `AB12`. -/
def CellName (a : Str) : Prop := ∃ r c : Nat, 1 ≤ r ∧ 1 ≤ c ∧ a = coordStr r c

/-- The parameters of a series with a single frequency and its dates in a single column or row. It lies in a column
of the worksheet with `n` rows, or its end is given. -/
structure Simple (n : Int) (sp : SParams) : Prop where
  oneColumn : sp.timeMulticolumn = false
  timeHeader : ∃ th, sp.timeHeader = .single th ∧ CellName th
  header : CellName sp.headerCoord
  composed : ∀ a ∈ sp.composedHeaders.getD [], CellName a
  frequency : sp.frequency.length = 1
  positions : OnSheet sp
  lies : (sp.alignment = .vertical ∧ sp.dataStarts ≤ n) ∨ EndGiven sp

/-- Series that either have their dates in common or belong to tables that stand apart: the dates of the one are
not among the cells of the other. -/
structure Apart (n : Int) (sps : List SParams) : Prop where
  simple : ∀ x ∈ sps, Simple n x
  common : ∀ x ∈ sps, ∀ y ∈ sps, x.timeHeader = y.timeHeader → SameDates x y
  others : ∀ x ∈ sps, ∀ y ∈ sps, x.timeHeader ≠ y.timeHeader → ∀ r c, DateCell x r c → ¬ InTable [y] r c

/-- The dates of a data frame, with their frequency. -/
def frameDates (f : Frame) : PRange := ⟨f.freq, f.index⟩

/-- Read alone, the series gives this data frame. -/
def ReadAs (ext : Ext) (s : Sheet) (sp : SParams) (f : Frame) : Prop :=
  ∀ q, HasSeries q [sp] → (scrape ext q s).1 = .ok [f]

/-- If some of the data frames are of business days, then their series have their dates in common, and none is of
all days. -/
def BusinessDaysOnce (sps : List SParams) (alone : List Frame) : Prop :=
  ∀ z ∈ sps.zip alone, ∀ w ∈ sps.zip alone, z.2.freq = c!"B" → w.2.freq = c!"B" ∨ w.2.freq = c!"D" →
    w.2.freq = c!"B" ∧ w.1.timeHeader = z.1.timeHeader

/-- The data frames `frames` hold the columns of the data frames `alone`: one for each index, in the order in which
the indexes first appear, the columns in order, under their own names or, if that is taken, an indexed one. -/
structure FramesJoined (alone frames : List Frame) : Prop where
  indexes : frames.map frameDates = (alone.map frameDates).eraseDups
  columns : ∀ f ∈ frames, ColumnsOf ((alone.filter fun g => frameDates g = frameDates f).flatMap Frame.columns) f.columns
  data : ∀ f ∈ frames, f.data = (alone.filter fun g => frameDates g = frameDates f).flatMap Frame.data

end Xls.Spec
