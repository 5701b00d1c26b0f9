/-
Tables of series that share one time index with several frequencies, in terms of what is written in the
cells.
-/
import Verif.Spec.Layout
import Verif.Spec.MixedText

set_option autoImplicit false

namespace Xls.Spec

/-- The cells, in order from place `k` of the cycle of `pattern` on, say the dates `ts`; `last` is the date
before. -/
inductive MixedReads (ext : Ext) (style : MixedStyle) (pattern : Str) :
    Nat → Option Time → List Cell → List Time → Prop
  | nil {k : Nat} {last : Option Time} : MixedReads ext style pattern k last [] []
  | cons {k : Nat} {last : Option Time} {letter : Char} {c : Cell} {t : Time} {cs : List Cell}
      {ts : List Time} (place : letterAt pattern k = some letter) (said : MixedSays ext style letter last c t)
      (filled : ¬ BlankCell c) (rest : MixedReads ext style pattern (k + 1) (some t) cs ts) :
      MixedReads ext style pattern k last (c :: cs) (t :: ts)

/-- The time index of a table with several frequencies, in one column (row) or in several: from `data_starts`
to `last` what is read says the dates `ts`. After `last` the part of the sheet in use ends or, in a column,
there are as many blank cells as end the index. If there are several columns, there are no date cells in
them. -/
structure MixedIndex (ext : Ext) (sp : SParams) (s : Sheet) (style : MixedStyle) (tr tc last : Int)
    (ts : List Time) : Prop where
  header : TimeHeaderAt sp tr tc
  fits : style.Fits sp.timeComposed sp.frequency
  several : 2 ≤ sp.frequency.length
  starts : 1 ≤ sp.dataStarts
  two : sp.dataStarts < last
  aligned : sp.alignment = .vertical ∨ sp.alignment = .horizontal
  offset : sp.timeAlignment = 0
  reads : MixedReads ext style sp.frequency 0 none (readsAlong ext sp s sp.dataStarts last) ts
  plain : ∀ pos, sp.dataStarts ≤ pos → pos ≤ last + gapLimit sp + 1 → PlainAt sp s pos
  inUse : last ≤ if sp.alignment = .vertical then s.maxRow else s.maxCol
  within : last ≤ lastPosition sp s
  after : last = lastPosition sp s ∨ (sp.alignment = .vertical ∧
    ∀ pos, last < pos → pos ≤ lastPosition sp s → pos ≤ last + gapLimit sp →
      BlankCell (readCell ext sp s pos))

/-- The dates of each frequency of the pattern are consecutive periods. There is at least one cycle and,
in a column, the last cycle (maybe incomplete) has all the frequencies. -/
structure OnPattern (al : Align) (pattern : Str) (ts : List Time) : Prop where
  letters : ∀ f ∈ pattern, f ∈ c!"AQMWD"
  runs : ∀ f ∈ pattern, LetterRun pattern ts f
  cycle : pattern.length ≤ ts.length
  lastCycle : al = .vertical → ∀ f ∈ pattern, ∃ i, (ts.length - 1) / pattern.length * pattern.length ≤ i ∧
    i < ts.length ∧ letterAt pattern i = some f

/-- A list of markers of missing values does not have `Implicit`. -/
def ExplicitMarkers (sp : SParams) : Prop :=
  ∀ markers, sp.missings = true → sp.missingValue = .list markers → PVal.str c!"Implicit" ∉ markers

/-- The frame of one frequency: the dates of its letter and, for each series, the values beside them. -/
structure FrameOfLetter (pattern : Str) (ts : List Time) (series : List (Str × List Num)) (f : Char)
    (frame : Frame) : Prop where
  freq : frame.freq = indexFreq [f]
  index : frame.index = ofLetter pattern f ts
  columns : ColumnsOf (series.map Prod.fst) frame.columns
  data : frame.data = series.map fun nv => ofLetter pattern f nv.2

end Xls.Spec
