/-
The parameters of all series, and what they have in common when they share a time index.
-/
import Verif.Spec.Frames

set_option autoImplicit false

namespace Xls.Spec

/-- The Python value of each parameter of a series. -/
def rawValue (sp : SParams) : Name → PVal
  | .alignment => match sp.alignment with
    | .vertical => .str c!"vertical"
    | .horizontal => .str c!"horizontal"
    | .other => .none
  | .seriesNames => sp.seriesName.elim .none .str
  | .headersCoord => .str sp.headerCoord
  | .composedHeadersCoord => sp.composedHeaders.elim .none fun cs => .list (cs.map .str)
  | .context => sp.context.elim .none fun cs => .list (cs.map .str)
  | .dataStarts => .int sp.dataStarts
  | .dataEnds => sp.dataEnds.elim .none .int
  | .continuity => .bool sp.continuity
  | .blankRows => .bool sp.blankRows
  | .missings => .bool sp.missings
  | .missingValue => sp.missingValue
  | .timeAlignment => .int sp.timeAlignment
  | .timeMulticolumn => .bool sp.timeMulticolumn
  | .timeHeaderCoord => match sp.timeHeader with
    | .single c => .str c
    | .multi cs => .list (cs.map .str)
  | .timeComposed => .bool sp.timeComposed
  | .frequency => .str sp.frequency

/-- The parameters are those of the series `sps`: for each parameter a list with one entry per series. -/
def HasSeries (p : Params) (sps : List SParams) : Prop :=
  ∀ n, p n = .list (sps.map fun sp => rawValue sp n)

/-- The end of the series is given. -/
def EndGiven (sp : SParams) : Prop := sp.dataEnds ≠ none ∧ sp.dataEnds ≠ some 0

/-- The series have one time index: its header, its frequency, where it starts and how it lies. -/
structure SharesIndex (sps : List SParams) (timeHeader : TimeHeader) (freq : Str) (start ta : Int) (al : Align) :
    Prop where
  header : ∀ sp ∈ sps, sp.timeHeader = timeHeader
  multicolumn : ∀ sp ∈ sps, sp.timeMulticolumn = true ↔ ∃ coords, timeHeader = .multi coords
  frequency : ∀ sp ∈ sps, sp.frequency = freq
  starts : ∀ sp ∈ sps, sp.dataStarts = start
  timeAlignment : ∀ sp ∈ sps, sp.timeAlignment = ta
  alignment : ∀ sp ∈ sps, sp.alignment = al

/-- The series share one time index. If it is in several columns (rows) and the end of the first series is
given, so are the others. -/
structure SameIndex (sps : List SParams) (timeHeader : TimeHeader) (freq : Str) (start ta : Int) (al : Align) :
    Prop extends SharesIndex sps timeHeader freq start ta al where
  ends : ∀ coords, timeHeader = .multi coords → ∀ sp, sps.head? = some sp → EndGiven sp →
    ∀ sp' ∈ sps, EndGiven sp'

/-- A series that ends where the user said, or else where the time index was found to end. -/
def endingAt (stop : Int) (sp : SParams) : SParams :=
  match sp.dataEnds with
  | some e => if e = 0 then { sp with dataEnds := some stop } else sp
  | none => { sp with dataEnds := some stop }

/-- A frame for the `j`-th range: under its index one column for each series, in order, named after the
series and with its values for that range. `nvs` gives for each series a name and values for each
range. -/
structure FrameAt (prs : List PRange) (nvs : List (List (Str × List Num))) (j : Nat) (f : Frame) : Prop where
  range : prs[j]? = some ⟨f.freq, f.index⟩
  series : ∃ col : List (Str × List Num), List.Forall₂ (fun nv v => nv[j]? = some v) nvs col ∧
    ColumnsOf (col.map Prod.fst) f.columns ∧ f.data = col.map Prod.snd

end Xls.Spec
