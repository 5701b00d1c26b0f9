/-
Cleaning of time indexes, `xlseries/strategies/clean/time_index.py`.
-/
import Verif.Model.ParseTime

set_option autoImplicit false

namespace Xls

/-! ### Progression of time values -/

/-- `_max_forth_units`, `time_index.py:374-383`. -/
def maxForthUnits (freq : Str) : Nat :=
  if freq = c!"D" then 20 else if freq = c!"M" then 2 else if freq = c!"Q" then 1
  else if freq = c!"A" then 1 else 20

/-- `_time_value_typo`, `time_index.py:385-405`: exactly two of day, month and year agree. -/
def timeValueTypo (curr exp : Time) : Bool :=
  [curr.day == exp.day, curr.month == exp.month, curr.year == exp.year].count true == 2

/-- `_forth_time_value_typo`, `time_index.py:407-443`: `none` is Python's `None`; `arrow.get` raises
`ValueError` for a day that does not exist. -/
def forthTimeValueTypo (curr mx : Time) : Except Err (Option Time) :=
  match mkDate curr.year curr.month mx.day with
  | .error e => .error e
  | .ok d =>
    match mkDate curr.year mx.month curr.day with
    | .error e => .error e
    | .ok m =>
      match mkDate mx.year curr.month curr.day with
      | .error e => .error e
      | .ok y => .ok ([d, m, y].find? fun t => decide (t < mx))

/-- `missing_value == "Implicit"`. -/
def isImplicitStr : PVal → Bool
  | .str s => s == c!"Implicit"
  | _ => false

/-- `_correct_progression`, `time_index.py:324-372`. The result `none` is Python's `False`. -/
def correctProgression (last : Option Time) (curr : Time) (freq : Str) (missings : Bool)
    (missingValue : PVal) : Except Err (Option Time) :=
  match last with
  | none => .ok (some curr)
  | some last =>
    match incrementTime last 1 freq with
    | .error e => .error e
    | .ok exp =>
      if exp = curr then .ok (some curr)
      else if curr < last then
        if timeValueTypo curr exp then .ok (some exp) else .error .timeValueGoingBackwards
      else if last < curr ∧ missings = false then
        if timeValueTypo curr exp then .ok (some exp) else .error .timeValueGoingForth
      else
        match incrementTime last (maxForthUnits freq) freq with
        | .error e => .error e
        | .ok mx =>
          if mx < curr ∧ missings = true ∧ isImplicitStr missingValue = true then
            forthTimeValueTypo curr mx
          else .ok (some curr)

/-! ### State of a cleaner -/

/-- State of a cleaner object and of the local variables of its loop: the parser that worked last
(`time_index.py:99-100`), `last_time` and `no_time_value_count` (126-127) and, for several
frequencies, `self.last_time` and `self.last_frequency` (625-628). -/
structure CState where
  parser : Option Parser
  last : Option Time
  blanks : Nat
  mfLast : List (Char × Time)
  mfFreq : Str
  deriving DecidableEq, Repr

/-- A new cleaner object, `time_index.py:99-100`, 625-628. -/
def CState.init : CState := ⟨none, none, 0, [], []⟩

/-! ### Parsing one value -/

/-- The search of `_parse_time` over all strategies, `time_index.py:308-321`. Returns the parser left
in `self.time_parser`. -/
def searchParser (ext : Ext) (sp : SParams) (curr : Cell) (last : Option Time) (next : Cell)
    (old : Option Parser) : List Parser → Except Err Time × Option Parser
  | [] => (.error .parseTimeImplementationError, old)
  | p :: ps =>
    match accepts ext p sp.timeComposed sp.frequency curr with
    | .error e => (.error e, old)
    | .ok true => (parseWith ext p sp.frequency curr last next, some p)
    | .ok false => searchParser ext sp curr last next old ps

/-- `_parse_time`, `time_index.py:275-321`: the parser that worked last is tried first; a day or month
out of range is final, any other exception starts the search. -/
def parseTimeValue (ext : Ext) (sp : SParams) (parser : Option Parser) (curr : Cell)
    (last : Option Time) (next : Cell) : Except Err Time × Option Parser :=
  match parser with
  | none => searchParser ext sp curr last next none parsers
  | some p =>
    match parseWith ext p sp.frequency curr last next with
    | .ok t => (.ok t, some p)
    | .error .dayOutOfRange => (.error .dayOutOfRange, some p)
    | .error .monthOutOfRange => (.error .monthOutOfRange, some p)
    | .error _ => searchParser ext sp curr last next (some p) parsers

/-! ### Several frequencies -/

/-- `s.partition(sep)[2]`: the text after the first occurrence of `sep`, empty if there is none. -/
def partitionAfter (sep : Str) : Str → Str
  | [] => []
  | c :: cs =>
    match stripPrefix? sep (c :: cs) with
    | some rest => rest
    | none => partitionAfter sep cs

/-- `_next_frequency`, `time_index.py:661-681` and `xlseries/strategies/get/data.py:269-293`: the next
frequency letter of the cycle and the part of the cycle consumed so far. Only called with more than
one letter. -/
def nextFrequency (frequency last : Str) : Except Err (Char × Str) :=
  if last = [] ∨ last = frequency then
    match frequency with
    | [] => .error .indexError
    | c :: _ => .ok (c, [c])
  else
    match partitionAfter last frequency with
    | [] => .error .indexError
    | c :: _ => .ok (c, last ++ [c])

/-- Update of `self.last_time[freq]`, `time_index.py:647`. -/
def mfSet (m : List (Char × Time)) (c : Char) (t : Time) : List (Char × Time) :=
  (c, t) :: m.filter fun p => p.1 != c

/-- Lookup of `self.last_time[freq]`, `time_index.py:640`. -/
def mfGet (m : List (Char × Time)) (c : Char) : Option Time :=
  (m.find? fun p => p.1 == c).map Prod.snd

/-- `_correct_progression` of a cleaner: the base one for a single frequency, the one of
`BaseMultiFrequency` (`time_index.py:634-648`) for several. Simplification: on an exception the state
is not updated (no code reads it afterwards: only `DayOutOfRange`/`MonthOutOfRange` continue the
loop and they are not raised here). -/
def correctStep (sp : SParams) (st : CState) (curr : Time) :
    Except Err (Option Time × CState) :=
  if sp.frequency.length = 1 then
    match correctProgression st.last curr sp.frequency sp.missings sp.missingValue with
    | .ok r => .ok (r, st)
    | .error e => .error e
  else
    match nextFrequency sp.frequency st.mfFreq with
    | .error e => .error e
    | .ok (f, mfFreq) =>
      match correctProgression (mfGet st.mfLast f) curr [f] sp.missings sp.missingValue with
      | .error e => .error e
      | .ok none => .ok (none, { st with mfFreq := mfFreq })
      | .ok (some t) => .ok (some t, { st with mfFreq := mfFreq, mfLast := mfSet st.mfLast f t })

/-! ### Reading the time index -/

/-- Row and column of the position `pos` along a time index whose header is at `(hr, hc)`. -/
def axisCell (al : Align) (hr hc pos : Int) : Int × Int :=
  match al with
  | .vertical => (pos, hc)
  | _ => (hr, pos)

/-- `_time_header_cell`, `time_index.py:266-272`. -/
def timeHeaderCell (th : TimeHeader) : Except Err (Int × Int) :=
  match th with
  | .single c => coordOf c
  | .multi [] => .error .indexError
  | .multi (c :: _) => coordOf c

/-- `_safe_str`, `time_index.py:576-583`. -/
def safeStr (ext : Ext) (v : Cell) : Str :=
  match v with
  | .int i => intStr i
  | .bool b => if b then c!"1" else c!"0"
  | .float (.fin q) => intStr (truncRat q)
  | .float .nan => ext.reprFloat .nan
  | .str s => match pyInt s with
    | some i => intStr i
    | none => s
  | v => cellStr ext v

/-- Is a cell value skipped by the multi-column reader (`value and value != "None"`,
`time_index.py:566`)? -/
def skipPart : Cell → Bool
  | .str s => s.isEmpty || s == c!"None"
  | v => !v.truthy

/-- The loop of `BaseMultipleColumns._get_time_value`, `time_index.py:555-567`. -/
def multiParts (ext : Ext) (al : Align) (pos : Int) (s : Sheet) :
    List Str → Except Err (List Str) × Sheet
  | [] => (.ok [], s)
  | coord :: cs =>
    match coordOf coord with
    | .error e => (.error e, s)
    | .ok (hr, hc) =>
      let rc := axisCell al hr hc pos
      if 1 ≤ rc.1 ∧ 1 ≤ rc.2 then
        let v := s.cells rc.1 rc.2
        let s := (s.touch hr hc).touch rc.1 rc.2
        if v.isDt then (.error .assertionError, s)
        else
          match multiParts ext al pos s cs with
          | (.ok ps, s) => (.ok (if skipPart v then ps else safeStr ext v :: ps), s)
          | r => r
      else (.error .valueError, s)

/-- `_get_time_value`, `time_index.py:524-535` (single column) and 545-574 (several columns). -/
def getTimeValue (ext : Ext) (sp : SParams) (pos : Int) (s : Sheet) : Except Err Cell × Sheet :=
  match sp.timeMulticolumn, sp.timeHeader with
  | false, .multi _ => (.error .assertionError, s)
  | true, .single _ => (.error .assertionError, s)
  | false, .single coord =>
    match coordOf coord with
    | .error e => (.error e, s)
    | .ok (hr, hc) =>
      let rc := axisCell sp.alignment hr hc pos
      if 1 ≤ rc.1 ∧ 1 ≤ rc.2 then
        (.ok (s.cells rc.1 rc.2), (s.touch hr hc).touch rc.1 rc.2)
      else (.error .valueError, s)
  | true, .multi coords =>
    match multiParts ext sp.alignment pos s coords with
    | (.error e, s) => (.error e, s)
    | (.ok ps, s) =>
      let v := joinWith c!" " ps
      (.ok (if strip v = [] then .none else .str v), s)

/-! ### The cleaning loop -/

/-- `_must_be_time_value`, `time_index.py:187-189` and, for offset time indexes, 593-600. -/
def mustBeTimeValue (sp : SParams) (v : Cell) : Bool :=
  (match v with
   | .none => false
   | .str s => strip s != []
   | _ => true) && (sp.timeAlignment == 0 || !v.isFloat)

/-- How one iteration of the cleaning loop ends. -/
inductive StepEnd where
  /-- go on with the next position -/
  | next (st : CState)
  /-- leave the loop and estimate the end -/
  | stop
  /-- raise -/
  | raise (e : Err)
  deriving DecidableEq, Repr

/-- Is `data_ends` given (true in Python's sense)? -/
def hasEnd (sp : SParams) : Bool :=
  match sp.dataEnds with
  | some e => e != 0
  | none => false

/-- The exceptions after which the end is estimated, `time_index.py:164-165`. -/
def endsIndex : Err → Bool
  | .parseTimeImplementationError | .noPossibleTimeValue | .noTimeValue | .sameTimeValue
  | .assertionError => true
  | _ => false

/-- The `except` clauses, `time_index.py:161-176`. -/
def handleError (sp : SParams) (st : CState) (s : Sheet) (r c : Int) (e : Err) : StepEnd × Sheet :=
  if e = .dayOutOfRange ∨ e = .monthOutOfRange then (.next st, s.set r c .none)
  else if endsIndex e = true ∧ hasEnd sp = false then (.stop, s)
  else (.raise e, s)

/-- `NO_TIME_VALUE_LIMIT`, `time_index.py:97`. -/
def noTimeValueLimit : Nat := 40

/-- The body of the cleaning loop for one value, `time_index.py:128-182`; `(r, c)` is the cell to
write. -/
def cleanValue (ext : Ext) (sp : SParams) (st : CState) (s : Sheet) (r c : Int)
    (curr next : Cell) : StepEnd × Sheet :=
  if mustBeTimeValue sp curr then
    let st := { st with blanks := 0 }
    match parseTimeValue ext sp st.parser curr st.last next with
    | (.error e, p) => handleError sp { st with parser := p } s r c e
    | (.ok t, p) =>
      let st := { st with parser := p }
      match correctStep sp st t with
      | .error e => handleError sp st s r c e
      | .ok (none, _) => (.raise .attributeError, s)
      | .ok (some t, st) =>
        if st.last = some t ∧ sp.frequency.length = 1 then
          handleError sp st s r c .sameTimeValue
        else (.next { st with last := some t }, s.set r c (.dt t))
  else if st.blanks < noTimeValueLimit ∧ (sp.continuity = false ∨ sp.blankRows = true) then
    (.next { st with blanks := st.blanks + 1 }, s)
  else (.stop, s)

/-- One iteration of the loop including the reads of the iterator, `time_index.py:224-248`. -/
def cleanStep (ext : Ext) (sp : SParams) (st : CState) (s : Sheet) (pos : Int) :
    StepEnd × Sheet :=
  match getTimeValue ext sp pos s with
  | (.error e, s) => (.raise e, s)
  | (.ok curr, s) =>
    match getTimeValue ext sp (pos + 1) s with
    | (.error e, s) => (.raise e, s)
    | (.ok next, s) =>
      match timeHeaderCell sp.timeHeader with
      | .error e => (.raise e, s)
      | .ok (hr, hc) =>
        let rc := axisCell sp.alignment hr hc pos
        cleanValue ext sp st (s.touch rc.1 rc.2) rc.1 rc.2 curr next

/-- The cleaning loop over the positions of the iterator, `time_index.py:128-182`. Returns the
position of `write_time_cell` when the loop ends (`none`: it was never assigned). -/
def cleanLoop (ext : Ext) (sp : SParams) (st : CState) (s : Sheet) (reached : Option Int) :
    List Int → Except Err (Option Int) × Sheet
  | [] => (.ok reached, s)
  | pos :: rest =>
    match cleanStep ext sp st s pos with
    | (.raise e, s) => (.error e, s)
    | (.stop, s) => (.ok (some pos), s)
    | (.next st, s) => cleanLoop ext sp st s (some pos) rest

/-- `range(a, b)`. -/
def intRange (a b : Int) : List Int := (List.range (b - a).toNat).map fun (i : Nat) => a + (i : Int)

/-- `end or ws.max_row` / `end or ws.max_column`, `time_index.py:224`, 236, 474-484. -/
def scanEnd (sp : SParams) (s : Sheet) : Int :=
  match sp.dataEnds with
  | some e => if e = 0 then (if sp.alignment = .vertical then s.maxRow else s.maxCol) else e
  | none => if sp.alignment = .vertical then s.maxRow else s.maxCol

/-- The loop that looks upwards for the last date-time, `time_index.py:194-196`; the first argument is
the number of rows left above, i.e. fuel. -/
def lastDtUp (s : Sheet) (col : Int) : Nat → Int → Int
  | 0, row => row
  | n + 1, row => if (s.cells row col).isDt then row else lastDtUp s col n (row - 1)

/-- `_estimate_end`, `time_index.py:191-219`. In the horizontal branch `last_cell.column` is a letter,
so `last_cell.column > start` raises `TypeError` as soon as the condition is evaluated. -/
def estimateEnd (sp : SParams) (s : Sheet) (hr hc pos : Int) : Except Err Int :=
  match sp.alignment with
  | .vertical =>
    let e := lastDtUp s hc (pos - sp.dataStarts).toNat pos - sp.timeAlignment
    if e ≠ 0 ∧ sp.dataStarts < e then .ok e else .error .assertionError
  | _ =>
    if (s.cells hr pos).isDt then
      let e := pos - sp.timeAlignment
      if e ≠ 0 ∧ sp.dataStarts < e then .ok e else .error .assertionError
    else .error .typeError

/-- `clean_time_index` of a cleaner, `time_index.py:116-185`. If no position is visited,
`write_time_cell` is unbound (`NameError`). The iterator raises a plain `Exception` for an alignment
that is neither vertical nor horizontal (250-252). -/
def cleanWith (ext : Ext) (sp : SParams) (s : Sheet) : Except Err Int × Sheet :=
  if sp.alignment = .other then (.error .exception, s)
  else
    match cleanLoop ext sp .init s none (intRange sp.dataStarts (scanEnd sp s + 1)) with
    | (.error e, s) => (.error e, s)
    | (.ok none, s) => (.error .nameError, s)
    | (.ok (some pos), s) =>
      match timeHeaderCell sp.timeHeader with
      | .error e => (.error e, s)
      | .ok (hr, hc) => (estimateEnd sp s hr hc pos, s)

/-! ### Choice of the cleaner -/

/-- A cleaner class: the four base classes it combines, `time_index.py:684-705`. -/
structure Cleaner where
  multiTable : Bool
  offset : Bool
  multiFreq : Bool
  multiColumn : Bool
  deriving DecidableEq, Repr

/-- `_accepts` of the combined class, `time_index.py:446-464` with 471-473, 491-498, 521-523, 542-544,
590-592, 606-609, 615-618, 630-632. -/
def Cleaner.accepts (cl : Cleaner) (sp : SParams) : Bool :=
  (if cl.multiTable then !sp.blankRows && sp.continuity && !hasEnd sp else true) &&
  (if cl.multiColumn then sp.timeMulticolumn else !sp.timeMulticolumn) &&
  (if cl.multiFreq then decide (1 < sp.frequency.length)
   else decide (sp.frequency.length = 1)) &&
  (if cl.offset then sp.timeAlignment != 0 else sp.timeAlignment == 0)

/-- `get_strategies()`, `time_index.py:684-705`: the combinations in order. -/
def cleaners : List Cleaner :=
  [false, true].flatMap fun t => [false, true].flatMap fun o => [false, true].flatMap fun f =>
    [false, true].map fun c => ⟨t, o, f, c⟩

/-- `_clean_time_index` of the scraper, `xlseries/strategies/strategies.py:447-460`: the first cleaner
that accepts the parameters. The multi-table cleaners come after the single-table ones, which accept
a superset of what they accept, so their own row boundary (`time_index.py:499-514`) is never used;
`cleanWith` depends only on the parameters. -/
def cleanTimeIndex (ext : Ext) (sp : SParams) (s : Sheet) : Except Err Int × Sheet :=
  match cleaners.find? fun cl => cl.accepts sp with
  | none => (.error .timeIndexNotClean, s)
  | some _ => cleanWith ext sp s

end Xls
