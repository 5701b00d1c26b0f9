/-
Period ranges of a series, `xlseries/strategies/get/period_range.py`, and the part of
`pandas.date_range` it uses.
-/
import Verif.Model.TimeIndex

set_option autoImplicit false

namespace Xls

/-! ### `pandas.date_range` -/

/-- `_convert_freq`, `period_range.py:37-46`. -/
def convertFreq (freq : Str) : Str :=
  if freq = c!"A" ∨ freq = c!"Y" then c!"AS"
  else if freq = c!"S" then c!"6MS"
  else if freq = c!"Q" then c!"QS"
  else if freq = c!"M" then c!"MS"
  else freq

/-- The pandas offsets that `_convert_freq` leads to: the starts of calendar months whose number is a
multiple of `align` (counting January as 0), `step` months apart; Sundays; days. -/
inductive Offset
  | months (align step : Nat)
  | week
  | day
  deriving DecidableEq

/-- `pandas.tseries.frequencies.to_offset` on the frequencies in use and the `freqstr` of the result.
Simplification: other frequency names raise `ValueError`. -/
def toOffset (freq : Str) : Except Err (Str × Offset) :=
  if freq = c!"AS" then .ok (c!"AS-JAN", .months 12 12)
  else if freq = c!"6MS" then .ok (c!"6MS", .months 1 6)
  else if freq = c!"QS" then .ok (c!"QS-JAN", .months 3 3)
  else if freq = c!"MS" then .ok (c!"MS", .months 1 1)
  else if freq = c!"W" then .ok (c!"W-SUN", .week)
  else if freq = c!"D" then .ok (c!"D", .day)
  else .error .valueError

/-- Days of a year before a month. -/
def dayOfYearBefore (y : Nat) : Nat → Nat
  | 0 => 0
  | 1 => 0
  | m + 1 => dayOfYearBefore y m + daysInMonth y m

/-- `datetime.toordinal`: 1 for 1 January of year 1, a Monday. -/
def toOrdinal (t : Time) : Nat :=
  let y := t.year - 1
  365 * y + y / 4 - y / 100 + y / 400 + dayOfYearBefore t.year t.month + t.day

/-- Months since year 0. -/
def monthIndex (t : Time) : Nat := t.year * 12 + (t.month - 1)

/-- The first day of a month given by its number since year 0. -/
def monthStart (n : Nat) (us : Nat) : Time := ⟨n / 12, n % 12 + 1, 1, us⟩

/-- `offset.onOffset(t)`. -/
def Offset.on : Offset → Time → Bool
  | .months a _, t => t.day == 1 && (t.month - 1) % a == 0
  | .week, t => toOrdinal t % 7 == 0
  | .day, _ => true

/-- `offset.rollforward(t)`: the next time on the offset, the time of day is kept. -/
def Offset.rollForward (o : Offset) (t : Time) : Except Err Time :=
  if o.on t then .ok t
  else match o with
    | .months a _ => .ok (monthStart ((monthIndex t / a + 1) * a) t.us)
    | .week => addDays t (7 - toOrdinal t % 7)
    | .day => .ok t

/-- The day before; year 0 does not exist, which does not matter for the years of `pandas`. -/
def prevDay (t : Time) : Time :=
  if 1 < t.day then { t with day := t.day - 1 }
  else if 1 < t.month then ⟨t.year, t.month - 1, daysInMonth t.year (t.month - 1), t.us⟩
  else ⟨t.year - 1, 12, 31, t.us⟩

/-- `t - timedelta(days=n)`. -/
def subDays (t : Time) : Nat → Time
  | 0 => t
  | n + 1 => subDays (prevDay t) n

/-- `offset.rollback(t)`: the last time on the offset. -/
def Offset.rollBack (o : Offset) (t : Time) : Time :=
  if o.on t then t
  else match o with
    | .months a _ => monthStart (monthIndex t / a * a) t.us
    | .week => subDays t (toOrdinal t % 7)
    | .day => t

/-- `t + offset` for a `t` on the offset. -/
def Offset.next : Offset → Time → Except Err Time
  | .months _ k, t => addMonths t k
  | .week, t => addDays t 7
  | .day, t => addDays t 1

/-- The loop of `pandas.tseries.offsets.generate_range`. The first argument is fuel; `dateRange` supplies
enough because every step is at least one day. -/
def rangeFrom (o : Offset) (last : Time) : Nat → Time → Except Err (List Time)
  | 0, _ => .ok []
  | n + 1, t =>
    if t ≤ last then
      match o.next t with
      | .error e => .error e
      | .ok t' =>
        match rangeFrom o last n t' with
        | .error e => .error e
        | .ok ts => .ok (t :: ts)
    else .ok []

/-- A number that grows with the date, used as fuel only. -/
def dayIndex (t : Time) : Nat := (t.year * 12 + t.month) * 31 + t.day

/-- Years that fit in a `pandas.Timestamp`. Simplification: whole years only. -/
def inPandasRange (t : Time) : Bool := 1678 ≤ t.year && t.year ≤ 2261

/-- `pandas.Timestamp(normalize_time_value(value))` of a bound of the range: `None` is no bound. -/
def toTimestamp (ext : Ext) (v : Cell) : Except Err Time :=
  let t := match v with
    | .dt t => some t
    | .none => none
    | v => ext.pandasTime v
  match t with
  | none => .error .valueError
  | some t => if inPandasRange t then .ok t else .error .valueError

/-- A `DatetimeIndex`: its `freqstr` and its dates. -/
structure PRange where
  freqstr : Str
  index : List Time
  deriving DecidableEq

/-- `pandas.date_range(start, end, freq=freq)` of pandas 0.22 (`DatetimeIndex._generate`,
`generate_range`): for days `start`, `start + 1 day`, ...; otherwise the start is rolled forward or, if
that is not needed, the end is rolled back. -/
def dateRange (ext : Ext) (start stop : Cell) (freq : Str) : Except Err PRange :=
  match toOffset freq with
  | .error e => .error e
  | .ok (name, o) =>
    match toTimestamp ext start, toTimestamp ext stop with
    | .error e, _ => .error e
    | _, .error e => .error e
    | .ok a, .ok b =>
      match o.rollForward a with
      | .error e => .error e
      | .ok a' =>
        let b' := if o.on a then o.rollBack b else b
        match rangeFrom o b' (dayIndex b' + 1 - dayIndex a') a' with
        | .error e => .error e
        | .ok ts => .ok ⟨name, ts⟩

/-! ### Strategies -/

/-- `GetPeriodRangesSingleFrequency._get_period_ranges`, `period_range.py:57-81`. -/
def singleRanges (ext : Ext) (s : Sheet) (freq : Str) (starts : Int) (header : Str) (ends : Int)
    (ta : Int) (al : Align) : Except Err (List PRange) :=
  if al = .other then .error .exception
  else
    match coordOf header with
    | .error e => .error e
    | .ok (hr, hc) =>
      let c0 := axisCell al hr hc (starts + ta)
      let c1 := axisCell al hr hc (ends + ta)
      match s.read c0.1 c0.2, s.read c1.1 c1.2 with
      | .error e, _ => .error e
      | _, .error e => .error e
      | .ok a, .ok b =>
        match dateRange ext a b (convertFreq freq) with
        | .error e => .error e
        | .ok pr => .ok [pr]

/-- `xs[i:j]` of a Python list: negative positions count from the end. -/
def pySlice {α : Type} (xs : List α) (i j : Int) : List α :=
  let pos (k : Int) : Nat := if k < 0 then (k + xs.length).toNat else k.toNat
  (xs.take (pos j)).drop (pos i)

/-- The value found for the frequency `f` among cells paired with frequencies, `period_range.py:109-111`,
120-123: a cell is taken as long as what was found is falsy. -/
def capture (f : Char) (pairs : List (Cell × Char)) : Cell :=
  pairs.foldl (fun found p => if p.2 = f ∧ found.truthy = false then p.1 else found) .none

/-- The cells of the row or column of the time index, `list(ws.rows)` / `list(ws.columns)` restricted to
it, `period_range.py:108` and 129. The header cell was looked up just before, so the sheet reaches it. -/
def timeLine (s : Sheet) (al : Align) (hr hc : Int) : List Cell :=
  let s := s.touch hr hc
  let n := if al = .vertical then s.maxRow else s.maxCol
  (intRange 1 (n + 1)).map fun i => let rc := axisCell al hr hc i; s.cells rc.1 rc.2

/-- Place in the cycle of the last value, `period_range.py:115-117`, 136-138. -/
def freqEnd (ini stop : Int) (len : Nat) : Nat :=
  let m := ((stop - ini + 1) % (len : Int)).toNat
  if m = 0 then len else m

/-- The cells in which the last times are looked for with the frequency of each,
`period_range.py:119-121` (vertical) and 141-146 (horizontal). -/
def endPairs (line : List Cell) (freq : Str) (ini stop : Int) (al : Align) : List (Cell × Char) :=
  let fe := freqEnd ini stop freq.length
  if al = .vertical then
    (pySlice line (stop - fe) stop).reverse.zip (freq.take fe).reverse
  else
    (pySlice line (stop - freq.length) stop).reverse.zip
      (freq.drop (fe - 1) ++ freq.take fe).reverse

/-- The cells in which the first times are looked for, `period_range.py:108-109`, 129-130. -/
def startPairs (line : List Cell) (freq : Str) (ini : Int) : List (Cell × Char) :=
  (pySlice line (ini - 1) (ini + freq.length - 1)).zip freq

/-- The period ranges of the letters, `period_range.py:154-160`. -/
def rangesOf (ext : Ext) (starts ends : List (Cell × Char)) : List Char → Except Err (List PRange)
  | [] => .ok []
  | f :: fs =>
    match dateRange ext (capture f starts) (capture f ends) (convertFreq [f]) with
    | .error e => .error e
    | .ok pr =>
      match rangesOf ext starts ends fs with
      | .error e => .error e
      | .ok prs => .ok (pr :: prs)

/-- `GetPeriodRangesMultifrequency._get_period_ranges`, `period_range.py:92-160`; the keys of the
dictionary come in order of insertion. `time_alignment` is not used. -/
def multiRanges (ext : Ext) (s : Sheet) (freq : Str) (ini : Int) (header : Str) (stop : Int)
    (al : Align) : Except Err (List PRange) :=
  if al = .other then .error .exception
  else
    match coordOf header with
    | .error e => .error e
    | .ok (hr, hc) =>
      let line := timeLine s al hr hc
      rangesOf ext (startPairs line freq ini) (endPairs line freq ini stop al) freq.eraseDups

/-- `_get_series_prs`, `xlseries/strategies/strategies.py:510-543`, with `accepts` of the two strategies,
`period_range.py:53-55` and 88-90. -/
def seriesRanges (ext : Ext) (s : Sheet) (freq : Str) (ini : Int) (header : Str) (stop : Int) (ta : Int)
    (al : Align) : Except Err (List PRange) :=
  if freq.length = 1 then singleRanges ext s freq ini header stop ta al
  else if 1 < freq.length then multiRanges ext s freq ini header stop al
  else .error .exception

/-- The cells `seriesRanges` looks up. -/
def rangeReads (freq : Str) (ini : Int) (header : Str) (stop : Int) (ta : Int) (al : Align) :
    List (Int × Int) :=
  match coordOf header with
  | .error _ => []
  | .ok (hr, hc) =>
    if freq.length = 1 then [(hr, hc), axisCell al hr hc (ini + ta), axisCell al hr hc (stop + ta)]
    else [(hr, hc)]

end Xls
