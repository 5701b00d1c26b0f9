/-
Time parsing strategies, `xlseries/strategies/clean/parse_time.py`.
-/
import Verif.Model.Peg
import Verif.Model.SParams

set_option autoImplicit false

namespace Xls

/-! ### Grammar results -/

/-- The year a grammar returns: nothing, a number, or (second month grammar) a digit string. -/
inductive YVal where
  | none
  | int (n : Nat)
  | str (s : Str)
  deriving DecidableEq, Repr

/-- `(year, month, day)` returned by a grammar. The day is always 1. -/
structure DateRes where
  year : YVal
  month : Option Int
  deriving DecidableEq, Repr

/-! ### Actions -/

/-- `str.replace` for the roman numerals, `parse_time.py:461-472` (`IV`, `III`, `II`, `I` in this
order). -/
def romanToDigits4 (s : Str) : Str :=
  replaceStr c!"I" c!"1" (replaceStr c!"II" c!"2" (replaceStr c!"III" c!"3"
    (replaceStr c!"IV" c!"4" s)))

/-- `parse_time.py:822-832`: the replacements of the semester parser. -/
def romanToDigits2 (s : Str) : Str :=
  replaceStr c!"I" c!"1" (replaceStr c!"II" c!"2" s)

/-- `parse_time.py:473-484`: the month of a quarter number. -/
def quarterMonth (n : Int) : Int :=
  if n = 1 then 1 else if n = 2 then 4 else if n = 3 then 7 else 10

/-- `parse_time.py:833-838`: the month of a semester number. -/
def semesterMonth (n : Int) : Int := if n = 1 then 1 else 7

/-- `_quarter_num_to_month` for a string, `parse_time.py:455-484`. -/
def quarterStrToMonth (q : Str) : Except Err (Option Int) :=
  if q.isEmpty then .ok none
  else match pyInt (romanToDigits4 q) with
    | some n => .ok (some (quarterMonth n))
    | none => .error .valueError

/-- `_quarter_num_to_month` for a number, `parse_time.py:455-484`. -/
def quarterIntToMonth (n : Nat) : Option Int :=
  if n = 0 then none else some (quarterMonth n)

/-- `_semester_num_to_month`, `parse_time.py:816-840`. -/
def semesterStrToMonth (s : Str) : Except Err (Option Int) :=
  if s.isEmpty then .ok none
  else match pyInt (romanToDigits2 s) with
    | some n => .ok (some (semesterMonth n))
    | none => .error .valueError

/-- `_dob_year_to_four` for a digit string, `parse_time.py:228-240`. `strptime(s, "%y")` takes one or
two digits (POSIX pivot: 69-99 are 19xx, 00-68 are 20xx) and refuses leftover text. -/
def dobYear (y : Str) : Except Err YVal :=
  if y.isEmpty then .ok .none
  else if y.length = 4 then .ok (.int (digitsVal y))
  else if y.length ≤ 2 then
    .ok (.int (if digitsVal y < 69 then 2000 + digitsVal y else 1900 + digitsVal y))
  else .error .valueError

/-- `_dob_year_to_four` of an optional part. -/
def dobYearOpt : Option Str → Except Err YVal
  | none => .ok .none
  | some y => dobYear y

/-- `_month_str_to_num`, `parse_time.py:865-886`: the number of the capitalized name in the first
locale of arrow that knows it. -/
def monthStrToNum (ext : Ext) (m : Str) : Option Int :=
  (ext.monthNumber (capitalize m)).map Int.ofNat

/-! ### Character classes of the grammars -/

/-- `x not in "0123456789IV()"`, `parse_time.py:521` and 683. -/
def notDOrQ (c : Char) : Bool := !(isDigit c || c == 'I' || c == 'V' || c == '(' || c == ')')

/-- `'I' | 'V'`, `parse_time.py:522` and 684. -/
def isQLetter (c : Char) : Bool := c == 'I' || c == 'V'

/-- `q in "1234"`, `parse_time.py:523`. -/
def isQDigit (c : Char) : Bool := c == '1' || c == '2' || c == '3' || c == '4'

/-- The separators hyphen, slash, point, `T`, blank, `parse_time.py:562` and 634. -/
def isSepT (c : Char) : Bool := c == '-' || c == '/' || c == '.' || c == 'T' || c == ' '

/-- The separators hyphen, slash, point, `S`, blank, `parse_time.py:834`. -/
def isSepS (c : Char) : Bool := c == '-' || c == '/' || c == '.' || c == 'S' || c == ' '

/-- Neither a digit nor hyphen, slash, point, blank, `parse_time.py:563`, 635, 835. -/
def notDigitSep (c : Char) : Bool :=
  !(isDigit c || c == '-' || c == '/' || c == '.' || c == ' ')

/-- `x not in "0123456789 "`, `parse_time.py:598` and 922. -/
def notDigitSp (c : Char) : Bool := !(isDigit c || c == ' ')

/-- `x not in "0123456789"`, `parse_time.py:682`, 974, 1034, 1071. -/
def notDigit (c : Char) : Bool := !isDigit c

/-- `x not in "0123456789()"`, `parse_time.py:1035` and 1072. -/
def notDOrP (c : Char) : Bool := !(isDigit c || c == '(' || c == ')')

/-- `anything`. -/
def anyChar (_ : Char) : Bool := true

/-- The separators point, hyphen, slash, comma, `parse_time.py:924`. -/
def isSepM (c : Char) : Bool := c == '.' || c == '-' || c == '/' || c == ','

/-! ### Grammars -/

/-- `ref = ws '(' digit{1, 3} ')' ws | '*'`, `parse_time.py:524`, 564, 602, 636, 685, 836, 928. -/
def gRef : P Unit :=
  P.or (do
      let _ ← P.ws
      let _ ← P.char '('
      let _ ← P.rep 1 3 isDigit
      let _ ← P.char ')'
      let _ ← P.ws
      pure ())
    (do let _ ← P.char '*'; pure ())

/-- `q_num_or_let`, `parse_time.py:525`, followed by its use in `q_to_m` (530): the month number. -/
def gQuarter1Q : P (Except Err (Option Int)) :=
  P.or (do let q ← P.rep 1 3 isQLetter; pure (quarterStrToMonth q))
    (do let c ← P.sat isQDigit; pure (.ok (quarterIntToMonth (digitVal c))))

/-- `year` of the first quarter grammar, `parse_time.py:528`. -/
def gQuarter1Y : P Nat := do
  let _ ← P.star notDOrQ
  let y ← P.rep 4 4 isDigit
  let _ ← P.star notDOrQ
  pure (digitsVal y)

/-- Grammar of `ParseComposedQuarter1`, `parse_time.py:518-532`. -/
def gQuarter1 : P DateRes := do
  let y ← P.opt gQuarter1Y
  let _ ← P.star notDOrQ
  let q ← gQuarter1Q
  let _ ← P.star notDOrQ
  let _ ← P.opt gRef
  let _ ← P.star notDOrQ
  let _ ← P.opt gRef
  let m ← P.lift q
  pure ⟨match y with | some n => .int n | none => .none, m⟩

/-- Grammar of `ParseComposedQuarter2`, `parse_time.py:558-570`. -/
def gQuarter2 : P DateRes := do
  let _ ← P.ws
  let _ ← P.opt gRef
  let q ← P.star notDigitSep
  let _ ← P.star isSepT
  let y ← P.rep 4 4 isDigit
  let _ ← P.opt gRef
  let _ ← P.ws
  let _ ← P.rep 0 3 anyChar
  let m ← P.lift (quarterStrToMonth q)
  pure ⟨.int (digitsVal y), m⟩

/-- Grammar of `ParseComposedQuarter3`, `parse_time.py:594-606`. `(ws | not_digit)` always takes its
first branch. -/
def gQuarter3 : P DateRes := do
  let _ ← P.star notDigitSp
  let _ ← P.ws
  let q ← P.sat isDigit
  let _ ← P.star notDigitSp
  let _ ← P.ws
  let _ ← P.star notDigitSp
  let _ ← P.ws
  let y ← P.rep 2 2 isDigit
  let _ ← P.ws
  let _ ← P.opt gRef
  let _ ← P.ws
  let _ ← P.rep 0 3 anyChar
  let yv ← P.lift (dobYear y)
  pure ⟨yv, quarterIntToMonth (digitVal q)⟩

/-- Grammar of `ParseComposedQuarter4`, `parse_time.py:630-643`. -/
def gQuarter4 : P DateRes := do
  let _ ← P.ws
  let _ ← P.opt gRef
  let q ← P.star notDigitSep
  let _ ← P.star isSepT
  let y ← P.opt (P.rep 2 2 isDigit)
  let _ ← P.opt gRef
  let _ ← P.ws
  let _ ← P.rep 0 3 anyChar
  let yv ← P.lift (dobYearOpt y)
  let m ← P.lift (quarterStrToMonth q)
  pure ⟨yv, m⟩

/-- `year` of the year-quarter grammar, `parse_time.py:688`. -/
def gYearQuarterY : P Nat := do
  let _ ← P.star notDigit
  let y ← P.rep 4 4 isDigit
  let _ ← P.star notDigit
  pure (digitsVal y)

/-- `quarter` of the year-quarter grammar, `parse_time.py:687`. -/
def gYearQuarterQ : P Str := do
  let _ ← P.star notDOrQ
  let q ← P.rep 1 3 isQLetter
  let _ ← P.star notDOrQ
  pure q

/-- Grammar of `ParseComposedYearQuarter1` (and, inherited, `ParseComposedQuarterYear1`),
`parse_time.py:679-692`. -/
def gYearQuarter1 : P DateRes := do
  let y ← P.opt gYearQuarterY
  let q ← P.opt gYearQuarterQ
  let _ ← P.opt gRef
  let _ ← P.star notDOrQ
  let _ ← P.opt gRef
  let m ← P.lift (match q with | some q => quarterStrToMonth q | none => .ok none)
  pure ⟨match y with | some n => .int n | none => .none, m⟩

/-- Grammar of `ParseComposedSemester`, `parse_time.py:830-845`. -/
def gSemester : P DateRes := do
  let _ ← P.ws
  let _ ← P.opt gRef
  let q ← P.star notDigitSep
  let _ ← P.star isSepS
  let y ← P.opt (P.rep 2 2 isDigit)
  let _ ← P.opt gRef
  let _ ← P.ws
  let _ ← P.rep 0 3 anyChar
  let yv ← P.lift (dobYearOpt y)
  let m ← P.lift (semesterStrToMonth q)
  pure ⟨yv, m⟩

/-- `y` of the first month grammar, `parse_time.py:926`. -/
def gMonth1Y : P Str := do
  let _ ← P.ws
  let y ← P.rep 2 4 isDigit
  let _ ← P.ws
  pure y

/-- `m` of the first month grammar, `parse_time.py:927`. -/
def gMonth1M : P Str := do
  let _ ← P.ws
  let m ← P.rep 3 50 isLetter
  let _ ← P.opt (P.char '.')
  pure m

/-- `sep` of the first month grammar, `parse_time.py:924`: the test comes after the second `ws`. -/
def gMonth1Sep : P Unit := do
  let _ ← P.ws
  let x ← P.sat anyChar
  let _ ← P.ws
  if isSepM x then pure () else P.refuse

/-- Grammar of `ParseComposedMonth1`, `parse_time.py:918-936`. -/
def gMonth1 (ext : Ext) : P DateRes :=
  P.or (do
      let y ← gMonth1Y
      let _ ← P.opt gRef
      let _ ← P.opt gMonth1Sep
      let m ← gMonth1M
      let _ ← P.star anyChar
      let yv ← P.lift (dobYear y)
      pure ⟨yv, monthStrToNum ext m⟩)
  (P.or (do
      let m ← gMonth1M
      let _ ← P.opt gRef
      let _ ← P.opt gMonth1Sep
      let y ← gMonth1Y
      let _ ← P.star anyChar
      let yv ← P.lift (dobYear y)
      pure ⟨yv, monthStrToNum ext m⟩)
    (do
      let m ← gMonth1M
      let _ ← P.star anyChar
      pure ⟨.none, monthStrToNum ext m⟩))

/-- `y` of the second month grammar, `parse_time.py:976`. -/
def gMonth2Y : P Str := do
  let _ ← P.ws
  let y ← P.rep 4 4 isDigit
  let _ ← P.ws
  pure y

/-- `m` of the second month grammar, `parse_time.py:977`. -/
def gMonth2M : P Nat := do
  let _ ← P.ws
  let m ← P.rep 1 2 isDigit
  let _ ← P.ws
  pure (digitsVal m)

/-- Grammar of `ParseComposedMonth2`, `parse_time.py:970-984`. -/
def gMonth2 : P DateRes :=
  P.or (do
      let y ← gMonth2Y
      let _ ← P.star notDigit
      let m ← gMonth2M
      let _ ← P.star anyChar
      pure ⟨.str y, some m⟩)
  (P.or (do
      let m ← gMonth2M
      let _ ← P.star notDigit
      let y ← gMonth2Y
      let _ ← P.star anyChar
      pure ⟨.str y, some m⟩)
    (do
      let m ← gMonth2M
      let _ ← P.star anyChar
      pure ⟨.none, some m⟩))

/-- `ref` of the year grammars, `parse_time.py:1036` and 1073. -/
def gYearRef : P Unit := do
  let _ ← P.star notDOrP
  let _ ← P.char '('
  let _ ← P.rep 1 3 isDigit
  let _ ← P.char ')'
  let _ ← P.star notDOrP
  pure ()

/-- Grammar of `ParseComposedYear1`, `parse_time.py:1030-1041`. -/
def gYear1 : P DateRes := do
  let _ ← P.opt gYearRef
  let _ ← P.star notDOrP
  let y ← P.rep 4 4 isDigit
  let _ ← P.star notDOrP
  let _ ← P.opt gYearRef
  pure ⟨.int (digitsVal y), some 1⟩

/-- Grammar of `ParseComposedYear2`, `parse_time.py:1067-1078`. -/
def gYear2 : P DateRes := do
  let _ ← P.opt gYearRef
  let y ← P.rep 4 4 isDigit
  let _ ← P.char '/'
  let _ ← P.rep 2 2 isDigit
  let _ ← P.opt gYearRef
  pure ⟨.int (digitsVal y), some 1⟩

/-! ### Strategies -/

/-- The concrete parsing strategies of the module. -/
inductive Parser where
  | month1 | month2 | quarter1 | quarter2 | quarter3 | quarter4 | quarterYear1 | semester
  | year1 | year2 | yearQuarter1 | simple
  deriving DecidableEq, Repr

/-- `get_strategies()`, `parse_time.py:1081-1087` and `xlseries/utils/strategies_helpers.py`:
the classes of the module in alphabetical order, without those whose name starts with `Base`. -/
def parsers : List Parser :=
  [.month1, .month2, .quarter1, .quarter2, .quarter3, .quarter4, .quarterYear1, .semester,
   .year1, .year2, .yearQuarter1, .simple]

/-- `_parse_date_elements` of the composed strategies, `parse_time.py:420-435`. `ParseSimpleTime` has
no grammar (`parse_time.py:251-263` raises). -/
def parseElements (ext : Ext) (p : Parser) (s : Str) : Except Err DateRes :=
  match p with
  | .month1 => (gMonth1 ext).run s
  | .month2 => gMonth2.run s
  | .quarter1 => gQuarter1.run s
  | .quarter2 => gQuarter2.run s
  | .quarter3 => gQuarter3.run s
  | .quarter4 => gQuarter4.run s
  | .quarterYear1 => gYearQuarter1.run s
  | .semester => gSemester.run s
  | .year1 => gYear1.run s
  | .year2 => gYear2.run s
  | .yearQuarter1 => gYearQuarter1.run s
  | .simple => .error .notImplementedError

/-- The frequency a composed strategy is for: `parse_time.py:444`, 673, 725, 773, 856, 993. -/
def Parser.freq : Parser → Str
  | .month1 | .month2 => c!"M"
  | .quarter1 | .quarter2 | .quarter3 | .quarter4 => c!"Q"
  | .quarterYear1 => c!"QQQQA"
  | .semester => c!"S"
  | .year1 | .year2 => c!"A"
  | .yearQuarter1 => c!"AQQQQ"
  | .simple => []

/-- Did a computation end without an exception? -/
def isOk {α : Type} : Except Err α → Bool
  | .ok _ => true
  | .error _ => false

/-- `_accepts` of a strategy on a string, `parse_time.py:301-303`, 443-453, 671-680, 723-732,
771-781, 853-863, 990-1002: all exceptions of the grammar count as a refusal. -/
def acceptsStr (ext : Ext) (p : Parser) (composed : Bool) (freq : Str) (s : Str) : Bool :=
  match p with
  | .simple => !composed
  | p => composed && freq == p.freq && isOk (parseElements ext p s)

/-- Truncation of a rational towards zero (`int(x)` for a float). -/
def truncRat (q : Rat) : Int := if 0 ≤ q then q.floor else -((-q).floor)

/-- `str(v)` for the cell values that reach a parser as text. -/
def cellStr (ext : Ext) : Cell → Str
  | .none => c!"None"
  | .bool true => c!"True"
  | .bool false => c!"False"
  | .int i => intStr i
  | .float x => ext.reprFloat x
  | .str s => s
  | .dt t => ext.reprTime t

/-- `str(int(x))` for a float: `ValueError` for NaN. -/
def floatIntStr : Num → Except Err Str
  | .nan => .error .valueError
  | .fin q => .ok (intStr (truncRat q))

/-- `accepts`, `parse_time.py:102-146`. `last_time` is a time or `None` in every call of the package,
so the `NoTimeValue` of line 130-131 cannot occur. -/
def accepts (ext : Ext) (p : Parser) (composed : Bool) (freq : Str) (curr : Cell) :
    Except Err Bool :=
  match curr with
  | .dt _ => if composed then .error .timeIsNotComposed else .ok true
  | .none => .error .noPossibleTimeValue
  | .str s => .ok (acceptsStr ext p composed freq (strip (ext.unidecode s)))
  | .float x =>
    match floatIntStr x with
    | .error e => .error e
    | .ok si => .ok (acceptsStr ext p composed freq (ext.reprFloat x) ||
        acceptsStr ext p composed freq si)
  | v => .ok (acceptsStr ext p composed freq (cellStr ext v))

/-- Truth value of a parsed year: `None` and the number 0 are false. -/
def YVal.truthy : YVal → Bool
  | .none => false
  | .int n => n != 0
  | .str s => !s.isEmpty

/-- `int(...)` of a parsed year that is true. -/
def YVal.toInt : YVal → Except Err Int
  | .none => .error .typeError
  | .int n => .ok n
  | .str s => match pyInt s with
    | some n => .ok n
    | Option.none => .error .valueError

/-- `int(result[0] or last_time.year)` / `int(result[0] or 1)`, `parse_time.py:283`, 287. -/
def fillYear (y : YVal) (last : Option Time) : Except Err Int :=
  if y.truthy then y.toInt
  else match last with
    | some t => .ok t.year
    | none => .ok 1

/-- `int(result[1] or last_time.month)` / `int(result[1] or 1)`, `parse_time.py:284`, 288. -/
def fillMonth (m : Option Int) (last : Option Time) : Int :=
  match m with
  | some n => if n = 0 then (match last with | some t => t.month | none => 1) else n
  | none => match last with
    | some t => t.month
    | none => 1

/-- Was no month parsed? (`not result[1]`) -/
def monthFalsy : Option Int → Bool
  | none => true
  | some n => n == 0

/-- `_fill_parse_date_holes`, `parse_time.py:265-291` and, for the quarter-year strategy, 734-763:
the year and month (the day is 1 in every composed result). -/
def fillHoles (p : Parser) (r : DateRes) (last : Option Time) : Except Err (Int × Int) :=
  match p, last with
  | .quarterYear1, some t =>
    if !r.year.truthy && monthFalsy r.month && t.month == 10 then .ok ((t.year : Int), 1)
    else match fillYear r.year last with
      | .ok y => .ok (y, fillMonth r.month last)
      | .error e => .error e
  | _, _ =>
    match fillYear r.year last with
    | .ok y => .ok (y, fillMonth r.month last)
    | .error e => .error e

/-- `_parse_time` of the composed strategies, `parse_time.py:195-226`. The day is 1, so the
`DayOutOfRange` of line 220-221 cannot occur. -/
def parseComposed (ext : Ext) (p : Parser) (s : Str) (last : Option Time) : Except Err Time :=
  match parseElements ext p s with
  | .error e => .error e
  | .ok r =>
    match fillHoles p r last with
    | .error e => .error e
    | .ok (y, m) => if 1 ≤ m ∧ m ≤ 12 then mkDate y m 1 else .error .monthOutOfRange

/-! ### Simple dates -/

/-- `ParseSimpleTime.MAX_IMPL`, `parse_time.py:297`. -/
def maxImpl : Nat := 20

/-- `_get_possible_time_formats`, `parse_time.py:394-412`: three orders of the date elements with
the lengths found in the string; `AssertionError` unless there are three elements. -/
def timeFormats (s : Str) : Except Err (List Str) :=
  match splitOn '-' s with
  | [a, b, c] =>
    let mk (x y z : Char) : Str :=
      joinWith c!"-" [List.replicate a.length x, List.replicate b.length y,
        List.replicate c.length z]
    .ok [mk 'D' 'M' 'Y', mk 'M' 'D' 'Y', mk 'Y' 'M' 'D']
  | _ => .error .assertionError

/-- The loop over formats, `parse_time.py:335-352`: the first format that parses to a time that
makes sense. A format that does not parse is skipped; an exception of the sense check propagates. -/
def trySimpleFormats (ext : Ext) (s : Str) (sense : Time → Except Err Bool) :
    List Str → Except Err Time
  | [] => .error .noTimeValue
  | f :: fs =>
    match ext.arrowParse s f with
    | none => trySimpleFormats ext s sense fs
    | some t =>
      match sense t with
      | .error e => .error e
      | .ok true => .ok t
      | .ok false => trySimpleFormats ext s sense fs

/-- `ParseSimpleTime._parse_time`, `parse_time.py:305-357`. `self.time_format` is never assigned after
construction (300) and `strategy()` passes none, so lines 316-331 are never executed. -/
def parseSimpleStr (ext : Ext) (s : Str) (sense : Time → Except Err Bool) : Except Err Time :=
  let str := replaceChar '/' c!"-" (replaceChar '.' c!"-" s)
  match timeFormats str with
  | .error e => .error e
  | .ok fs => trySimpleFormats ext str sense fs

/-- First half of `_time_make_sense`, `parse_time.py:372-379`. -/
def senseLast (freq : Str) (last : Option Time) (t : Time) : Except Err Bool :=
  match last with
  | none => .ok true
  | some l =>
    match incrementTime l maxImpl freq with
    | .error e => .error e
    | .ok mx => .ok (decide (l < t) && decide (t ≤ mx))

/-- `parse_time` of `BaseParseTimeStrategy`, `parse_time.py:148-193`, over the string parser of a
strategy. -/
def parseCell (ext : Ext) (parseStr : Str → Except Err Time) (curr : Cell) : Except Err Time :=
  match curr with
  | .dt t => .ok t
  | .str s => parseStr (strip (ext.unidecode s))
  | .int i => parseStr (intStr i)
  | .bool b => parseStr (cellStr ext (.bool b))
  | .float x =>
    match floatIntStr x with
    | .error _ => parseStr (ext.reprFloat x)
    | .ok si =>
      match parseStr si with
      | .ok t => .ok t
      | .error _ => parseStr (ext.reprFloat x)
  | .none => .error .assertionError

/-- Second half of `_time_make_sense`, `parse_time.py:381-397`. The recursive call passes no next
value, so it goes one level deep. -/
def senseNext (ext : Ext) (freq : Str) (next : Cell) (t : Time) : Except Err Bool :=
  if next.truthy then
    match parseCell ext (fun s => parseSimpleStr ext s (senseLast freq (some t))) next with
    | .error .noTimeValue => .ok false
    | .error e => .error e
    | .ok n =>
      match incrementTime t maxImpl freq with
      | .error e => .error e
      | .ok mx => .ok (decide (t < n) && decide (n ≤ mx))
  else .ok true

/-- `_time_make_sense`, `parse_time.py:358-392`. -/
def makesSense (ext : Ext) (freq : Str) (last : Option Time) (next : Cell) (t : Time) :
    Except Err Bool :=
  match senseLast freq last t with
  | .error e => .error e
  | .ok a =>
    match senseNext ext freq next t with
    | .error e => .error e
    | .ok b => .ok (a && b)

/-- The string parser of a strategy. -/
def parseStrWith (ext : Ext) (p : Parser) (freq : Str) (last : Option Time) (next : Cell)
    (s : Str) : Except Err Time :=
  match p with
  | .simple => parseSimpleStr ext s (makesSense ext freq last next)
  | p => parseComposed ext p s last

/-- `strategy.parse_time(params, curr_time, last_time, next_time)`, `parse_time.py:148-193`. -/
def parseWith (ext : Ext) (p : Parser) (freq : Str) (curr : Cell) (last : Option Time)
    (next : Cell) : Except Err Time :=
  parseCell ext (parseStrWith ext p freq last next) curr

end Xls
