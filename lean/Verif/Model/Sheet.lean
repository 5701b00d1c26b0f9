/-
Cell values, worksheets, column letters and coordinates.
-/
import Verif.Model.Time

set_option autoImplicit false

namespace Xls

/-- Python floats: NaN or an exact rational. Simplification: no rounding, no infinities. -/
inductive Num
  | nan
  | fin (q : Rat)
  deriving DecidableEq

/-- The value of a worksheet cell. -/
inductive Cell
  | none
  | bool (b : Bool)
  | int (i : Int)
  | float (x : Num)
  | str (s : Str)
  | dt (t : Time)
  deriving DecidableEq

namespace Cell

/-- `isinstance(value, datetime.datetime)`. -/
def isDt : Cell → Bool
  | dt _ => true
  | _ => false

/-- `isinstance(value, float)`. -/
def isFloat : Cell → Bool
  | float _ => true
  | _ => false

/-- Python truth value of a cell value. -/
def truthy : Cell → Bool
  | none => false
  | bool b => b
  | int i => i != 0
  | float .nan => true
  | float (.fin q) => q != 0
  | str s => !s.isEmpty
  | dt _ => true

end Cell

/-- Third-party functions the model does not look into; the theorems hold for all of them. -/
structure Ext where
  /-- `unidecode.unidecode` -/
  unidecode : Str → Str
  /-- `float(s)` for a string, `none` = `ValueError` -/
  floatOfStr : Str → Option Num
  /-- `str(x)` for a float -/
  reprFloat : Num → Str
  /-- month number a capitalized name has in the first arrow locale that knows it
  (`arrow.locales`), `none` if no locale knows it -/
  monthNumber : Str → Option Nat
  /-- `arrow.get(string, format)`, `none` = any exception -/
  arrowParse : Str → Str → Option Time
  /-- `str(d)` for a datetime -/
  reprTime : Time → Str
  /-- the current time, `arrow.get(None)` -/
  now : Time
  /-- `arrow.get(value)` for a value that is neither `None` nor a datetime, `none` = any exception -/
  arrowOfCell : Cell → Option Time
  /-- `pandas.Timestamp(value)` for a value that is neither `None` nor a datetime, `none` = any
  exception or not a time -/
  pandasTime : Cell → Option Time
  /-- `pandas.period_range(first, last, freq="B")`: the business days between two days -/
  businessDays : Time → Time → List Time

/-- An openpyxl worksheet: a value for each (row, column) and the largest row and column of a cell
object that exists (`max_row`, `max_column`; 1-based, 1 for an empty sheet). Only the values are
modelled, not formats. -/
structure Sheet where
  title : Str
  cells : Int → Int → Cell
  maxRow : Int
  maxCol : Int

namespace Sheet

/-- Looking a cell up creates it (openpyxl `Worksheet._get_cell`), so the high-water marks may
grow. -/
def touch (s : Sheet) (r c : Int) : Sheet :=
  { s with maxRow := max s.maxRow r, maxCol := max s.maxCol c }

/-- `ws.cell(row=r, column=c).value = v`. -/
def set (s : Sheet) (r c : Int) (v : Cell) : Sheet :=
  { (s.touch r c) with cells := fun r' c' => if r' = r ∧ c' = c then v else s.cells r' c' }

/-- `ws.cell(row=r, column=c).value` or `ws["A1"].value`: rows and columns below 1 do not exist
(`ValueError`). -/
def read (s : Sheet) (r c : Int) : Except Err Cell :=
  if 1 ≤ r ∧ 1 ≤ c then .ok (s.cells r c) else .error .valueError

end Sheet

/-! ### Column letters and coordinates (openpyxl.utils) -/

/-- Column letters to a number, `openpyxl.utils.column_index_from_string` without its upper limit
of 18278 columns: bijective base 26. -/
def colIndex (s : Str) : Nat := s.foldl (fun a c => a * 26 + (c.toNat - 64)) 0

/-- `openpyxl.utils.get_column_letter` without its upper limit, with fuel (see `colLetter`). -/
def colLetterFuel : Nat → Nat → Str
  | 0, _ => []
  | _ + 1, 0 => []
  | f + 1, n + 1 => colLetterFuel f (n / 26) ++ [Char.ofNat (65 + n % 26)]

/-- `openpyxl.utils.get_column_letter(n)`. -/
def colLetter (n : Nat) : Str := colLetterFuel n n

/-- A text without a leading `$`. -/
def dropDollar : Str → Str
  | '$' :: cs => cs
  | cs => cs

/-- The (row, column) of a coordinate such as `"B12"`, `"b12"` or `"$B$12"` (openpyxl
`range_boundaries`); `none` = the string is not a cell coordinate. Simplification: no limit of three letters. -/
def parseCoord (s : Str) : Option (Nat × Nat) :=
  let t := dropDollar (upper s)
  let letters := t.takeWhile isUpperLetter
  let digits := dropDollar (t.dropWhile isUpperLetter)
  if letters ≠ [] ∧ digits ≠ [] ∧ digits.all isDigit ∧ 1 ≤ digitsVal digits then
    some (digitsVal digits, colIndex letters)
  else none

/-- What `ws[text].value` (or `.row`, `.column`) raises for a text that is no cell coordinate: letters or a row
number alone are a whole column or row, without these attributes (`AttributeError`), and so is row 0 of a
column; a text without a column or row is no range (`IndexError`); anything else is not accepted
(`ValueError`). Simplification: a range such as `A1:B2` counts as not accepted. -/
def coordError (s : Str) : Err :=
  let t := dropDollar (upper s)
  let letters := t.takeWhile isUpperLetter
  let digits := dropDollar (t.dropWhile isUpperLetter)
  if letters.length ≤ 3 ∧ digits.all isDigit then
    if letters = [] ∧ digitsVal digits = 0 then .indexError else .attributeError
  else .valueError

/-- `ws[coord]` for a coordinate: anything that is not a cell coordinate raises. -/
def coordOf (s : Str) : Except Err (Int × Int) :=
  match parseCoord s with
  | some (r, c) => .ok (r, c)
  | none => .error (coordError s)

/-- `cell.coordinate`: column letters followed by the row number. -/
def coordStr (r c : Nat) : Str := colLetter c ++ natStr r

end Xls
