/-
Comparison of values and of data frames, and the frequency guess that uses it
(`xlseries/utils/comparing.py`, `xlseries/utils/data_frame.py`, `xlseries/utils/time_manipulation.py`).
-/
import Verif.Model.Frames

set_option autoImplicit false

namespace Xls

/-- The number a value is for Python's arithmetic and `==`: `True` is 1. -/
def Cell.asNum : Cell → Option Num
  | .bool b => some (.fin (if b then 1 else 0))
  | .int i => some (.fin i)
  | .float x => some x
  | _ => Option.none

/-- `a == b` for two values: NaN is not equal to itself. -/
def Cell.eqPy (a b : Cell) : Bool :=
  match a.asNum, b.asNum with
  | some (.fin x), some (.fin y) => x == y
  | some _, _ => false
  | _, some _ => false
  | Option.none, Option.none => a == b

/-- `np.isnan(a)`: `TypeError` unless `a` is a number. -/
def isNan (a : Cell) : Except Err Bool :=
  match a.asNum with
  | some .nan => .ok true
  | some (.fin _) => .ok false
  | none => .error .typeError

/-- `abs(x)`. -/
def absRat (x : Rat) : Rat := if 0 ≤ x then x else -x

/-- `_approx_equal`, `xlseries/utils/comparing.py:51-56`: `abs(a - b) <= tolerance * a`, false if a NaN
is involved, `TypeError` unless both are numbers. Simplification: exact arithmetic. -/
def approxNumbers (a b : Cell) (tolerance : Rat) : Except Err Bool :=
  match a.asNum, b.asNum with
  | some (.fin x), some (.fin y) => .ok (decide (absRat (x - y) ≤ tolerance * x))
  | some _, some _ => .ok false
  | _, _ => .error .typeError

/-- `approx_equal`, `xlseries/utils/comparing.py:13-48`. The tests `a != np.nan` are always true. -/
def approxEqual (a b : Cell) (tolerance : Rat) : Except Err Bool :=
  if a.eqPy b then .ok true
  else
    match a, b with
    | .str _, .str _ => .ok false
    | a, b =>
      if !a.truthy && !b.truthy then .ok true
      else
        match isNan a with
        | .error e => .error e
        | .ok na =>
          match if na then isNan b else .ok false with
          | .error e => .error e
          | .ok true => .ok true
          | .ok false =>
            if a.truthy && b.truthy then approxNumbers a b tolerance else .error .notImplementedError

/-- The loop of `compare_list_values`, `xlseries/utils/comparing.py:59-78`, over the pairs of `zip`; also
the inner loop of `_check_values`, `xlseries/utils/data_frame.py:315-320`. -/
def closePairs : List (Num × Num) → Except Err Bool
  | [] => .ok true
  | (a, b) :: rest =>
    match approxEqual (.float a) (.float b) (1 / 10000) with
    | .error e => .error e
    | .ok false => .ok false
    | .ok true => closePairs rest

/-- `compare_list_values(values1, values2)` for lists of floats. -/
def compareListValues (xs ys : List Num) : Except Err Bool := closePairs (xs.zip ys)

/-- `df[col]`: the values of a column. Simplification: column names are not repeated. -/
def Frame.column (f : Frame) (col : Str) : List Num :=
  ((f.columns.zip f.data).find? fun cd => cd.1 = col).elim [] Prod.snd

/-- `_check_values`, `xlseries/utils/data_frame.py:309-322`: a column that differs does not end the
loop over the columns. -/
def checkValues (f g : Frame) : List Str → Except Err Bool
  | [] => .ok true
  | col :: cols =>
    match closePairs ((f.column col).zip (g.column col)) with
    | .error e => .error e
    | .ok b =>
      match checkValues f g cols with
      | .error e => .error e
      | .ok r => .ok (b && r)

/-- `compare_data_frames` of two data frames, `xlseries/utils/data_frame.py:230-322`. Either it raises or
it returns `True`. Different columns are reported by a plain `Exception` (`_check_columns`, 279-296). The
dates have no time zones here, so `normalize_value` does nothing. -/
def compareFrames (f g : Frame) : Except Err Unit :=
  if f.index.length ≠ g.index.length then .error .assertionError
  else if f.freq ≠ g.freq then .error .assertionError
  else if f.columns.any fun c => c ∉ g.columns then .error .exception
  else if g.columns.any fun c => c ∉ f.columns then .error .exception
  else if (f.index.zip g.index).any fun ab => ab.1 ≠ ab.2 then .error .assertionError
  else
    match checkValues f g f.columns with
    | .error e => .error e
    | .ok false => .error .assertionError
    | .ok true => .ok ()

/-! ### Frequency of a spacing -/

/-- The tests of `infer_freq` in order, `xlseries/utils/time_manipulation.py:65-82`; no name: semesters,
which raise. -/
def freqTests : List (Int × Option Str) :=
  [(1, some c!"S"), (60, some c!"T"), (3600, some c!"H"), (86400, some c!"D"), (604800, some c!"W"),
   (2419200, some c!"MS"), (7776000, some c!"QS"), (15552000, none), (31536000, some c!"AS")]

/-- The chain of `elif`s. -/
def inferFreqFrom (avSeconds : Cell) (tolerance : Rat) : List (Int × Option Str) → Except Err Str
  | [] => .error .exception
  | (n, name) :: rest =>
    match approxEqual (.int n) avSeconds tolerance with
    | .error e => .error e
    | .ok true =>
      match name with
      | some f => .ok f
      | none => .error .exception
    | .ok false => inferFreqFrom avSeconds tolerance rest

/-- `infer_freq`, `xlseries/utils/time_manipulation.py:62-86`. -/
def inferFreq (avSeconds : Cell) (tolerance : Rat := 1 / 10) : Except Err Str :=
  inferFreqFrom avSeconds tolerance freqTests

end Xls
