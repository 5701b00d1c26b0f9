/-
Date-times and `increment_time`.
-/
import Verif.Model.Basic

set_option autoImplicit false

namespace Xls

/-- An `arrow.Arrow` / `datetime.datetime` value in UTC: year, month, day and microseconds of the
day. Simplification: one time zone (the package only ever creates UTC times and strips `tzinfo`,
`xlseries/utils/xl_methods.py:306-323`). -/
structure Time where
  year : Nat
  month : Nat
  day : Nat
  us : Nat
  deriving DecidableEq, Repr

namespace Time

/-- Midnight of a date. -/
def date (y m d : Nat) : Time := ⟨y, m, d, 0⟩

/-- Comparison of two date-times (`datetime.__lt__`: lexicographic on the fields). -/
def lt (a b : Time) : Prop :=
  a.year < b.year ∨ (a.year = b.year ∧ (a.month < b.month ∨ (a.month = b.month ∧
    (a.day < b.day ∨ (a.day = b.day ∧ a.us < b.us)))))

instance : LT Time := ⟨lt⟩
instance (a b : Time) : Decidable (a < b) := by
  change Decidable (lt a b); unfold lt; infer_instance

/-- `a <= b` for date-times. -/
instance : LE Time := ⟨fun a b => ¬ b < a⟩
instance (a b : Time) : Decidable (a ≤ b) := by
  change Decidable (¬ b < a); infer_instance

end Time

/-- Gregorian leap years (`calendar.isleap`). -/
def isLeap (y : Nat) : Bool := y % 4 == 0 && (y % 100 != 0 || y % 400 == 0)

/-- `calendar.monthrange(y, m)[1]`. -/
def daysInMonth (y m : Nat) : Nat :=
  if m = 2 then (if isLeap y then 29 else 28)
  else if m = 4 ∨ m = 6 ∨ m = 9 ∨ m = 11 then 30
  else 31

/-- Microseconds per day. -/
def usPerDay : Nat := 86400000000

/-- Smallest and largest year of `datetime`. -/
def maxYear : Nat := 9999

/-- `arrow.get(year, month, day)`: `ValueError` unless it is a date of the proleptic Gregorian
calendar with a year in 1..9999. -/
def mkDate (y m d : Int) : Except Err Time :=
  if 1 ≤ y ∧ y ≤ maxYear ∧ 1 ≤ m ∧ m ≤ 12 ∧ 1 ≤ d ∧ d ≤ daysInMonth y.toNat m.toNat then
    .ok (Time.date y.toNat m.toNat d.toNat)
  else .error .valueError

/-- `t + relativedelta(months=n)` for `n ≥ 0`: the day is clamped to the target month, the time of
day is kept; `ValueError` beyond year 9999. -/
def addMonths (t : Time) (n : Nat) : Except Err Time :=
  let total := t.year * 12 + (t.month - 1) + n
  let y := total / 12
  let m := total % 12 + 1
  if y ≤ maxYear then .ok ⟨y, m, min t.day (daysInMonth y m), t.us⟩ else .error .valueError

/-- The next calendar day; `OverflowError` after 31 December 9999. -/
def nextDay (t : Time) : Except Err Time :=
  if t.day < daysInMonth t.year t.month then .ok { t with day := t.day + 1 }
  else if t.month < 12 then .ok { t with month := t.month + 1, day := 1 }
  else if t.year < maxYear then .ok { t with year := t.year + 1, month := 1, day := 1 }
  else .error .overflowError

/-- `t + timedelta(days=n)` for `n ≥ 0`. -/
def addDays (t : Time) : Nat → Except Err Time
  | 0 => .ok t
  | n + 1 =>
    match nextDay t with
    | .ok t' => addDays t' n
    | .error e => .error e

/-- `t + timedelta(microseconds=n)` for `n ≥ 0`. -/
def addMicros (t : Time) (n : Nat) : Except Err Time :=
  addDays { t with us := (t.us + n) % usPerDay } ((t.us + n) / usPerDay)

/-- `increment_time` (`xlseries/utils/time_manipulation.py:26-59`). `arrow.Arrow.replace` of arrow
0.5.4 with a plural keyword shifts by `relativedelta`. Simplification: `num` is a natural number
(every call in the package passes a positive constant). -/
def incrementTime (t : Time) (num : Nat) (freq : Str) : Except Err Time :=
  if freq = ['S'] then addMicros t (num * 1000000)
  else if freq = ['T'] then addMicros t (num * 60000000)
  else if freq = ['H'] then addMicros t (num * 3600000000)
  else if freq = ['D'] then addDays t num
  else if freq = ['W'] then addDays t (num * 7)
  else if freq = ['M'] then addMonths t num
  else if freq = ['Q'] then addMonths t (num * 3)
  else if freq = ['A'] then addMonths t (num * 12)
  else .error .invalidTimeFrequency

end Xls
