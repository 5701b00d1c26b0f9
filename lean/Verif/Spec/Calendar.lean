/-
Independent specification of the calendar: day counting in the proleptic Gregorian calendar.
Nothing here refers to the model's arithmetic.
-/
import Verif.Model.Time

set_option autoImplicit false

namespace Xls.Spec

/-- Gregorian rule. -/
def LeapYear (y : Nat) : Prop := 4 ∣ y ∧ (¬ 100 ∣ y ∨ 400 ∣ y)

instance (y : Nat) : Decidable (LeapYear y) := by unfold LeapYear; infer_instance

/-- Length of each month; 0 for a number that is not a month. -/
def monthLength (y : Nat) : Nat → Nat
  | 1 => 31
  | 2 => if LeapYear y then 29 else 28
  | 3 => 31
  | 4 => 30
  | 5 => 31
  | 6 => 30
  | 7 => 31
  | 8 => 31
  | 9 => 30
  | 10 => 31
  | 11 => 30
  | 12 => 31
  | _ => 0

/-- Length of a year. -/
def yearLength (y : Nat) : Nat := if LeapYear y then 366 else 365

/-- Days before 1 January of a year, counting from year 0. -/
def daysBeforeYear : Nat → Nat
  | 0 => 0
  | y + 1 => daysBeforeYear y + yearLength y

/-- Days of a year before the first of a month. -/
def daysBeforeMonth (y : Nat) : Nat → Nat
  | 0 => 0
  | m + 1 => daysBeforeMonth y m + monthLength y m

/-- Running number of a calendar day. -/
def dayNumber (t : Time) : Nat := daysBeforeYear t.year + daysBeforeMonth t.year t.month + t.day

/-- A date-time as a number of microseconds. -/
def instant (t : Time) : Nat := dayNumber t * 86400000000 + t.us

/-- Running number of a calendar month. -/
def monthCount (t : Time) : Nat := t.year * 12 + (t.month - 1)

/-- The date-times `datetime` can represent. -/
structure ValidTime (t : Time) : Prop where
  year_pos : 1 ≤ t.year
  year_le : t.year ≤ 9999
  month_pos : 1 ≤ t.month
  month_le : t.month ≤ 12
  day_pos : 1 ≤ t.day
  day_le : t.day ≤ monthLength t.year t.month
  us_lt : t.us < 86400000000

instance (t : Time) : Decidable (ValidTime t) :=
  decidable_of_iff
    (1 ≤ t.year ∧ t.year ≤ 9999 ∧ 1 ≤ t.month ∧ t.month ≤ 12 ∧ 1 ≤ t.day ∧
      t.day ≤ monthLength t.year t.month ∧ t.us < 86400000000)
    ⟨fun ⟨a, b, c, d, e, f, g⟩ => ⟨a, b, c, d, e, f, g⟩,
     fun ⟨a, b, c, d, e, f, g⟩ => ⟨a, b, c, d, e, f, g⟩⟩

/-- `k` successive single steps with a partial step function. -/
def steps {α ε : Type} (f : α → Except ε α) : Nat → α → Except ε α
  | 0, a => .ok a
  | k + 1, a =>
    match f a with
    | .ok b => steps f k b
    | .error e => .error e

end Xls.Spec

namespace Xls.Spec

/-- What one step of a frequency means on the calendar. -/
inductive Shift where
  /-- a number of calendar months -/
  | months (n : Nat)
  /-- an exact duration in microseconds -/
  | micros (n : Nat)
  deriving DecidableEq, Repr

/-- The frequencies of `increment_time` and the length of one step of each. -/
def shiftOf : Str → Option Shift
  | ['S'] => some (.micros (1000 * 1000))
  | ['T'] => some (.micros (60 * 1000 * 1000))
  | ['H'] => some (.micros (60 * 60 * 1000 * 1000))
  | ['D'] => some (.micros (24 * 60 * 60 * 1000 * 1000))
  | ['W'] => some (.micros (7 * 24 * 60 * 60 * 1000 * 1000))
  | ['M'] => some (.months 1)
  | ['Q'] => some (.months 3)
  | ['A'] => some (.months 12)
  | _ => none

/-- `t'` is exactly `n` steps after `t`: for calendar steps the month is `n` steps later, the day is
the same one or the last of the month when the month is too short, and the time of day is the same;
for the others the elapsed time is exactly `n` steps. -/
def IsShifted (t : Time) (n : Nat) (t' : Time) : Shift → Prop
  | .months k => monthCount t' = monthCount t + n * k ∧
      t'.day = min t.day (monthLength t'.year t'.month) ∧ t'.us = t.us
  | .micros k => instant t' = instant t + n * k

/-- The result of `n` steps would fall after year 9999. -/
def BeyondCalendar (t : Time) (n : Nat) : Shift → Prop
  | .months k => 10000 * 12 ≤ monthCount t + n * k
  | .micros k => instant ⟨9999, 12, 31, 86399999999⟩ < instant t + n * k

end Xls.Spec
