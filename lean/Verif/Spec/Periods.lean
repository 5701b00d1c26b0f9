/-
What periods are, to state which index a data frame has.
-/
import Verif.Spec.Extraction

set_option autoImplicit false

namespace Xls.Spec

/-- Length of the periods of a frequency of a series (here `S` is a semester). -/
def periodShift : Str → Option Shift
  | ['A'] => some (.months 12)
  | ['Y'] => some (.months 12)
  | ['S'] => some (.months 6)
  | ['Q'] => some (.months 3)
  | ['M'] => some (.months 1)
  | ['W'] => some (.micros (7 * 24 * 60 * 60 * 1000 * 1000))
  | ['D'] => some (.micros (24 * 60 * 60 * 1000 * 1000))
  | _ => none

/-- The day a period of the frequency starts with: 1 January, the first of a quarter, the first of a
month (for months and semesters), a Sunday (as 7 January of year 1 is), any day. -/
def PeriodStart (freq : Str) (t : Time) : Prop :=
  match freq with
  | ['A'] | ['Y'] => t.month = 1 ∧ t.day = 1
  | ['S'] => t.day = 1
  | ['Q'] => (t.month = 1 ∨ t.month = 4 ∨ t.month = 7 ∨ t.month = 10) ∧ t.day = 1
  | ['M'] => t.day = 1
  | ['W'] => dayNumber t % 7 = dayNumber ⟨1, 1, 7, 0⟩ % 7
  | ['D'] => True
  | _ => False

/-- Each date-time is one period after the one before it. -/
def PeriodRun (freq : Str) : List Time → Prop
  | [] => True
  | [_] => True
  | a :: b :: rest =>
    (∃ sh, periodShift freq = some sh ∧ IsShifted a 1 b sh) ∧ PeriodRun freq (b :: rest)

/-- The name `pandas` has for the frequency of an index of period starts. -/
def indexFreq : Str → Str
  | ['A'] | ['Y'] => c!"AS-JAN"
  | ['S'] => c!"6MS"
  | ['Q'] => c!"QS-JAN"
  | ['M'] => c!"MS"
  | ['W'] => c!"W-SUN"
  | ['D'] => c!"D"
  | f => f

/-- Within the years a `pandas` time stamp can have. -/
def Representable (t : Time) : Prop := 1678 ≤ t.year ∧ t.year ≤ 2261

instance (t : Time) : Decidable (Representable t) := by unfold Representable; infer_instance

/-- The first period start at or after a date, at the same time of day. -/
structure FirstPeriodStart (freq : Str) (a t : Time) : Prop where
  valid : ValidTime t
  start : PeriodStart freq t
  hour : t.us = a.us
  le : a ≤ t
  least : ∀ u, ValidTime u → PeriodStart freq u → u.us = a.us → a ≤ u → t ≤ u

/-- `ts` are the starts of the consecutive periods from the first one at or after `a` to the last one
not after `z`. -/
structure StartsFromTo (freq : Str) (a z : Time) (ts : List Time) : Prop where
  valid : ∀ t ∈ ts, ValidTime t
  run : PeriodRun freq ts
  first : ∀ t, ts.head? = some t → FirstPeriodStart freq a t
  last : ∀ t, ts.getLast? = some t → t ≤ z ∧
    ∀ sh u, periodShift freq = some sh → ValidTime u → IsShifted t 1 u sh → z < u
  empty : ts = [] → ∀ u, FirstPeriodStart freq a u → z < u

/-- The dates of one letter of a pattern: consecutive periods from a period start on. -/
structure LetterRun (pattern : Str) (ts : List Time) (f : Char) : Prop where
  valid : ∀ t ∈ ofLetter pattern f ts, ValidTime t
  run : PeriodRun [f] (ofLetter pattern f ts)
  start : ∀ a, (ofLetter pattern f ts).head? = some a → PeriodStart [f] a ∧ Representable a
  stop : ∀ z, (ofLetter pattern f ts).getLast? = some z → Representable z

end Xls.Spec
