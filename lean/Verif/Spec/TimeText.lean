/-
Vocabulary for the texts people write dates with: years and numbers in decimal digits, quarter and
semester numerals, footnote references, fillers.
-/
import Verif.Model.Basic

set_option autoImplicit false

namespace Xls.Spec

/-- The ten digit characters. -/
def digits : Str := c!"0123456789"

/-- The digit character of a number below ten. -/
def digit (n : Nat) : Char := digits.getD n '0'

/-- A number below 10000 written with four digits. -/
def four (n : Nat) : Str := [digit (n / 1000), digit (n / 100 % 10), digit (n / 10 % 10), digit (n % 10)]

/-- A number below 100 written with two digits. -/
def two (n : Nat) : Str := [digit (n / 10), digit (n % 10)]

/-- Roman numerals up to four; nothing for any other number. -/
def roman : Nat → Str
  | 1 => c!"I"
  | 2 => c!"II"
  | 3 => c!"III"
  | 4 => c!"IV"
  | _ => []

/-- Every character of `s` is one of `cs`. -/
def Only (cs s : Str) : Prop := ∀ c ∈ s, c ∈ cs

/-- No character of `s` is one of `cs`. -/
def Without (cs s : Str) : Prop := ∀ c ∈ s, c ∉ cs

/-- White space only. -/
def Blank (s : Str) : Prop := ∀ c ∈ s, isSpace c = true

/-- A footnote reference, one to three digits in parentheses. -/
def IsRef (s : Str) : Prop := ∃ ds, 1 ≤ ds.length ∧ ds.length ≤ 3 ∧ Only digits ds ∧ s = c!"(" ++ ds ++ c!")"

/-- Characters that cannot be filler around a quarter: digits, the letters of roman numerals,
parentheses. -/
def quarterChars : Str := c!"0123456789IV()"

/-- Nothing, or one or two footnote references with filler between (`(1)`, `(1) * (2) `). -/
def QuarterNotes (s : Str) : Prop :=
  s = [] ∨ ∃ r f, IsRef r ∧ Without quarterChars f ∧
    (s = r ++ f ∨ ∃ r2 w, IsRef r2 ∧ Blank w ∧ s = r ++ f ++ r2 ++ w)

/-- A way to write a quarter number: a roman numeral or a digit. -/
def IsQuarter (q : Nat) (s : Str) : Prop := 1 ≤ q ∧ q ≤ 4 ∧ (s = roman q ∨ s = [digit q])

/-- What may come before a numeral: nothing, a star, a footnote reference and blanks. -/
def Lead (s : Str) : Prop :=
  s = [] ∨ s = c!"*" ∨ ∃ r w, IsRef r ∧ Blank w ∧ s = r ++ w

/-- What may come after a year: at most three characters, maybe after a footnote reference and
blanks. -/
def Tail (s : Str) : Prop :=
  s.length ≤ 3 ∨ ∃ r w u, IsRef r ∧ Blank w ∧ u.length ≤ 3 ∧ s = r ++ w ++ u

/-- A separator between a numeral and a year: hyphens, slashes, points, blanks and, not first, the
letter `x`. -/
def Separator (x : Char) (s : Str) : Prop :=
  Only (x :: c!"-/. ") s ∧ ∀ c ∈ s.head?, c ∈ c!"-/. "

/-- Digits and parentheses. -/
def noteChars : Str := c!"0123456789()"

/-- A footnote reference with filler around. -/
def YearNote (s : Str) : Prop :=
  ∃ f r g, Without noteChars f ∧ IsRef r ∧ Without noteChars g ∧ s = f ++ r ++ g

/-- An ASCII letter. -/
def Letter (c : Char) : Prop := ('A' ≤ c ∧ c ≤ 'Z') ∨ ('a' ≤ c ∧ c ≤ 'z')

/-- A word of 3 to 50 letters. -/
def Name (s : Str) : Prop := 3 ≤ s.length ∧ s.length ≤ 50 ∧ ∀ c ∈ s, Letter c

/-- The text does not begin with a letter. -/
def NoLetterFirst (s : Str) : Prop := ∀ c ∈ s.head?, ¬ Letter c

/-- The text does not begin with a digit. -/
def NoDigitFirst (s : Str) : Prop := ∀ c ∈ s.head?, c ∉ digits

/-- A month number as written, with what follows it. -/
def MonthDigits (m : Nat) (mm rest : Str) : Prop :=
  (mm = two m ∧ m < 100) ∨ (mm = [digit m] ∧ m < 10 ∧ NoDigitFirst rest)

/-- A year as written in the text: four digits, or the last two for years of 1969-2068. -/
def YearDigits (y : Nat) (yy rest : Str) : Prop :=
  (yy = four y ∧ y < 10000) ∨ (yy = two (y % 100) ∧ 1969 ≤ y ∧ y ≤ 2068 ∧ NoDigitFirst rest)

/-- A separator between year and month name: nothing, or one of the given characters. -/
def OneSep (cs sep : Str) : Prop := sep = [] ∨ ∃ x ∈ cs, sep = [x]

end Xls.Spec

namespace Xls.Spec

instance (cs s : Str) : Decidable (Only cs s) := by unfold Only; infer_instance
instance (cs s : Str) : Decidable (Without cs s) := by unfold Without; infer_instance
instance (s : Str) : Decidable (Blank s) := by unfold Blank; infer_instance
instance (c : Char) : Decidable (Letter c) := by unfold Letter; infer_instance
instance (s : Str) : Decidable (Name s) := by unfold Name; infer_instance
instance (s : Str) : Decidable (NoDigitFirst s) := by unfold NoDigitFirst; infer_instance
instance (s : Str) : Decidable (NoLetterFirst s) := by unfold NoLetterFirst; infer_instance
instance (x : Char) (s : Str) : Decidable (Separator x s) := by unfold Separator; infer_instance

end Xls.Spec
