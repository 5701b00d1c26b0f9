/-
What cells that say the same are; extensions of file names.
-/
import Verif.Spec.Compare

set_option autoImplicit false

namespace Xls.Spec

/-- Equal numbers, or a positive number and one that is not zero and differs from it by at most one part
in a hundred thousand. -/
def CloseReal (p q : Rat) : Prop := p = q ∨ (0 < p ∧ q ≠ 0 ∧ |p - q| ≤ p / 100000)

/-- Two cells say the same: close numbers, two NaN, the same text up to blanks around it, the same time,
two empty cells; an empty cell and a blank text say the same too. -/
inductive SameContent : Cell → Cell → Prop
  | numbers {a b : Cell} {p q : Rat} (ha : IsNumber a p) (hb : IsNumber b q) (h : CloseReal p q) :
      SameContent a b
  | nan : SameContent (.float .nan) (.float .nan)
  | text {s t : Str} (h : strip s = strip t) : SameContent (.str s) (.str t)
  | time (t : Time) : SameContent (.dt t) (.dt t)
  | empty : SameContent .none .none
  | emptyBlank {s : Str} (h : strip s = []) : SameContent .none (.str s)
  | blankEmpty {s : Str} (h : strip s = []) : SameContent (.str s) .none

/-- No text of the worksheet reads as a number. -/
def NoNumeralTexts (ext : Ext) (s : Sheet) : Prop :=
  ∀ r c x, s.cells r c = .str x → ext.floatOfStr x = none

/-- Two worksheets of the same size whose cells say the same. -/
structure SameSheet (s t : Sheet) : Prop where
  rows : s.maxRow = t.maxRow
  cols : s.maxCol = t.maxCol
  cells : ∀ r c, 1 ≤ r → r ≤ s.maxRow → 1 ≤ c → c ≤ s.maxCol → SameContent (s.cells r c) (t.cells r c)

/-- The file name ends with the extension: a dot and letters without further dots. -/
def EndsWithExtension (path ext : Str) : Prop :=
  ∃ base letters, ext = '.' :: letters ∧ '.' ∉ letters ∧ path = base ++ ext

end Xls.Spec
