/-
A printed range of cells.
-/
import Verif.Model.Sheet

set_option autoImplicit false

namespace Xls.Spec

/-- A text in a field of a given width: filled up with blanks if it fits, otherwise cut off, three points saying
so. -/
def Fits (text : Str) (width : Nat) (field : Str) : Prop :=
  field.length = width ∧
    if text.length ≤ width then ∃ blanks, field = text ++ blanks ∧ ∀ x ∈ blanks, x = ' '
    else ∃ start, start <+: text ∧ field = start ++ c!"..."

/-- What is printed is a grid: two lines per row of the range, all equally long, and each row has a field for each
column with the text of its cell. -/
structure Grid (text : Nat → Nat → Str) (r1 c1 r2 c2 : Nat) (width : Nat) (lines : List Str) : Prop where
  number : lines.length = 2 * (r2 + 1 - r1)
  even : ∀ l ∈ lines, l.length = (c2 + 1 - c1) * (width + 3) + 2
  single : (∀ r c, '\n' ∉ text r c) → ∀ l ∈ lines, '\n' ∉ l
  fields : ∀ i j, r1 + i ≤ r2 → c1 + j ≤ c2 → ∃ l, lines[2 * i]? = some l ∧
    Fits (text (r1 + i) (c1 + j)) width ((l.drop (j * (width + 3) + 2)).take width)

end Xls.Spec
