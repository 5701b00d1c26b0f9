/-
The text representation of a range of cells.
-/
import Verif.Model.ParseTime
import Verif.Model.PeriodRange

set_option autoImplicit false

namespace Xls

/-- What is printed of one cell, `xlseries/utils/xl_methods.py:337-343`: `value[:width - 3]` counts from the end
if `width` is less than 3. -/
def shownCell (ext : Ext) (s : Sheet) (width : Int) (r c : Nat) : Str :=
  let value := coordStr r c ++ c!": " ++ cellStr ext (s.cells r c)
  if width < value.length then pySlice value 0 (width - 3) ++ c!"..."
  else value ++ List.replicate (width - value.length).toNat ' '

/-- The rows from `a` to `b`, or the columns. -/
def fromTo (a b : Nat) : List Nat := List.range' a (b + 1 - a)

/-- The line of a row, `xl_methods.py:335-349`. -/
def rowLine (ext : Ext) (s : Sheet) (c1 c2 : Nat) (width : Int) (r : Nat) : Str :=
  ((fromTo c1 c2).flatMap fun c => c!"| " ++ shownCell ext s width r c ++ c!" ") ++ c!"| "

/-- The line below a row, `xl_methods.py:351-354`. -/
def ruleLine (c1 c2 : Nat) (width : Int) : Str :=
  ((fromTo c1 c2).flatMap fun _ => c!"| " ++ List.replicate width.toNat '-' ++ c!" ") ++ c!"| "

/-- `print_xl_range`, `xl_methods.py:326-354`: what is printed and the worksheet afterwards, in which the cells of
the range exist. The range is given by the numbers of its first and last row and column. Simplification: how
openpyxl reads them from `cells_range` is not modelled. -/
def printRange (ext : Ext) (s : Sheet) (r1 c1 r2 c2 : Nat) (width : Int) : Str × Sheet :=
  ((fromTo r1 r2).flatMap fun r => rowLine ext s c1 c2 width r ++ c!"\n" ++ ruleLine c1 c2 width ++ c!"\n",
    if r1 ≤ r2 ∧ c1 ≤ c2 then s.touch r2 c2 else s)

end Xls
