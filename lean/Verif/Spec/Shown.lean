/-
How the value of a cell is written as a text.
-/
import Verif.Model.ParseTime

set_option autoImplicit false

namespace Xls.Spec

/-- The text that Python's `str` makes of a value: texts are themselves, an empty cell is `None`, truth values are `True`
and `False`, whole numbers are written in decimal digits, other numbers and dates as the interpreter writes them. -/
def shownAs (ext : Ext) (v : Cell) : Str :=
  match v with
  | .str s => s
  | .none => ['N', 'o', 'n', 'e']
  | .bool b => if b then ['T', 'r', 'u', 'e'] else ['F', 'a', 'l', 's', 'e']
  | .int i => intStr i
  | .float x => ext.reprFloat x
  | .dt t => ext.reprTime t

theorem shownAs_cellStr (ext : Ext) (v : Cell) : shownAs ext v = cellStr ext v := by
  cases v with
  | bool b => cases b <;> rfl
  | _ => rfl

end Xls.Spec
