/-
Numbers in the cells of a time index.
-/
import Verif.Model.Sheet

set_option autoImplicit false

namespace Xls.Spec

/-- The cell holds a number whose whole part is `n`. -/
def WholePart : Cell → Nat → Prop
  | .int i, n => i = n
  | .float (.fin q), n => (n : Rat) ≤ q ∧ q < n + 1
  | _, _ => False

/-- If the cell holds a number with decimals, its text is `s`. -/
def ShownAs (ext : Ext) (c : Cell) (s : Str) : Prop := ∃ q, c = .float (.fin q) ∧ ext.reprFloat (.fin q) = s

end Xls.Spec
