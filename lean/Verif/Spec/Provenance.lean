/-
Where the numbers of a data frame come from.
-/
import Mathlib.Data.List.Forall2
import Verif.Spec.Extraction

set_option autoImplicit false

namespace Xls.Spec

/-- The number is that of the cell, as it is or without the blanks around a text. -/
def NumberFor (ext : Ext) (v : Cell) (x : Num) : Prop :=
  numberIn ext v = some x ∨ numberIn ext (trimmed v) = some x

/-- The cells of a column from above, or those of a row from the left. -/
def IsLine (s : Sheet) (line : Int → Cell) : Prop :=
  (∃ c, line = fun r => s.cells r c) ∨ (∃ r, line = fun c => s.cells r c)

/-- The values, leaving out NaN, are numbers that stand in different cells of one column (or row) of the
worksheet, in the order of the sheet. -/
def NumbersOf (ext : Ext) (s : Sheet) (values : List Num) : Prop :=
  ∃ (line : Int → Cell) (places : List Int), IsLine s line ∧ places.Pairwise (· < ·) ∧ (∀ k ∈ places, 1 ≤ k) ∧
    List.Forall₂ (fun k x => NumberFor ext (line k) x) places (values.filter (· ≠ .nan))

end Xls.Spec
