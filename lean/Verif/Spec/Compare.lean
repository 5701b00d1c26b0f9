/-
Numbers, closeness of values and of data frames.
-/
import Verif.Model.Compare
import Mathlib.Algebra.Order.Group.Unbundled.Abs
import Mathlib.Algebra.Order.Ring.Unbundled.Rat
import Mathlib.Data.List.Forall2

set_option autoImplicit false

namespace Xls.Spec

/-- The value is the number `q`. -/
inductive IsNumber : Cell → Rat → Prop
  | int (i : Int) : IsNumber (.int i) i
  | float (q : Rat) : IsNumber (.float (.fin q)) q
  | true : IsNumber (.bool true) 1
  | false : IsNumber (.bool false) 0

/-- What the comparison of two values of a data frame accepts: equal numbers, two missing values, or a
positive number and one that differs from it by at most one part in ten thousand. -/
def CloseNum : Num → Num → Prop
  | .nan, .nan => True
  | .fin a, .fin b => a = b ∨ (0 < a ∧ b ≠ 0 ∧ |a - b| ≤ a / 10000)
  | _, _ => False

/-- The values of the columns named `col` of a data frame. -/
def HasValues (f : Frame) (col : Str) (xs : List Num) : Prop :=
  ∃ i : Nat, f.columns[i]? = some col ∧ f.data[i]? = some xs

/-- A proper data frame: distinct columns, each with a value for each date. -/
structure ProperFrame (f : Frame) : Prop where
  nodup : f.columns.Nodup
  columns : f.columns.length = f.data.length
  values : ∀ d ∈ f.data, d.length = f.index.length

/-- Same frequency, same dates, same columns up to order and close values. -/
structure CloseFrames (f g : Frame) : Prop where
  freq : f.freq = g.freq
  index : f.index = g.index
  columns : ∀ col, col ∈ f.columns ↔ col ∈ g.columns
  values : ∀ col xs ys, HasValues f col xs → HasValues g col ys → List.Forall₂ CloseNum xs ys

/-- Number of seconds of the periods that have a name, the shortest first. -/
def namedSpacings : List (Str × Rat) :=
  [(c!"S", 1), (c!"T", 60), (c!"H", 60 * 60), (c!"D", 24 * 60 * 60), (c!"W", 7 * 24 * 60 * 60),
   (c!"MS", 28 * 24 * 60 * 60), (c!"QS", 90 * 24 * 60 * 60), (c!"AS", 365 * 24 * 60 * 60)]

end Xls.Spec
