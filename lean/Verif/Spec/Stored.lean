/-
Stored data frames: which file a path means and which data frames can be loaded again.
-/
import Verif.Model.Stored
import Verif.Spec.Result

set_option autoImplicit false

namespace Xls.Spec

/-- The endings of files with data frames, in the order in which they are looked for. -/
def endings : List Str := [c!".xlsx", c!".csv", c!".json"]

/-- The path ends that way. -/
def EndsWith (path ending : Str) : Prop := ∃ base, path = base ++ ending

/-- The number of rows from which on the distance of the first and the last date, divided by the number of
rows, is within a tenth of the nominal length of a period, however the months fall. -/
def rowsNeeded (freq : Str) : Option Nat :=
  if freq = c!"D" then some 10
  else if freq = c!"W-SUN" then some 10
  else if freq = c!"MS" then some 7
  else if freq = c!"QS-JAN" then some 9
  else if freq = c!"AS-JAN" then some 10
  else none

/-- Nothing but the name of the frequency is lost in a file. -/
def SameTable (g f : Frame) : Prop := g.index = f.index ∧ g.columns = f.columns ∧ g.data = f.data

/-- The files that are to be written for workbooks with one data frame each. -/
def copiesOf : List (Str × Frame) → List (Str × Frame)
  | [] => []
  | (base, f) :: rest => (base ++ c!".json", f) :: (base ++ c!".csv", f) :: copiesOf rest

end Xls.Spec
