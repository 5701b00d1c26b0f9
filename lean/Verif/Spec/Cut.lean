/-
Specification of tables read up to a given row.
-/
import Verif.Spec.Appended

set_option autoImplicit false

namespace Xls.Spec

/-- The same series, said to end at row `n`. -/
def cutAt (n : Int) (sp : SParams) : SParams := { sp with dataEnds := some n }

/-- Every row of the series is read: there are no blank rows and nothing is missing. -/
structure EveryRow (sp : SParams) : Prop where
  continuous : sp.continuity = true
  noBlankRows : sp.blankRows = false
  noMissings : sp.missings = false

end Xls.Spec
