/-
Specification of series that have their dates in common.
-/
import Verif.Spec.Series

set_option autoImplicit false

namespace Xls.Spec

/-- The series differ at most in what they are called and where their values are. -/
def SameDates (x y : SParams) : Prop :=
  y = { x with
    seriesName := y.seriesName, headerCoord := y.headerCoord, composedHeaders := y.composedHeaders, context := y.context }

end Xls.Spec
