/-
Specification of series that are described in the same way but for their names.
-/
import Verif.Spec.Retitled
import Verif.Spec.Scraper

set_option autoImplicit false

namespace Xls.Spec

/-- The series have the same parameters apart from those that say how the series is called: its name, further headers
and the context. -/
def OtherName (x y : SParams) : Prop :=
  y = { x with seriesName := y.seriesName, composedHeaders := y.composedHeaders, context := y.context }

/-- The name of the series can be made up: its header has an address, and if no name is given, the further headers are
texts and not among the dates. -/
structure Nameable (sps : List SParams) (s : Sheet) (sp : SParams) : Prop where
  header : ∃ r c, coordOf sp.headerCoord = .ok (r, c)
  composed : Unnamed sp → ∀ a ∈ sp.composedHeaders.getD [], ∃ r c, coordOf a = .ok (r, c) ∧ HoldsText (s.cells r c) ∧
    ∀ sq ∈ sps, ¬ InDates sq r c

end Xls.Spec
