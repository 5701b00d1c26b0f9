/-
Specification of missing markers that tell the same cells.
-/
import Verif.Spec.Extraction
import Verif.Spec.NameParts

set_option autoImplicit false

namespace Xls.Spec

/-- The parameter `n` has the value `x` for the series with number `i`. -/
def ValueAt (p : Params) (n : Name) (i : Nat) (x : PVal) : Prop := ∃ vs, p n = .list vs ∧ vs[i]? = some x

/-- The parameters are the same apart from the missing markers. -/
def SameButMarkers (p q : Params) : Prop := ∀ n, n ≠ .missingValue → q n = p n

/-- Two lists of markers tell the same contents of cells as missing, and both or none ask for dates left out to be
filled in. The cells are compared without the blanks around a text, and with a text of blanks as nothing. -/
def TellSame (s : Sheet) (ms ms' : List PVal) : Prop :=
  (IsMarker ms' (.str c!"Implicit") ↔ IsMarker ms (.str c!"Implicit")) ∧
  ∀ r c, (IsMarker ms' (trimmed (s.cells r c)) ↔ IsMarker ms (trimmed (s.cells r c))) ∧
    (IsMarker ms' (blankAsNothing (s.cells r c)) ↔ IsMarker ms (blankAsNothing (s.cells r c)))

/-- For every series with missing values the markers are lists that tell the same cells of the worksheet. -/
def MarkersTellSame (s : Sheet) (p q : Params) : Prop :=
  ∀ i b m m', ValueAt p .missings i b → ValueAt p .missingValue i m → ValueAt q .missingValue i m' →
    CountsFalse b ∨ ∃ ms ms', m = .list ms ∧ m' = .list ms' ∧ TellSame s ms ms'

end Xls.Spec
