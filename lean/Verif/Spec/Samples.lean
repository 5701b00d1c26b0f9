/-
Concrete data for the examples beside the theorems. No theorem depends on this file's values except
the witnesses of violated properties.
-/
import Verif.Model.TimeIndex

set_option autoImplicit false

namespace Xls.Sample

/-- A date library that parses nothing and knows no month. -/
def ext0 : Ext where
  unidecode := id
  floatOfStr := fun _ => none
  reprFloat := fun _ => c!"nan"
  monthNumber := fun _ => none
  arrowParse := fun _ _ => none
  reprTime := fun _ => []
  now := ⟨2000, 1, 1, 0⟩
  arrowOfCell := fun _ => none
  pandasTime := fun _ => none
  businessDays := fun _ _ => []

/-- A sheet whose first column holds the given values from row 1 on. -/
def column (vs : List Cell) : Sheet where
  title := c!"S"
  cells := fun r c => if c = 1 ∧ 1 ≤ r then vs.getD (r.toNat - 1) .none else .none
  maxRow := vs.length
  maxCol := 1

/-- A sheet with the given rows. -/
def rows (vs : List (List Cell)) : Sheet where
  title := c!"S"
  cells := fun r c => if 1 ≤ c ∧ 1 ≤ r then (vs.getD (r.toNat - 1) []).getD (c.toNat - 1) .none else .none
  maxRow := vs.length
  maxCol := (vs.getD 0 []).length

/-- Rows and columns exchanged. -/
def transpose (s : Sheet) : Sheet where
  title := s.title
  cells := fun r c => s.cells c r
  maxRow := s.maxCol
  maxCol := s.maxRow

/-- A cell with a date at midnight. -/
def day (y m d : Nat) : Cell := .dt ⟨y, m, d, 0⟩

/-- Parameters of a vertical series with time header `A1` and data from row 2 on. -/
def monthly : SParams where
  alignment := .vertical
  seriesName := none
  headerCoord := c!"B1"
  composedHeaders := none
  context := none
  dataStarts := 2
  dataEnds := none
  continuity := true
  blankRows := false
  missings := false
  missingValue := .list []
  timeAlignment := 0
  timeMulticolumn := false
  timeHeader := .single c!"A1"
  timeComposed := false
  frequency := c!"M"

end Xls.Sample
