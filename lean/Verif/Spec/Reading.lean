/-
What is read at a position of a time index, in one column (row) or in several.
-/
import Verif.Spec.TimeIndex

set_option autoImplicit false

namespace Xls.Spec

/-- What a cell of a time index in several columns adds to the text: nothing if it is empty, zero, false or
the text `None`; of a number the part before the point; a text as it is, unless it is a whole number (which texts
`pyInt` takes is said by `Spec.WholeNumber`). -/
def partOf (ext : Ext) : Cell → Option Str
  | .none => none
  | .bool b => if b then some c!"1" else none
  | .int i => if i = 0 then none else some (intStr i)
  | .float .nan => some (ext.reprFloat .nan)
  | .float (.fin q) => if q = 0 then none else some (intStr (truncRat q))
  | .str t =>
    if t = [] ∨ t = c!"None" then none
    else match pyInt t with
      | some i => some (intStr i)
      | none => some t
  | .dt _ => none

/-- The parts with a blank between any two; no text if they are blank. -/
def joinParts (parts : List Str) : Cell :=
  if ∀ c ∈ c!" ".intercalate parts, isSpace c = true then .none else .str (c!" ".intercalate parts)

/-- The cell at a position of the column (row) of a coordinate. -/
def cellBeside (s : Sheet) (al : Align) (coord : Str) (pos : Int) : Cell :=
  match coordOf coord with
  | .ok (r, c) => timeCell s al r c pos
  | .error _ => .none

/-- What is read at a position of the time index: the cell or, in several columns (rows), the text the cells
make together. -/
def readCell (ext : Ext) (sp : SParams) (s : Sheet) (pos : Int) : Cell :=
  match sp.timeHeader with
  | .single coord => cellBeside s sp.alignment coord pos
  | .multi coords => joinParts (coords.filterMap fun coord => partOf ext (cellBeside s sp.alignment coord pos))

/-- What is read from position `lo` to position `hi`. -/
def readsAlong (ext : Ext) (sp : SParams) (s : Sheet) (lo hi : Int) : List Cell :=
  (List.range (hi + 1 - lo).toNat).map fun i : Nat => readCell ext sp s (lo + i)

/-- The header of the time index is one coordinate, or several if the parameters say so; `(tr, tc)` is the
first. -/
structure TimeHeaderAt (sp : SParams) (tr tc : Int) : Prop where
  kind : sp.timeMulticolumn = true ↔ ∃ coords, sp.timeHeader = .multi coords
  first : HeaderAt sp tr tc
  readable : ∀ coords, sp.timeHeader = .multi coords → ∀ coord ∈ coords, ∃ rc, coordOf coord = .ok rc

/-- In several columns (rows), none of the cells at the position is a date. -/
def PlainAt (sp : SParams) (s : Sheet) (pos : Int) : Prop :=
  ∀ coords, sp.timeHeader = .multi coords → ∀ coord ∈ coords, ∀ t,
    cellBeside s sp.alignment coord pos ≠ .dt t

end Xls.Spec
