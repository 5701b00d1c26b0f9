/-
Vocabulary to state what is extracted from a worksheet.
-/
import Verif.Spec.Frequency

set_option autoImplicit false

namespace Xls.Spec

/-- The values of the cells at positions `lo`, ..., `hi` of the column (row) of the cell `(hr, hc)`, in
sheet order. -/
def cellsAlong (s : Sheet) (al : Align) (hr hc lo hi : Int) : List Cell :=
  (List.range (hi + 1 - lo).toNat).map fun i : Nat => timeCell s al hr hc (lo + i)

/-- `s'` is `s` with the dates of `ts` at the positions from `start` on; where `ts` has no date the
cell is as it was. -/
structure DatesWritten (s s' : Sheet) (al : Align) (hr hc start : Int) (ts : List (Option Time)) : Prop where
  dates : ∀ (i : Nat) (t : Time), ts[i]? = some (some t) → timeCell s' al hr hc (start + i) = .dt t
  others : ∀ r c, (∀ (i : Nat) (t : Time), ts[i]? = some (some t) → ¬ IsAt al hr hc (start + i) r c) →
    s'.cells r c = s.cells r c

/-- The number a cell holds: a number, a truth value or a text the float parser reads. -/
def numberIn (ext : Ext) : Cell → Option Num
  | .bool true => some (.fin 1)
  | .bool false => some (.fin 0)
  | .int i => some (.fin i)
  | .float x => some x
  | .str s => ext.floatOfStr s
  | _ => none

/-- A content that can be compared: nothing, a text or a number. -/
inductive Plain
  | nothing
  | text (s : Str)
  | number (q : Rat)
  deriving DecidableEq

/-- Content of a cell; dates and NaN compare with nothing. -/
def plainCell : Cell → Option Plain
  | .none => some .nothing
  | .bool b => some (.number (if b then 1 else 0))
  | .int i => some (.number i)
  | .float (.fin q) => some (.number q)
  | .float .nan => none
  | .str s => some (.text s)
  | .dt _ => none

/-- Content of a parameter value. -/
def plainParam : PVal → Option Plain
  | .none => some .nothing
  | .bool b => some (.number (if b then 1 else 0))
  | .int i => some (.number i)
  | .float (.fin q) => some (.number q)
  | .str s => some (.text s)
  | _ => none

/-- A cell content is one of the given missing markers. -/
def IsMarker (markers : List PVal) (c : Cell) : Prop :=
  ∃ p, plainCell c = some p ∧ ∃ m ∈ markers, plainParam m = some p

instance (markers : List PVal) (c : Cell) : Decidable (IsMarker markers c) :=
  match h : plainCell c with
  | none => .isFalse (by rintro ⟨p, hp, _⟩; rw [h] at hp; cases hp)
  | some p =>
    if hm : ∃ m ∈ markers, plainParam m = some p then .isTrue ⟨p, h, hm⟩
    else .isFalse (by
      rintro ⟨q, hq, hm'⟩
      rw [h] at hq; cases hq
      exact hm hm')

/-- The content of a cell without blanks around it. -/
def trimmed : Cell → Cell
  | .str s => .str (strip s)
  | c => c

/-- The value a cell stands for when missing values are marked: NaN for a marker, its number
otherwise; `none` if it has no value. -/
def valueOf (ext : Ext) (markers : List PVal) (c : Cell) : Option Num :=
  if IsMarker markers (trimmed c) then some .nan else numberIn ext (trimmed c)

/-- A text of blanks only counts as nothing. -/
def blankAsNothing (c : Cell) : Cell :=
  match c with
  | .str s => if s.all isSpace then .none else .str s
  | c => c

/-- The value of a data cell of a non-continuous series. -/
def looseValue (ext : Ext) (missings : Bool) (markers : List PVal) (c : Cell) : Option Num :=
  if missings = true ∧ IsMarker markers (blankAsNothing c) then some .nan
  else numberIn ext (blankAsNothing c)

/-- Is there a date-time in the cell? -/
def IsDate : Cell → Prop
  | .dt _ => True
  | _ => False

instance (c : Cell) : Decidable (IsDate c) := by cases c <;> unfold IsDate <;> infer_instance

/-- The parameters describe the data cells at positions `data_starts` to `last` of the column (row)
with header cell `(hr, hc)`. -/
structure DataCells (sp : SParams) (hr hc last : Int) : Prop where
  header : coordOf sp.headerCoord = .ok (hr, hc)
  aligned : sp.alignment = .vertical ∨ sp.alignment = .horizontal
  starts : 1 ≤ sp.dataStarts
  ends : sp.dataEnds = some last

/-- `grid` is a run of consecutive periods, some of which are the dates `ts`, the first and the last
ones included. -/
structure OnGrid (freq : Str) (grid ts : List Time) : Prop where
  valid : ∀ t ∈ grid, ValidTime t
  steps : Consecutive freq grid
  sub : ts.Sublist grid
  first : ts.head? = grid.head?
  last : ts.getLast? = grid.getLast?

/-- `ys` has one entry per period of `grid`: the value `x` observed at that date, NaN if there is no
observation. -/
structure Placed (grid ts : List Time) (xs ys : List Num) : Prop where
  size : ys.length = grid.length
  observed : ∀ t x, (t, x) ∈ ts.zip xs → ∃ i : Nat, grid[i]? = some t ∧ ys[i]? = some x
  others : ∀ (i : Nat) t, grid[i]? = some t → t ∉ ts → ys[i]? = some .nan

/-- The distinct letters of the first `n` periods of a series that cycles through `pattern`, in order
of appearance. -/
def lettersSeen (pattern : Str) (n : Nat) : List Char :=
  ((List.range n).filterMap (letterAt pattern)).eraseDups

end Xls.Spec
