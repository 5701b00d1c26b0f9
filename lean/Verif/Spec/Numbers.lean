/-
Specification of worksheets with the same dates and headers and other numbers.
-/
import Verif.Spec.Moved
import Verif.Spec.TimeIndex
import Verif.Model.Scraper

set_option autoImplicit false

namespace Xls.Spec

/-- The cell holds this number. -/
def HoldsNumber : Cell → Num → Prop
  | .int i, x => x = .fin i
  | .float y, x => x = y
  | _, _ => False

/-- The cell is blank or holds a date or a text that cannot be read as a number. -/
def NoNumber (ext : Ext) : Cell → Prop
  | .none => True
  | .dt _ => True
  | .str t => ext.floatOfStr t = none ∧ ext.floatOfStr (strip t) = none
  | _ => False

/-- The value equals one of the marks for missing values of the series. -/
def IsMark (sp : SParams) (v : Cell) : Prop :=
  sp.missings = true ∧ ∃ ms, sp.missingValue = .list ms ∧ ∃ m ∈ ms, cellEq v m = true

/-- What the two worksheets have in the same cell of the series: numbers in the relation `R`, neither of them a mark
for missing values; or the same, if that is a mark (without blanks around it) or no number. -/
inductive SameValue (ext : Ext) (R : Num → Num → Prop) (sp : SParams) : Cell → Cell → Prop
  | numbers {v w : Cell} {x y : Num} (hv : HoldsNumber v x) (hw : HoldsNumber w y) (h : R x y) (mv : ¬ IsMark sp v)
      (mw : ¬ IsMark sp w) : SameValue ext R sp v w
  | mark {v : Cell} (h : IsMark sp v) (plain : ∀ t, v = .str t → t ≠ [] ∧ strip t = t) : SameValue ext R sp v v
  | other {v : Cell} (h : NoNumber ext v) : SameValue ext R sp v v

/-- The cell is in the column or row of dates of the series. -/
def InDates (sp : SParams) (r c : Int) : Prop :=
  ∃ a ∈ timeCoords sp.timeHeader, ∃ hr hc pos, coordOf a = .ok (hr, hc) ∧ IsAt sp.alignment hr hc pos r c

/-- The cell is in the column or row of values of the series, from where the data start on. -/
def InValues (sp : SParams) (r c : Int) : Prop :=
  ∃ hr hc pos, coordOf sp.headerCoord = .ok (hr, hc) ∧ sp.dataStarts ≤ pos ∧ IsAt sp.alignment hr hc pos r c

/-- The two worksheets have the same dates and headers, and in the cells of the values the same kind of contents,
where numbers of the first are in the relation `R` to those of the second. Other cells may be different. -/
structure Renumbered (ext : Ext) (R : Num → Num → Prop) (sps : List SParams) (s t : Sheet) : Prop where
  title : t.title = s.title
  rows : t.maxRow = s.maxRow
  cols : t.maxCol = s.maxCol
  dates : ∀ sp ∈ sps, ∀ r c, InDates sp r c → t.cells r c = s.cells r c
  headers : ∀ sp ∈ sps, ∀ a ∈ sp.headerCoord :: sp.composedHeaders.getD [], ∀ r c, coordOf a = .ok (r, c) →
    t.cells r c = s.cells r c
  values : ∀ sp ∈ sps, ∀ r c, InValues sp r c → SameValue ext R sp (s.cells r c) (t.cells r c)

/-- The values of no series are in the column or row of dates of a series. -/
def ValuesApart (sps : List SParams) : Prop := ∀ sp ∈ sps, ∀ sq ∈ sps, ∀ r c, InValues sp r c → ¬ InDates sq r c

/-- Data frames with the same index and columns, whose numbers are in the relation `R`. -/
structure FrameLike (R : Num → Num → Prop) (f g : Frame) : Prop where
  freq : g.freq = f.freq
  index : g.index = f.index
  columns : g.columns = f.columns
  data : List.Forall₂ (List.Forall₂ R) f.data g.data

/-- What two calls give, one data frame or a list of them, where corresponding data frames are in the relation `Q`. -/
inductive DfsRel (Q : Frame → Frame → Prop) : Dfs → Dfs → Prop
  | one {f g : Frame} (h : Q f g) : DfsRel Q (.one f) (.one g)
  | many {fs gs : List Frame} (h : List.Forall₂ Q fs gs) : DfsRel Q (.many fs) (.many gs)

/-- The same index and columns, and numbers in the relation `R`. -/
def DfsLike (R : Num → Num → Prop) : Dfs → Dfs → Prop := DfsRel (FrameLike R)

/-- The data frame with the function applied to all its numbers. -/
def mapFrame (f : Num → Num) (x : Frame) : Frame := { x with data := x.data.map (·.map f) }

/-- The same for what a call gives. -/
def mapDfs (f : Num → Num) : Dfs → Dfs
  | .one x => .one (mapFrame f x)
  | .many xs => .many (xs.map (mapFrame f))

/-- The same for the answer of a call. -/
def mapAnswer (f : Num → Num) : Answer → Answer
  | .dfs d => .dfs (mapDfs f d)
  | .several ds => .several (ds.map (mapDfs f))

end Xls.Spec
