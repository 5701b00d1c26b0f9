/-
Specification of a worksheet with rows and columns exchanged and of series described accordingly.
-/
import Verif.Spec.Series

set_option autoImplicit false

namespace Xls.Spec

/-- The worksheet with rows and columns exchanged. -/
def turned (s : Sheet) : Sheet where
  title := s.title
  cells := fun r c => s.cells c r
  maxRow := s.maxCol
  maxCol := s.maxRow

/-- The names of a cell and of the cell it becomes when rows and columns are exchanged. -/
def TurnedCell (a b : Str) : Prop :=
  ∃ r c : Nat, 1 ≤ r ∧ 1 ≤ c ∧ a = coordStr r c ∧ b = coordStr c r

/-- Time headers that name corresponding cells. -/
inductive TurnedHeader : TimeHeader → TimeHeader → Prop
  | single {a b : Str} (h : TurnedCell a b) : TurnedHeader (.single a) (.single b)
  | multi {as bs : List Str} (h : List.Forall₂ TurnedCell as bs) : TurnedHeader (.multi as) (.multi bs)

/-- A vertical series and the horizontal one it becomes: all parameters that name cells name the
corresponding ones, all others are the same. -/
structure Turned (sp sp' : SParams) : Prop where
  vertical : sp.alignment = .vertical
  horizontal : sp'.alignment = .horizontal
  header : TurnedCell sp.headerCoord sp'.headerCoord
  composed : List.Forall₂ TurnedCell (sp.composedHeaders.getD []) (sp'.composedHeaders.getD [])
  timeHeader : TurnedHeader sp.timeHeader sp'.timeHeader
  rest : sp' = { sp with
    alignment := sp'.alignment, headerCoord := sp'.headerCoord, composedHeaders := sp'.composedHeaders,
    timeHeader := sp'.timeHeader }

/-- If the series has several frequencies, its positions make up whole cycles of them. -/
def WholeCycles (sp : SParams) : Prop :=
  1 < sp.frequency.length → ∀ e, sp.dataEnds = some e → (sp.frequency.length : Int) ∣ e - sp.dataStarts + 1

/-- The dates of the series are in one column or row, in line with its values, and its end is given. -/
structure DatesInLine (sp : SParams) : Prop where
  single : sp.timeMulticolumn = false
  inLine : sp.timeAlignment = 0
  given : EndGiven sp

/-- Every position of a vertical series, from its start to its end, has a date on the worksheet. -/
def DateInEvery (sp : SParams) (s : Sheet) : Prop :=
  ∀ r c e pos, timeHeaderCell sp.timeHeader = .ok (r, c) → sp.dataEnds = some e → sp.dataStarts ≤ pos → pos ≤ e →
    ∃ t, s.cells pos c = .dt t

end Xls.Spec
