/-
Specification of a table that stands elsewhere on a worksheet, among other things.
-/
import Verif.Spec.Series

set_option autoImplicit false

namespace Xls.Spec

/-- How far a series moves along its direction when its table moves by `dr` rows and `dc` columns. -/
def along (al : Align) (dr dc : Int) : Int := if al = .vertical then dr else dc

/-- The last row of the worksheet for series in columns, the last column for series in rows. -/
def lastUsed (al : Align) (s : Sheet) : Int := if al = .vertical then s.maxRow else s.maxCol

/-- The names of a cell and of the cell `dr` rows and `dc` columns away. -/
def MovedCell (dr dc : Int) (a b : Str) : Prop :=
  ∃ r c r' c' : Nat, 1 ≤ r ∧ 1 ≤ c ∧ 1 ≤ r' ∧ 1 ≤ c' ∧ (r' : Int) = r + dr ∧ (c' : Int) = c + dc ∧
    a = coordStr r c ∧ b = coordStr r' c'

/-- Time headers that name corresponding cells. -/
inductive MovedHeader (dr dc : Int) : TimeHeader → TimeHeader → Prop
  | single {a b : Str} (h : MovedCell dr dc a b) : MovedHeader dr dc (.single a) (.single b)
  | multi {as bs : List Str} (h : List.Forall₂ (MovedCell dr dc) as bs) : MovedHeader dr dc (.multi as) (.multi bs)

/-- A series and the series it becomes when its table moves: all parameters that name cells, rows or columns name
the corresponding ones, all others are the same. -/
structure Moved (al : Align) (dr dc : Int) (sp sp' : SParams) : Prop where
  alignment : sp.alignment = al
  header : MovedCell dr dc sp.headerCoord sp'.headerCoord
  composed : List.Forall₂ (MovedCell dr dc) (sp.composedHeaders.getD []) (sp'.composedHeaders.getD [])
  timeHeader : MovedHeader dr dc sp.timeHeader sp'.timeHeader
  starts : sp'.dataStarts = sp.dataStarts + along al dr dc
  ends : sp'.dataEnds = sp.dataEnds.map (· + along al dr dc)
  rest : sp' = { sp with
    headerCoord := sp'.headerCoord, composedHeaders := sp'.composedHeaders, timeHeader := sp'.timeHeader,
    dataStarts := sp'.dataStarts, dataEnds := sp'.dataEnds }

/-- The rows or columns named by the parameters of the series exist. -/
structure OnSheet (sp : SParams) : Prop where
  starts : 1 ≤ sp.dataStarts
  dates : 1 ≤ sp.dataStarts + sp.timeAlignment
  ends : ∀ e, sp.dataEnds = some e → 1 ≤ e

/-- The cells a time header names. -/
def timeCoords : TimeHeader → List Str
  | .single a => [a]
  | .multi as => as

/-- The positions of the table along the direction of one of its series: from the first value or date on and, if
the ends of all series are given and this one has a single frequency, to the position after the last value or
date. -/
def InReach (sps : List SParams) (sp : SParams) (pos : Int) : Prop :=
  min sp.dataStarts (sp.dataStarts + sp.timeAlignment) ≤ pos ∧
  ((∀ sq ∈ sps, EndGiven sq) → sp.frequency.length = 1 →
    ∀ e, sp.dataEnds = some e → pos ≤ max (e + 1) (e + sp.timeAlignment))

/-- The cells of the table: the headers of the series and all that stands in line with the header of the values or
a header of the dates. -/
def InTable (sps : List SParams) (r c : Int) : Prop :=
  ∃ sp ∈ sps, (∃ a ∈ sp.headerCoord :: sp.composedHeaders.getD [], coordOf a = .ok (r, c)) ∨
    ∃ a ∈ sp.headerCoord :: timeCoords sp.timeHeader, ∃ hr hc pos, coordOf a = .ok (hr, hc) ∧ InReach sps sp pos ∧
      (r, c) = if sp.alignment = .vertical then (pos, hc) else (hr, pos)

/-- A series with several frequencies that lies in a row has a whole cycle of them. -/
def FullCycle (sp : SParams) : Prop :=
  sp.alignment ≠ .vertical → 1 < sp.frequency.length → ∀ e, sp.dataEnds = some e →
    sp.dataStarts + sp.frequency.length ≤ e + 1

end Xls.Spec
