/-
Specification of the parameters a user may give.
-/
import Verif.Model.Params
import Verif.Spec.Coords

set_option autoImplicit false

namespace Xls.Spec

/-- The parameter is not given: its name is absent or its value is `None`. -/
def Missing (d : PDict) (n : Name) : Prop := d.get? n = none ∨ d.get? n = some .none

/-- Keys are distinct, as in any Python dictionary. -/
def DistinctKeys (d : PDict) : Prop := (d.map (·.1)).Nodup

/-- The text is a string. -/
def IsText (v : PVal) : Prop := ∃ s, v = .str s

/-- The value is a list. -/
def IsListValue (v : PVal) : Prop := ∃ vs, v = .list vs

/-- An integer; Python's booleans are integers. -/
def IsInteger (v : PVal) : Prop := (∃ i, v = .int i) ∨ ∃ b, v = .bool b

/-- `True` or `False`, or a number equal to one of them (Python: `1 == True`). -/
def TrueOrFalse (v : PVal) : Prop := v.number = some 1 ∨ v.number = some 0

/-- What a frequency text means: `Y` stands for `A`, alone or around four quarters; any other text
for itself, in capitals. -/
def FreqMeans (s f : Str) : Prop :=
  (upper s = c!"Y" ∧ f = c!"A") ∨ (upper s = c!"YQQQQ" ∧ f = c!"AQQQQ") ∨
  (upper s = c!"QQQQY" ∧ f = c!"QQQQA") ∨
  (upper s ≠ c!"Y" ∧ upper s ≠ c!"YQQQQ" ∧ upper s ≠ c!"QQQQY" ∧ f = upper s)

/-- A frequency code: any word of the six letters. -/
def FreqCode (f : Str) : Prop := ∀ c ∈ f, c ∈ c!"ASQMWD"

/-- The values documented for one series (`VALID_VALUES`), for all parameters but the context. -/
def AllowedOne : Name → PVal → Prop
  | .alignment, v => v = .str c!"vertical" ∨ v = .str c!"horizontal"
  | .seriesNames, v => IsText v ∨ v = .none
  | .headersCoord, v => IsText v
  | .composedHeadersCoord, v => IsListValue v ∨ IsText v ∨ v = .none
  | .context, _ => False
  | .dataStarts, v => IsInteger v
  | .dataEnds, v => IsInteger v ∨ v = .none
  | .continuity, v => TrueOrFalse v
  | .blankRows, v => TrueOrFalse v
  | .missings, v => TrueOrFalse v
  | .missingValue, _ => True
  | .timeAlignment, v => v.number = some (-1) ∨ v.number = some 0 ∨ v.number = some 1
  | .timeMulticolumn, v => TrueOrFalse v
  | .timeHeaderCoord, v => IsText v ∨ IsListValue v
  | .timeComposed, v => TrueOrFalse v
  | .frequency, v => ∃ s f, v = .str s ∧ FreqMeans s f ∧ FreqCode f

/-- What may be said about one context: a dictionary, a list, a text or nothing. -/
def AllowedContext (v : PVal) : Prop := (∃ kvs, v = .dict kvs) ∨ IsListValue v ∨ IsText v ∨ v = .none

/-- The values a user may give: for the context a dictionary (or an empty list); for the others one
value for all series, or a list of values. -/
def Allowed (n : Name) (v : PVal) : Prop :=
  (n = .context ∧ ((∃ kvs, v = .dict kvs ∧ ∀ kv ∈ kvs, AllowedContext kv.2) ∨ v = .list [])) ∨
  (n ≠ .context ∧ ((∃ vs, v = .list vs ∧ ∀ x ∈ vs, AllowedOne n x) ∨
    (¬ IsListValue v ∧ AllowedOne n v)))

/-- Neither `False` nor an empty text or list. -/
def SaysSomething (v : PVal) : Prop :=
  v = .bool true ∨ (∃ c s, v = .str (c :: s)) ∨ ∃ x xs, v = .list (x :: xs)

/-- Parameters whose values the build neither computes nor overrides. -/
def PlainName (n : Name) (v : PVal) : Prop :=
  (n ∈ [Name.seriesNames, .dataStarts, .dataEnds, .continuity, .blankRows, .missings,
    .timeComposed, .timeAlignment] ∧ v ≠ .none) ∨
  ((n = .alignment ∨ n = .timeMulticolumn) ∧ SaysSomething v)

/-- A text for header cells, in capitals or not, and the cells it stands for: one cell, or a range
written with `-` or `:`. -/
def HeaderText (s : Str) (ps : List Pos) : Prop :=
  (∃ p : Pos, 1 ≤ p.1 ∧ 1 ≤ p.2 ∧ upper s = coordStr p.1 p.2 ∧ ps = [p]) ∨
  (∃ (a b : Pos) (sep : Char), (sep = '-' ∨ sep = ':') ∧ Positive [a, b] ∧
    upper s = coordStr a.1 a.2 ++ sep :: coordStr b.1 b.2 ∧ IsRectangle a b ps)

/-- A value that stands for some cells: one such text, or a list of them. -/
def StandsFor (v : PVal) (ps : List Pos) : Prop :=
  (∃ s, v = .str s ∧ HeaderText s ps) ∨
  ∃ ss pss, v = .list (ss.map .str) ∧ ss ≠ [] ∧ List.Forall₂ HeaderText ss pss ∧ ps = pss.flatten

/-- A composed header and its parts: the coordinates joined by underscores, the last one being the
header itself. -/
def Composed (h : Str) (above : List Str) (header : Str) : Prop :=
  joinWith ['_'] (above ++ [header]) = h ∧ ∀ x ∈ above ++ [header], '_' ∉ x

/-- The cells lie in one row, each in its own column: headers of vertical series. -/
def SpreadRow (ps : List Pos) : Prop := OneRow ps ∧ (ps.map (·.2)).Nodup

/-- The cells lie in one column, each in its own row: headers of horizontal series. -/
def SpreadColumn (ps : List Pos) : Prop := OneColumn ps ∧ (ps.map (·.1)).Nodup

/-- Where the data start, for the first series: the value given, or the first one of a list. -/
def FirstStart (v : PVal) (k : Int) : Prop := v = .int k ∨ ∃ rest, v = .list (.int k :: rest)

/-- A header lies in the scope of a group of cells: below one of them, for cells of one row; to the
right of one of them, for cells of one column. -/
def InScope (h : Pos) (cells : List Pos) : Prop :=
  (∃ row, (∀ p ∈ cells, p.1 = row) ∧ row ≤ h.1 ∧ ∃ p ∈ cells, p.2 = h.2) ∨
  (∃ col, (∀ p ∈ cells, p.2 = col) ∧ col ≤ h.2 ∧ ∃ p ∈ cells, p.1 = h.1)

/-- A group of context cells: at least two different cells of one row or of one column. -/
def CellGroup (cells : List Pos) : Prop :=
  2 ≤ cells.length ∧ cells.Nodup ∧ Positive cells ∧ (OneRow cells ∨ OneColumn cells)

/-- The same groups, widest first; groups of the same width keep their order. -/
structure WidestFirst (groups ordered : List (Str × List Pos)) : Prop where
  same : ordered.Perm groups
  widest : ordered.Pairwise fun a b => b.2.length ≤ a.2.length
  stable : ∀ n, ordered.filter (fun g => g.2.length = n) = groups.filter (fun g => g.2.length = n)

/-- An object whose parameters are missing or have one entry for each of `N` series. -/
def PerSeries (p : Params) (N : Nat) : Prop :=
  ∀ n, p n = .none ∨ ∃ vs, p n = .list vs ∧ vs.length = N

/-- A cell without a value, as Python's `not` sees it: empty, an empty text, zero or `False`. -/
def BlankValue (c : Cell) : Prop :=
  c = .none ∨ c = .str [] ∨ c = .int 0 ∨ c = .bool false ∨ c = .float (.fin 0)

/-- The composed header cells of a series: a list of coordinates, or nothing. -/
def ComposedCells (v : PVal) (cells : List Pos) : Prop :=
  v = .list (names cells) ∨ (v = .none ∧ cells = [])

/-- How long the lists are that a dictionary gives: the header cells, the cells of the time header (ranges unpacked)
and the lists of the other parameters, except `missing_value`, whose list is not one of entries per series. -/
def ListLength (d : PDict) (len : Nat) : Prop :=
  ∃ (n : Name) (v : PVal) (vs : List PVal), d.get? n = some v ∧ vs.length = len ∧
    if n = .headersCoord ∨ n = .timeHeaderCoord then unpackRanges v = .ok (.list vs)
    else n ≠ .missingValue ∧ v = .list vs

end Xls.Spec
