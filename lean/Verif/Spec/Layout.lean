/-
Tables of series that share one time index, in terms of what is written in the cells: how the dates
are written, where the index ends, which values and names the series have.
-/
import Verif.Spec.Series
import Verif.Spec.Reading
import Verif.Spec.Periods
import Verif.Spec.TimeText
import Verif.Spec.NumberCells
import Verif.Spec.Shown
import Verif.Model.GetData

set_option autoImplicit false

namespace Xls.Spec

/-! ### Dates -/

/-- Ways to write the dates of a time index. -/
inductive Style
  /-- date cells -/
  | dates
  /-- `2001 I trim.`, `II trim.` -/
  | yearQuarter
  /-- `I.2001` -/
  | quarterYear
  /-- `1° trim. 01` -/
  | quarterShortYear
  /-- `I.01` -/
  | romanShortYear
  /-- `2001 (1)` -/
  | year
  /-- `2001/02` -/
  | campaign
  /-- `ene-01`, `Feb` -/
  | monthName
  /-- `2001.01`, `02` -/
  | monthNumber
  /-- `I.S.03`, `II.S.` -/
  | semester
  deriving DecidableEq

/-- The parameters for a style: composed dates of the frequency it is for, or plain dates. -/
def Style.Fits (composed : Bool) (freq : Str) : Style → Prop
  | .dates => composed = false
  | .yearQuarter | .quarterYear | .quarterShortYear | .romanShortYear => composed = true ∧ freq = c!"Q"
  | .year | .campaign => composed = true ∧ freq = c!"A"
  | .monthName | .monthNumber => composed = true ∧ freq = c!"M"
  | .semester => composed = true ∧ freq = c!"S"

/-- The cell, after the date `last` (if any), says the date `t`. Texts are meant without accents (as the
transliteration library has it) and without blanks around. -/
inductive CellSays (ext : Ext) : Style → Option Time → Cell → Time → Prop
  | date {last : Option Time} {t : Time} : CellSays ext .dates last (.dt t) t
  | yearAndQuarter {last : Option Time} {raw f1 f2 num f3 notes : Str} {n q : Nat}
      (htext : strip (ext.unidecode raw) = f1 ++ four n ++ f2 ++ num ++ f3 ++ notes)
      (hyear : 1 ≤ n ∧ n ≤ 9999) (hquarter : IsQuarter q num) (hfiller1 : Without quarterChars f1)
      (hfiller2 : Without quarterChars f2) (hfiller3 : Without quarterChars f3) (hnotes : QuarterNotes notes) :
      CellSays ext .yearQuarter last (.str raw) ⟨n, 3 * q - 2, 1, 0⟩
  | quarterAlone {l : Time} {raw f1 num f3 notes : Str} {q : Nat}
      (htext : strip (ext.unidecode raw) = f1 ++ num ++ f3 ++ notes) (hlast : ValidTime l)
      (hquarter : IsQuarter q num) (hfiller1 : Without quarterChars f1) (hfiller3 : Without quarterChars f3)
      (hnotes : QuarterNotes notes) :
      CellSays ext .yearQuarter (some l) (.str raw) ⟨l.year, 3 * q - 2, 1, 0⟩
  | quarterAndYear {last : Option Time} {raw lead sep tail : Str} {n q : Nat}
      (htext : strip (ext.unidecode raw) = lead ++ roman q ++ sep ++ four n ++ tail)
      (hyear : 1 ≤ n ∧ n ≤ 9999) (hquarter : 1 ≤ q ∧ q ≤ 4) (hlead : Lead lead) (hsep : Separator 'T' sep)
      (htail : Tail tail) : CellSays ext .quarterYear last (.str raw) ⟨n, 3 * q - 2, 1, 0⟩
  | numberAndShortYear {last : Option Time} {raw b w1 c w2 tail : Str} {y q : Nat}
      (htext : strip (ext.unidecode raw) =
        digit q :: (b ++ (w1 ++ (c ++ (w2 ++ (two (y % 100) ++ tail))))))
      (hyear : 1969 ≤ y ∧ y ≤ 2068) (hquarter : 1 ≤ q ∧ q ≤ 4)
      (hword1 : ∀ x ∈ b, isSpace x = false ∧ x ∉ quarterChars) (hblanks1 : ∀ x ∈ w1, x = ' ')
      (hword2 : ∀ x ∈ c, isSpace x = false ∧ x ∉ quarterChars) (hblanks2 : ∀ x ∈ w2, x = ' ')
      (hbetween : b ++ w1 ++ c ++ w2 ≠ []) (htail : Tail tail) :
      CellSays ext .quarterShortYear last (.str raw) ⟨y, 3 * q - 2, 1, 0⟩
  | romanAndShortYear {last : Option Time} {raw lead sep tail : Str} {y q : Nat}
      (htext : strip (ext.unidecode raw) = lead ++ roman q ++ sep ++ two (y % 100) ++ tail)
      (hyear : 1969 ≤ y ∧ y ≤ 2068) (hquarter : 1 ≤ q ∧ q ≤ 4) (hlead : lead = [] ∨ lead = c!"*")
      (hsep : Separator 'T' sep) (htail : Tail tail) (htail' : NoDigitFirst tail) :
      CellSays ext .romanShortYear last (.str raw) ⟨y, 3 * q - 2, 1, 0⟩
  | year {last : Option Time} {raw lead f g r g' : Str} {n : Nat}
      (htext : strip (ext.unidecode raw) = lead ++ f ++ four n ++ g ++ r ++ g')
      (hyear : 1 ≤ n ∧ n ≤ 9999) (hlead : lead = [] ∨ YearNote lead) (hfiller1 : Without noteChars f)
      (hfiller2 : Without noteChars g) (hnote : r = [] ∨ IsRef r) (hfiller3 : Without noteChars g')
      (hend : r = [] → g' = []) : CellSays ext .year last (.str raw) ⟨n, 1, 1, 0⟩
  | campaign {last : Option Time} {raw lead trail : Str} {n k : Nat}
      (htext : strip (ext.unidecode raw) = lead ++ four n ++ c!"/" ++ two k ++ trail)
      (hyear : 1 ≤ n ∧ n ≤ 9999) (hlead : lead = [] ∨ YearNote lead) (htrail : trail = [] ∨ YearNote trail) :
      CellSays ext .campaign last (.str raw) ⟨n, 1, 1, 0⟩
  | yearAndMonth {last : Option Time} {raw sep mm rest : Str} {n m : Nat}
      (htext : (strip (ext.unidecode raw) = four n ++ sep ++ mm ++ rest ∧ MonthDigits m mm rest) ∨
        (strip (ext.unidecode raw) = mm ++ sep ++ four n ++ rest ∧ sep ≠ [] ∧
          MonthDigits m mm (sep ++ (four n ++ rest))))
      (hyear : 1 ≤ n ∧ n ≤ 9999) (hmonth : 1 ≤ m ∧ m ≤ 12) (hsep : Without digits sep)
      (hnoLetter : ∀ c ∈ strip (ext.unidecode raw), ¬ Letter c) :
      CellSays ext .monthNumber last (.str raw) ⟨n, m, 1, 0⟩
  | monthAlone {l : Time} {raw mm rest : Str} {m : Nat}
      (htext : strip (ext.unidecode raw) = mm ++ rest) (hdigits : MonthDigits m mm rest) (hlast : ValidTime l)
      (hmonth : 1 ≤ m ∧ m ≤ 12) (hrest : Without digits rest)
      (hnoLetter : ∀ c ∈ strip (ext.unidecode raw), ¬ Letter c) :
      CellSays ext .monthNumber (some l) (.str raw) ⟨l.year, m, 1, 0⟩
  | yearAndName {last : Option Time} {raw yy w1 sep w2 w3 name dot note rest : Str} {y m : Nat}
      (htext : (strip (ext.unidecode raw) = yy ++ w1 ++ sep ++ w2 ++ name ++ rest ∧
          YearDigits y yy (w1 ++ (sep ++ (w2 ++ (name ++ rest)))) ∧ OneSep c!".-/," sep ∧
          NoLetterFirst rest) ∨
        (strip (ext.unidecode raw) =
            name ++ (dot ++ (w1 ++ (note ++ (w2 ++ (sep ++ (w3 ++ (yy ++ rest))))))) ∧
          YearDigits y yy rest ∧ OneSep c!"-/," sep ∧ (dot = [] ∨ dot = c!".") ∧
          (note = [] ∨ IsRef note)))
      (hblank1 : Blank w1) (hblank2 : Blank w2) (hblank3 : Blank w3) (hword : Name name)
      (hyear : 1 ≤ y ∧ y ≤ 9999) (hmonth : 1 ≤ m ∧ m ≤ 12)
      (htable : ext.monthNumber (capitalize name) = some m) :
      CellSays ext .monthName last (.str raw) ⟨y, m, 1, 0⟩
  | nameAlone {l : Time} {raw name rest : Str} {m : Nat}
      (htext : strip (ext.unidecode raw) = name ++ rest) (hword : Name name) (hfirst : NoLetterFirst rest)
      (hrest : Without digits rest) (hlast : ValidTime l) (hmonth : 1 ≤ m ∧ m ≤ 12)
      (htable : ext.monthNumber (capitalize name) = some m) :
      CellSays ext .monthName (some l) (.str raw) ⟨l.year, m, 1, 0⟩
  | semesterAndYear {last : Option Time} {raw lead sep tail : Str} {y q : Nat}
      (htext : strip (ext.unidecode raw) = lead ++ roman q ++ sep ++ two (y % 100) ++ tail)
      (hyear : 1969 ≤ y ∧ y ≤ 2068) (hsemester : 1 ≤ q ∧ q ≤ 2) (hlead : Lead lead) (hsep : Separator 'S' sep)
      (htail : Tail tail) : CellSays ext .semester last (.str raw) ⟨y, 6 * q - 5, 1, 0⟩
  | semesterAlone {l : Time} {raw lead sep : Str} {q : Nat}
      (htext : strip (ext.unidecode raw) = lead ++ roman q ++ sep) (hlast : ValidTime l)
      (hsemester : 1 ≤ q ∧ q ≤ 2) (hlead : Lead lead) (hsep : Separator 'S' sep) :
      CellSays ext .semester (some l) (.str raw) ⟨l.year, 6 * q - 5, 1, 0⟩
  /-- a number in place of a text: a year -/
  | yearNumber {last : Option Time} {c : Cell} {n : Nat} (hnumber : WholePart c n) (hyear : 1000 ≤ n ∧ n ≤ 9999) :
      CellSays ext .year last c ⟨n, 1, 1, 0⟩
  /-- a quarter of the year of the date before -/
  | quarterNumber {l : Time} {c : Cell} {q : Nat} (hnumber : WholePart c q) (hlast : ValidTime l)
      (hquarter : 1 ≤ q ∧ q ≤ 4) : CellSays ext .yearQuarter (some l) c ⟨l.year, 3 * q - 2, 1, 0⟩
  /-- a month of the year of the date before; the text of a number has no letters -/
  | monthNumber {l : Time} {c : Cell} {m : Nat} (hnumber : WholePart c m) (hlast : ValidTime l)
      (hmonth : 1 ≤ m ∧ m ≤ 12) (hshown : ∀ s, ShownAs ext c s → ∀ x ∈ s, ¬ Letter x) :
      CellSays ext .monthNumber (some l) c ⟨l.year, m, 1, 0⟩
  /-- a number with decimals that is shown as year, point and month -/
  | yearMonthNumber {last : Option Time} {c : Cell} {n m : Nat} {mm : Str} (hnumber : WholePart c n)
      (hyear : 1300 ≤ n ∧ n ≤ 9999) (hshown : ShownAs ext c (four n ++ c!"." ++ mm)) (hdigits : MonthDigits m mm [])
      (hmonth : 1 ≤ m ∧ m ≤ 12) : CellSays ext .monthNumber last c ⟨n, m, 1, 0⟩

/-- The cells, in order, say the dates `ots`; blank cells say none. `last` is the date before. -/
inductive Reads (ext : Ext) (style : Style) : Option Time → List Cell → List (Option Time) → Prop
  | nil {last : Option Time} : Reads ext style last [] []
  | date {last : Option Time} {c : Cell} {t : Time} {cs : List Cell} {ots : List (Option Time)}
      (said : CellSays ext style last c t) (filled : ¬ BlankCell c) (rest : Reads ext style (some t) cs ots) :
      Reads ext style last (c :: cs) (some t :: ots)
  | blank {last : Option Time} {c : Cell} {cs : List Cell} {ots : List (Option Time)}
      (blank : BlankCell c) (rest : Reads ext style last cs ots) : Reads ext style last (c :: cs) (none :: ots)

/-- Blank cells are passed over. -/
def Tolerant (sp : SParams) : Prop := sp.continuity = false ∨ sp.blankRows = true

/-- The number of blank cells that end a time index. -/
def gapLimit (sp : SParams) : Nat := if sp.continuity = true ∧ sp.blankRows = false then 1 else 41

/-- The time index of a table, in one column (row) or in several: from `data_starts` to `last` what is read
says the dates `ots`, the first and the last of them do; they are at least two. After `last` the part of the
sheet in use ends or, in a column, there are as many blank cells as end the index. If there are several
columns, there are no date cells in them. -/
structure TimeTable (ext : Ext) (sp : SParams) (s : Sheet) (style : Style) (tr tc last : Int)
    (ots : List (Option Time)) : Prop where
  header : TimeHeaderAt sp tr tc
  fits : style.Fits sp.timeComposed sp.frequency
  starts : 1 ≤ sp.dataStarts
  two : sp.dataStarts < last
  aligned : sp.alignment = .vertical ∨ sp.alignment = .horizontal
  offset : sp.timeAlignment = 0
  reads : Reads ext style none (readsAlong ext sp s sp.dataStarts last) ots
  plain : ∀ pos, sp.dataStarts ≤ pos → pos ≤ last + gapLimit sp + 1 → PlainAt sp s pos
  first : ∃ a, ots.head? = some (some a)
  ends : ∃ z, ots.getLast? = some (some z)
  gaps : none ∈ ots → Tolerant sp
  shortGaps : ∀ i : Nat, ¬ ∀ j, j < gapLimit sp → ots[i + j]? = some none
  within : last ≤ lastPosition sp s
  after : last = lastPosition sp s ∨ (sp.alignment = .vertical ∧
    ∀ pos, last < pos → pos ≤ lastPosition sp s → pos ≤ last + gapLimit sp →
      BlankCell (readCell ext sp s pos))

/-- The dates of the index are on the grid of periods `grid`, which starts with a period start; unless
the parameters allow for missing values, they are all of it. Semesters only if missing values are allowed for (C05). -/
structure OnPeriods (sp : SParams) (grid ts : List Time) : Prop where
  frequency : sp.frequency ∈ [c!"A", c!"Q", c!"M", c!"W", c!"D"] ∨ (sp.frequency = c!"S" ∧ sp.missings = true)
  valid : ∀ t ∈ grid, ValidTime t
  representable : ∀ t ∈ grid, Representable t
  start : ∀ a, grid.head? = some a → PeriodStart sp.frequency a
  run : PeriodRun sp.frequency grid
  sub : ts.Sublist grid
  first : ts.head? = grid.head?
  last : ts.getLast? = grid.getLast?
  complete : sp.missings = false → ts = grid
  marker : NotImplicitString sp.missingValue

/-! ### Series -/

/-- The name of a series: given, or put together as in C58. -/
inductive NameIs (ext : Ext) (sp : SParams) (s : Sheet) : Str → Prop
  | given {name : Str} (ne : name ≠ []) (given : sp.seriesName = some name) : NameIs ext sp s name
  | composed {r c : Int} {texts : List Str} (notGiven : sp.seriesName = none ∨ sp.seriesName = some [])
      (header : coordOf sp.headerCoord = .ok (r, c))
      (parts : List.Forall₂ (fun coord t => ∃ r c, coordOf coord = .ok (r, c) ∧ s.cells r c = .str t)
        (sp.composedHeaders.getD []) texts) :
      NameIs ext sp s (c!" - ".intercalate ((sp.context.getD []).map strip ++
        [c!" ".intercalate ((texts ++ [shownAs ext (s.cells r c)]).map fun t => strip (ext.unidecode t))]))

/-- The values of a series with data cells `cells` beside the dates `ots` on the grid of periods `grid`. -/
inductive ValuesAre (ext : Ext) (sp : SParams) (cells : List Cell) (ots : List (Option Time))
    (grid : List Time) : List Num → Prop
  /-- continuous: one number per cell -/
  | every {xs : List Num} (continuous : sp.continuity = true) (noBlank : sp.blankRows = false)
      (noMissing : sp.missings = false) (values : cells.map (numberIn ext) = xs.map some) :
      ValuesAre ext sp cells ots grid xs
  /-- with blank rows: one number per cell that is not empty -/
  | blankRows {xs : List Num} (continuous : sp.continuity = true) (blank : sp.blankRows = true)
      (noMissing : sp.missings = false)
      (values : (cells.filter (· ≠ .none)).map (numberIn ext) = xs.map some) :
      ValuesAre ext sp cells ots grid xs
  /-- with missing values marked: NaN where there is a marker -/
  | marked {xs : List Num} {markers : List PVal} (continuous : sp.continuity = true)
      (noBlank : sp.blankRows = false) (missing : sp.missings = true)
      (marker : sp.missingValue = .list markers) (notImplicit : PVal.str c!"Implicit" ∉ markers)
      (values : cells.map (valueOf ext markers) = xs.map some) : ValuesAre ext sp cells ots grid xs
  /-- with dates left out, but not of semesters (C05): NaN at the periods without a date -/
  | implicit {xs ys : List Num} {markers : List PVal} (continuous : sp.continuity = true)
      (noBlank : sp.blankRows = false) (missing : sp.missings = true)
      (marker : sp.missingValue = .list markers) (implicit : PVal.str c!"Implicit" ∈ markers)
      (dated : none ∉ ots) (notSemesters : sp.frequency ≠ c!"S")
      (values : cells.map (valueOf ext markers) = xs.map some)
      (placed : Placed grid (ots.filterMap id) xs ys) : ValuesAre ext sp cells ots grid ys
  /-- not continuous: the cells beside a date that hold a number or a marker -/
  | dated {xs : List Num} {markers : List PVal} (notContinuous : sp.continuity = false)
      (marker : sp.missings = true → sp.missingValue = .list markers)
      (notImplicit : sp.missings = true → PVal.str c!"Implicit" ∉ markers)
      (values : xs = (cells.zip ots).filterMap fun p =>
        if p.2.isSome then looseValue ext sp.missings markers p.1 else none) :
      ValuesAre ext sp cells ots grid xs

/-- A series of the table: its data cells are in another column (row) than the dates, and so are the
cells its name comes from. It ends with the dates. -/
structure SeriesOn (ext : Ext) (s : Sheet) (tr tc last : Int) (ots : List (Option Time)) (grid : List Time)
    (sp : SParams) (name : Str) (xs : List Num) : Prop where
  apart : ∀ coord ∈ sp.headerCoord :: sp.composedHeaders.getD [], ∀ r c, coordOf coord = .ok (r, c) →
    if sp.alignment = .vertical then c ≠ tc else r ≠ tr
  cells : ∃ hr hc, coordOf sp.headerCoord = .ok (hr, hc) ∧
    ValuesAre ext sp (cellsAlong s sp.alignment hr hc sp.dataStarts last) ots grid xs
  name : NameIs ext sp s name
  ends : sp.dataEnds = none ∨ sp.dataEnds = some 0 ∨ sp.dataEnds = some last

/-- A series with as many values as there are periods. -/
structure SeriesIs (ext : Ext) (s : Sheet) (tr tc last : Int) (ots : List (Option Time)) (grid : List Time)
    (sp : SParams) (name : Str) (xs : List Num) : Prop extends SeriesOn ext s tr tc last ots grid sp name xs where
  size : xs.length = grid.length

end Xls.Spec
