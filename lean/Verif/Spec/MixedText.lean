/-
Vocabulary for time indexes that mix annual and quarterly entries, and what their cells say.
-/
import Verif.Spec.TimeText
import Verif.Spec.Calendar
import Verif.Spec.NumberCells

set_option autoImplicit false

namespace Xls.Spec

/-- Ways to write the dates of a time index with several frequencies. -/
inductive MixedStyle
  /-- date cells -/
  | dates
  /-- `2008 Año`, `Trimestre I`, `II`, `III`, `IV` -/
  | yearThenQuarters
  /-- `2003 I`, `II`, `III`, `IV`, `Año` -/
  | quartersThenYear
  deriving DecidableEq

/-- The parameters for a style. -/
def MixedStyle.Fits (composed : Bool) (pattern : Str) : MixedStyle → Prop
  | .dates => composed = false
  | .yearThenQuarters => composed = true ∧ pattern = c!"AQQQQ"
  | .quartersThenYear => composed = true ∧ pattern = c!"QQQQA"

/-- A word, for instance `Año`, that names the entry of the whole year: it begins with a letter and has no
digits, no parentheses and no letter of a roman numeral; maybe with a footnote reference. -/
def TotalWord (s : Str) : Prop :=
  ∃ f r, s = f ++ r ∧ (∃ c u, f = c :: u ∧ Letter c) ∧ Without quarterChars f ∧ (r = [] ∨ IsRef r)

/-- The cell of an entry with frequency `letter` that follows the date `last` (if any) says the date `t`.
Texts are meant without accents (as the transliteration library has it) and without blanks around. -/
inductive MixedSays (ext : Ext) : MixedStyle → Char → Option Time → Cell → Time → Prop
  | date {letter : Char} {last : Option Time} {t : Time} : MixedSays ext .dates letter last (.dt t) t
  /-- a year with any words before and after -/
  | year {last : Option Time} {raw f g : Str} {n : Nat}
      (htext : strip (ext.unidecode raw) = f ++ four n ++ g) (hyear : 1 ≤ n ∧ n ≤ 9999)
      (hbefore : Without digits f) (hafter : Without digits g) :
      MixedSays ext .yearThenQuarters 'A' last (.str raw) ⟨n, 1, 1, 0⟩
  /-- a number in place of a text -/
  | yearNumber {last : Option Time} {c : Cell} {n : Nat} (hnumber : WholePart c n) (hyear : 1000 ≤ n ∧ n ≤ 9999) :
      MixedSays ext .yearThenQuarters 'A' last c ⟨n, 1, 1, 0⟩
  /-- a quarter of the year of the date before -/
  | quarter {style : MixedStyle} {l : Time} {raw f1 f3 notes : Str} {q : Nat} (hstyle : style ≠ .dates)
      (htext : strip (ext.unidecode raw) = f1 ++ roman q ++ f3 ++ notes) (hlast : ValidTime l)
      (hquarter : 1 ≤ q ∧ q ≤ 4) (hfiller1 : Without quarterChars f1) (hfiller3 : Without quarterChars f3)
      (hnotes : QuarterNotes notes) :
      MixedSays ext style 'Q' (some l) (.str raw) ⟨l.year, 3 * q - 2, 1, 0⟩
  /-- a year and its first quarter, at the start or after the total of the year before -/
  | firstQuarter {last : Option Time} {raw f1 f2 f3 : Str} {n : Nat}
      (htext : strip (ext.unidecode raw) = f1 ++ four n ++ f2 ++ c!"I" ++ f3)
      (hyear : 1 ≤ n ∧ n ≤ 9999) (hfiller1 : Without quarterChars f1) (hfiller2 : Without quarterChars f2)
      (hfiller3 : Without quarterChars f3) (hlast : ∀ l, last = some l → l.month = 1) :
      MixedSays ext .quartersThenYear 'Q' last (.str raw) ⟨n, 1, 1, 0⟩
  /-- the total of a year, after its fourth quarter -/
  | total {l : Time} {raw : Str} (htext : TotalWord (strip (ext.unidecode raw))) (hlast : ValidTime l)
      (hfourth : l.month = 10) :
      MixedSays ext .quartersThenYear 'A' (some l) (.str raw) ⟨l.year, 1, 1, 0⟩

end Xls.Spec
