/-
C20-C28: what the composed date texts mean.

The texts are those of `Verif.Spec.TimeText`. A cell holds a raw text; the package first
transliterates it to ASCII and strips it, so each theorem is about all raw texts whose stripped
transliteration has the given shape. Reading starts either with no parser in memory or with the
parser that read the previous cell.
-/
import Verif.Lemmas.TimeText3
import Verif.Spec.Samples
import Verif.Spec.TimeIndex

set_option autoImplicit false

namespace Xls
open Spec

variable {ext : Ext} {sp : SParams} {raw : Str} {last : Option Time} {next : Cell}
  {parser : Option Parser}

namespace Sample

/-- Parameters of a composed time column. -/
def composed (freq : Str) : SParams := { monthly with timeComposed := true, frequency := freq }

/-- A date library that knows four month names. -/
def extNames : Ext := { ext0 with
  monthNumber := fun s =>
    if s = c!"Enero" then some 1 else if s = c!"Feb" then some 2 else if s = c!"March" then some 3
    else if s = c!"Diciembre" then some 12 else none }

end Sample

/-! ### C20: quarters with a four-digit year -/

/-- C20. A year of four digits and a quarter (roman or digit), with fillers before, between and after
and footnote references at the end, is the first day of the quarter of that year. -/
theorem C20_year_then_quarter {n q : Nat} {f1 f2 num f3 notes : Str}
    (hc : sp.timeComposed = true) (hf : sp.frequency = c!"Q")
    (hpar : parser = none ∨ parser = some .quarter1)
    (hraw : strip (ext.unidecode raw) = f1 ++ four n ++ f2 ++ num ++ f3 ++ notes)
    (hn : 1 ≤ n) (hn' : n ≤ 9999) (hq : IsQuarter q num) (h1 : Without quarterChars f1)
    (h2 : Without quarterChars f2) (h3 : Without quarterChars f3) (hnotes : QuarterNotes notes) :
    parseTimeValue ext sp parser (.str raw) last next = (.ok ⟨n, 3 * q - 2, 1, 0⟩, some .quarter1) := by
  have h : parseElements ext .quarter1 _ = .ok _ := quarter1_year (n := n) (by omega) hq h1 h2 h3 hnotes
  refine parse_select (p := .quarter1) (by decide) hc hf hraw h ?_ hpar ?_
  · intro q' hq' hh
    exfalso; revert hh; revert hq' q'; decide
  · obtain ⟨a, b, _⟩ := hq
    exact composed_ok (by decide) hraw h hn hn' (by omega) (by omega)

example : parseTimeValue Sample.ext0 (Sample.composed c!"Q") none (.str c!"1986    1o trim.") none
    .none = (.ok ⟨1986, 1, 1, 0⟩, some .quarter1) :=
  C20_year_then_quarter (n := 1986) (q := 1) (f1 := []) (f2 := c!"    ") (num := c!"1")
    (f3 := c!"o trim.") (notes := []) rfl rfl (.inl rfl) (by decide) (by decide) (by decide)
    ⟨by decide, by decide, .inr (by decide)⟩ (by decide) (by decide) (by decide) (.inl rfl)

example : parseTimeValue Sample.ext0 (Sample.composed c!"Q") none (.str c!" ano 2003 - III* (2)") none
    .none = (.ok ⟨2003, 7, 1, 0⟩, some .quarter1) :=
  C20_year_then_quarter (n := 2003) (q := 3) (f1 := c!"ano ") (f2 := c!" - ") (num := c!"III")
    (f3 := c!"* ") (notes := c!"(2)") rfl rfl (.inl rfl) (by decide) (by decide) (by decide)
    ⟨by decide, by decide, .inl (by decide)⟩ (by decide) (by decide) (by decide)
    (.inr ⟨c!"(2)", [], ⟨c!"2", by decide, by decide, by decide, rfl⟩, by decide, .inl rfl⟩)

/-- C20. A quarter without a year is that quarter of the year of the previous date. -/
theorem C20_quarter_alone {q : Nat} {l : Time} {f1 num f3 notes : Str}
    (hc : sp.timeComposed = true) (hf : sp.frequency = c!"Q")
    (hpar : parser = none ∨ parser = some .quarter1)
    (hraw : strip (ext.unidecode raw) = f1 ++ num ++ f3 ++ notes)
    (hl : ValidTime l) (hq : IsQuarter q num) (h1 : Without quarterChars f1)
    (h3 : Without quarterChars f3) (hnotes : QuarterNotes notes) :
    parseTimeValue ext sp parser (.str raw) (some l) next =
      (.ok ⟨l.year, 3 * q - 2, 1, 0⟩, some .quarter1) := by
  have h : parseElements ext .quarter1 _ = .ok _ := quarter1_noyear hq h1 h3 hnotes
  refine parse_select (p := .quarter1) (by decide) hc hf hraw h ?_ hpar ?_
  · intro q' hq' hh
    exfalso; revert hh; revert hq' q'; decide
  · obtain ⟨a, b, _⟩ := hq
    exact composed_ok_last (by decide) hraw h hl.year_pos hl.year_le (by omega) (by omega)

example : parseTimeValue Sample.ext0 (Sample.composed c!"Q") (some .quarter1) (.str c!"2o trim.")
    (some ⟨1986, 1, 1, 0⟩) .none = (.ok ⟨1986, 4, 1, 0⟩, some .quarter1) :=
  C20_quarter_alone (q := 2) (f1 := []) (num := c!"2") (f3 := c!"o trim.") (notes := []) rfl rfl
    (.inr rfl) (by decide) (by decide) ⟨by decide, by decide, .inr (by decide)⟩ (by decide) (by decide)
    (.inl rfl)

/-- C20. A roman quarter before a year of four digits, with hyphens, slashes, points or blanks
between (`III.1963`), a star or a footnote reference before, and a footnote reference and up to three
characters after, is the first day of the quarter of that year. -/
theorem C20_quarter_then_year {n q : Nat} {lead sep tail : Str}
    (hc : sp.timeComposed = true) (hf : sp.frequency = c!"Q")
    (hpar : parser = none ∨ parser = some .quarter2)
    (hraw : strip (ext.unidecode raw) = lead ++ roman q ++ sep ++ four n ++ tail)
    (hn : 1 ≤ n) (hn' : n ≤ 9999) (h1 : 1 ≤ q) (h2 : q ≤ 4) (hl : Lead lead)
    (hs : Separator 'T' sep) (ht : Tail tail) :
    parseTimeValue ext sp parser (.str raw) last next = (.ok ⟨n, 3 * q - 2, 1, 0⟩, some .quarter2) := by
  have h : parseElements ext .quarter2 _ = .ok _ := quarter2_ok (n := n) (by omega) h1 h2 hl hs ht
  refine parse_select (p := .quarter2) (by decide) hc hf hraw h ?_ hpar ?_
  · have h1' : gQuarter1.run (lead ++ roman q ++ sep ++ four n ++ tail) = .error .parseError := by
      have := quarter1_refuses h1 h2 hl hs (digit_mem (n / 1000))
        (v := [digit (n / 100 % 10), digit (n / 10 % 10), digit (n % 10)] ++ tail)
      rw [List.append_assoc _ (four n)]
      exact this
    intro q' hq'
    have : q' = .month1 ∨ q' = .month2 ∨ q' = .quarter1 := by
      revert hq' q'; decide
    rcases this with rfl | rfl | rfl
    · exact fun hh => absurd hh (by decide)
    · exact fun hh => absurd hh (by decide)
    · intro _; rw [parseElements, h1']; rfl
  · exact composed_ok (by decide) hraw h hn hn' (by omega) (by omega)

example : parseTimeValue Sample.ext0 (Sample.composed c!"Q") none (.str c!"III.1963") none
    .none = (.ok ⟨1963, 7, 1, 0⟩, some .quarter2) :=
  C20_quarter_then_year (n := 1963) (q := 3) (lead := []) (sep := c!".") (tail := []) rfl rfl
    (.inl rfl) (by decide) (by decide) (by decide) (by decide) (by decide) (.inl rfl) (by decide)
    (.inl (by decide))

/-! ### C21: quarters with a two-digit year -/

/-- C21. A digit, a word, a second word and a year of two digits (`2deg Trim 07`) is the quarter of
that digit in the year of 1969-2068 with those two last digits. -/
theorem C21_number_then_short_year {y q : Nat} {b w1 c w2 tail : Str}
    (hc : sp.timeComposed = true) (hf : sp.frequency = c!"Q")
    (hpar : parser = none ∨ parser = some .quarter3)
    (hraw : strip (ext.unidecode raw) =
      digit q :: (b ++ (w1 ++ (c ++ (w2 ++ (two (y % 100) ++ tail))))))
    (hy : 1969 ≤ y) (hy' : y ≤ 2068) (h1 : 1 ≤ q) (h2 : q ≤ 4)
    (hb : ∀ x ∈ b, isSpace x = false ∧ x ∉ quarterChars) (hw1 : ∀ x ∈ w1, x = ' ')
    (hcc : ∀ x ∈ c, isSpace x = false ∧ x ∉ quarterChars) (hw2 : ∀ x ∈ w2, x = ' ')
    (hne : b ++ w1 ++ c ++ w2 ≠ []) (ht : Tail tail) :
    parseTimeValue ext sp parser (.str raw) last next = (.ok ⟨y, 3 * q - 2, 1, 0⟩, some .quarter3) := by
  have hdq : ∀ x : Char, x ∉ quarterChars → x ∉ digits := by
    intro x hx hd
    have : ∀ c ∈ digits, c ∈ quarterChars := by decide
    exact hx (this x hd)
  have h : parseElements ext .quarter3 _ = .ok ⟨.int y, quarterIntToMonth (digitVal (digit q))⟩ :=
    quarter3_ok (d := q) (a := []) (w0 := []) hy hy' (by simp) (by simp)
      (fun x hx => ⟨(hb x hx).1, hdq x (hb x hx).2⟩) hw1
      (fun x hx => ⟨(hcc x hx).1, hdq x (hcc x hx).2⟩) hw2 ht
  rw [(digit_month h1 h2).2] at h
  refine parse_select (p := .quarter3) (by decide) hc hf hraw h ?_ hpar ?_
  · have hmid : Without quarterChars (b ++ w1 ++ c ++ w2) := by
      have hsp : ∀ x : Char, x = ' ' → x ∉ quarterChars := by
        intro x hx; subst hx; decide
      intro x hx
      simp only [List.mem_append] at hx
      rcases hx with ((hx | hx) | hx) | hx
      · exact (hb x hx).2
      · exact hsp x (hw1 x hx)
      · exact (hcc x hx).2
      · exact hsp x (hw2 x hx)
    have hr := quarter12_refuse (d := q) (k := y % 100) (tail := tail) hmid hne
    have he : digit q :: (b ++ w1 ++ c ++ w2 ++ (two (y % 100) ++ tail)) =
        [] ++ ([] ++ digit q :: (b ++ (w1 ++ (c ++ (w2 ++ (two (y % 100) ++ tail)))))) := by simp
    rw [he] at hr
    intro q' hq'
    have : q' = .month1 ∨ q' = .month2 ∨ q' = .quarter1 ∨ q' = .quarter2 := by
      revert hq' q'; decide
    rcases this with rfl | rfl | rfl | rfl
    · exact fun hh => absurd hh (by decide)
    · exact fun hh => absurd hh (by decide)
    · intro _; exact hr.1
    · intro _; exact (congrArg isOk hr.2).trans rfl
  · exact composed_ok (by decide) hraw h (by omega) (by omega) (by omega) (by omega)

example : parseTimeValue Sample.ext0 (Sample.composed c!"Q") none (.str c!"2deg Trim 07") none
    .none = (.ok ⟨2007, 4, 1, 0⟩, some .quarter3) :=
  C21_number_then_short_year (y := 2007) (q := 2) (b := c!"deg") (w1 := c!" ") (c := c!"Trim")
    (w2 := c!" ") (tail := []) rfl rfl (.inl rfl) (by decide) (by decide) (by decide) (by decide)
    (by decide) (by decide) (by decide) (by decide) (by decide) (by decide) (.inl (by decide))

/-- C21. A roman quarter before a year of two digits (`III 01`): the year of 1969-2068 with those two
last digits. -/
theorem C21_roman_then_short_year {y q : Nat} {lead sep tail : Str}
    (hc : sp.timeComposed = true) (hf : sp.frequency = c!"Q")
    (hpar : parser = none ∨ parser = some .quarter4)
    (hraw : strip (ext.unidecode raw) = lead ++ roman q ++ sep ++ two (y % 100) ++ tail)
    (hy : 1969 ≤ y) (hy' : y ≤ 2068) (h1 : 1 ≤ q) (h2 : q ≤ 4) (hl : lead = [] ∨ lead = c!"*")
    (hs : Separator 'T' sep) (ht : Tail tail) (ht' : NoDigitFirst tail) :
    parseTimeValue ext sp parser (.str raw) last next = (.ok ⟨y, 3 * q - 2, 1, 0⟩, some .quarter4) := by
  have hl' : Lead lead := hl.elim .inl fun h => .inr (.inl h)
  have h : parseElements ext .quarter4 _ = .ok _ := quarter4_ok hy hy' h1 h2 hl' hs ht
  refine parse_select (p := .quarter4) (by decide) hc hf hraw h ?_ hpar ?_
  · have h1' : gQuarter1.run (lead ++ roman q ++ sep ++ two (y % 100) ++ tail) =
        .error .parseError := by
      rw [List.append_assoc _ (two (y % 100))]
      exact quarter1_refuses h1 h2 hl' hs (digit_mem _) (v := digit (y % 100 % 10) :: tail)
    have h2' := quarter2_refuses (k := y % 100) h1 h2 hl' hs ht'
    have h3' : gQuarter3.run (lead ++ roman q ++ sep ++ two (y % 100) ++ tail) =
        .error .parseError := by
      refine quarter3_refuses ?_ ht'
      intro x hx
      simp only [List.mem_append] at hx
      rcases hx with (hx | hx) | hx
      · rcases hl with rfl | rfl
        · cases hx
        · revert x; decide
      · have key : ∀ x : Char, notDigitSep x = true → x ∉ digits := by
          intro x hx hd
          have : ∀ c ∈ digits, notDigitSep c = false := by decide
          rw [this x hd] at hx; cases hx
        exact key x ((roman_numeral h1 h2 []).1 x hx)
      · have : ∀ c ∈ 'T' :: c!"-/. ", c ∉ digits := by decide
        exact this x (hs.1 x hx)
    intro q' hq'
    have : q' = .month1 ∨ q' = .month2 ∨ q' = .quarter1 ∨ q' = .quarter2 ∨ q' = .quarter3 := by
      revert hq' q'; decide
    rcases this with rfl | rfl | rfl | rfl | rfl
    · exact fun hh => absurd hh (by decide)
    · exact fun hh => absurd hh (by decide)
    · intro _; rw [parseElements, h1']; rfl
    · intro _; rw [parseElements, h2']; rfl
    · intro _; rw [parseElements, h3']; rfl
  · exact composed_ok (by decide) hraw h (by omega) (by omega) (by omega) (by omega)

example : parseTimeValue Sample.ext0 (Sample.composed c!"Q") none (.str c!"*III 01") none
    .none = (.ok ⟨2001, 7, 1, 0⟩, some .quarter4) :=
  C21_roman_then_short_year (y := 2001) (q := 3) (lead := c!"*") (sep := c!" ") (tail := []) rfl rfl
    (.inl rfl) (by decide) (by decide) (by decide) (by decide) (by decide) (.inr rfl) (by decide)
    (.inl (by decide)) (by decide)

/-! ### C22: other numbers -/

/-- C22 (violated). A quarter number that is not one of 1-4 is not refused: whatever the digit 5-9, the
text `<digit>deg Trim <yy>` is read as the fourth quarter. -/
theorem C22_other_quarters_refused_violated {y d : Nat}
    (hc : sp.timeComposed = true) (hf : sp.frequency = c!"Q")
    (hraw : strip (ext.unidecode raw) = digit d :: (c!"deg Trim " ++ two (y % 100)))
    (hy : 1969 ≤ y) (hy' : y ≤ 2068) (h1 : 5 ≤ d) (h2 : d ≤ 9) :
    parseTimeValue ext sp none (.str raw) last next = (.ok ⟨y, 10, 1, 0⟩, some .quarter3) := by
  have h : parseElements ext .quarter3 _ = .ok ⟨.int y, quarterIntToMonth (digitVal (digit d))⟩ :=
    quarter3_ok (d := d) (a := []) (w0 := []) (b := c!"deg") (w1 := c!" ") (c := c!"Trim")
      (w2 := c!" ") (tail := []) hy hy' (by simp) (by simp)
      (by decide) (by decide) (by decide) (by decide) (.inl (by decide))
  have hm : quarterIntToMonth (digitVal (digit d)) = some ((10 : Nat) : Int) := by
    have : d = 5 ∨ d = 6 ∨ d = 7 ∨ d = 8 ∨ d = 9 := by omega
    rcases this with h | h | h | h | h <;> subst h <;> decide
  rw [hm] at h
  have hraw' : strip (ext.unidecode raw) = [] ++ ([] ++ digit d :: (c!"deg" ++ (c!" " ++ (c!"Trim" ++
      (c!" " ++ (two (y % 100) ++ [])))))) := by rw [hraw]; simp
  refine parse_select (p := .quarter3) (by decide) hc hf hraw' h ?_ (.inl rfl) ?_
  · have hr := quarter12_refuse (d := d) (k := y % 100) (mid := c!"deg Trim ") (tail := [])
      (by decide) (by decide)
    intro q' hq'
    have : q' = .month1 ∨ q' = .month2 ∨ q' = .quarter1 ∨ q' = .quarter2 := by
      revert hq' q'; decide
    rcases this with rfl | rfl | rfl | rfl
    · exact fun hh => absurd hh (by decide)
    · exact fun hh => absurd hh (by decide)
    · intro _; exact hr.1
    · intro _
      have := hr.2
      rw [parseElements]
      exact (congrArg isOk this).trans rfl
  · exact composed_ok (by decide) hraw' h (by omega) (by omega) (by omega) (by omega)

/-- C22. Whatever the text of the numeral, the month of a quarter is one of the first months of
quarters and that of a semester one of the first months of semesters. -/
theorem C22_first_months (s : Str) (m : Int) :
    (quarterStrToMonth s = .ok (some m) → m = 1 ∨ m = 4 ∨ m = 7 ∨ m = 10) ∧
    (semesterStrToMonth s = .ok (some m) → m = 1 ∨ m = 7) := by
  constructor
  · intro h
    unfold quarterStrToMonth at h
    split at h
    · cases h
    · split at h
      · injection h with h; injection h with h; subst h
        unfold quarterMonth
        repeat' split
        all_goals simp
      · cases h
  · intro h
    unfold semesterStrToMonth at h
    split at h
    · cases h
    · split at h
      · injection h with h; injection h with h; subst h
        unfold semesterMonth
        split <;> simp
      · cases h

/-- C22. Roman and arabic numerals mean the same months; positive numbers beyond the last numeral are
read as the last quarter or semester. -/
theorem C22_numerals_partial :
    (∀ q, 1 ≤ q → q ≤ 4 → quarterStrToMonth (roman q) = .ok (some ((3 * q - 2 : Nat) : Int)) ∧
      quarterStrToMonth [digit q] = .ok (some ((3 * q - 2 : Nat) : Int)) ∧
      quarterIntToMonth q = some ((3 * q - 2 : Nat) : Int)) ∧
    (∀ q, 1 ≤ q → q ≤ 2 → semesterStrToMonth (roman q) = .ok (some ((6 * q - 5 : Nat) : Int)) ∧
      semesterStrToMonth [digit q] = .ok (some ((6 * q - 5 : Nat) : Int))) ∧
    (∀ q, 5 ≤ q → quarterIntToMonth q = some 10) := by
  refine ⟨fun q h1 h2 => ?_, fun q h1 h2 => ?_, fun q h => ?_⟩
  · have : q = 1 ∨ q = 2 ∨ q = 3 ∨ q = 4 := by omega
    rcases this with h | h | h | h <;> subst h <;> decide
  · have : q = 1 ∨ q = 2 := by omega
    rcases this with h | h <;> subst h <;> decide
  · unfold quarterIntToMonth quarterMonth
    rw [if_neg (by omega), if_neg (by omega), if_neg (by omega), if_neg (by omega)]

/-! ### C23: years -/

/-- C23. A year of four digits, maybe with footnote references before and after and with fillers, is 1
January of that year. -/
theorem C23_year {n : Nat} {lead f g r g' : Str}
    (hc : sp.timeComposed = true) (hf : sp.frequency = c!"A")
    (hpar : parser = none ∨ parser = some .year1)
    (hraw : strip (ext.unidecode raw) = lead ++ f ++ four n ++ g ++ r ++ g')
    (hn : 1 ≤ n) (hn' : n ≤ 9999) (hl : lead = [] ∨ YearNote lead) (h1 : Without noteChars f)
    (h2 : Without noteChars g) (hr : r = [] ∨ IsRef r) (h3 : Without noteChars g')
    (hr' : r = [] → g' = []) :
    parseTimeValue ext sp parser (.str raw) last next = (.ok ⟨n, 1, 1, 0⟩, some .year1) := by
  have h : parseElements ext .year1 _ = .ok ⟨.int n, some ((1 : Nat) : Int)⟩ :=
    year1_ok (n := n) (by omega) hl h1 h2 hr h3 hr'
  refine parse_select (p := .year1) (by decide) hc hf hraw h ?_ hpar ?_
  · intro q' hq' hh
    exfalso; revert hh; revert hq' q'; decide
  · exact composed_ok (by decide) hraw h hn hn' (by omega) (by omega)

example : parseTimeValue Sample.ext0 (Sample.composed c!"A") none (.str c!"(3)  1998 (4)") none
    .none = (.ok ⟨1998, 1, 1, 0⟩, some .year1) :=
  C23_year (n := 1998) (lead := c!"(3)") (f := c!"  ") (g := c!" ") (r := c!"(4)") (g' := []) rfl rfl
    (.inl rfl) (by decide) (by decide) (by decide)
    (.inr ⟨[], c!"(3)", [], by decide, ⟨c!"3", by decide, by decide, by decide, rfl⟩, by decide, rfl⟩)
    (by decide) (by decide) (.inr ⟨c!"4", by decide, by decide, by decide, rfl⟩) (by decide)
    (by decide)

/-- C23. A campaign, `1995/96`, is 1 January of its first year. -/
theorem C23_campaign {n k : Nat} {lead trail : Str}
    (hc : sp.timeComposed = true) (hf : sp.frequency = c!"A")
    (hpar : parser = none ∨ parser = some .year2)
    (hraw : strip (ext.unidecode raw) = lead ++ four n ++ c!"/" ++ two k ++ trail)
    (hn : 1 ≤ n) (hn' : n ≤ 9999) (hl : lead = [] ∨ YearNote lead)
    (hr : trail = [] ∨ YearNote trail) :
    parseTimeValue ext sp parser (.str raw) last next = (.ok ⟨n, 1, 1, 0⟩, some .year2) := by
  have h : parseElements ext .year2 _ = .ok ⟨.int n, some ((1 : Nat) : Int)⟩ :=
    year2_ok (k := k) (by omega) hl hr
  refine parse_select (p := .year2) (by decide) hc hf hraw h ?_ hpar ?_
  · have h1 := year1_refuses (n := n) (k := k) (trail := trail) hl
    intro q' hq'
    have : q' = .year1 ∨ q'.freq ≠ c!"A" := by
      revert hq' q'; decide
    rcases this with rfl | hne
    · intro _; rw [parseElements, h1]; rfl
    · intro hh; exact absurd hh hne
  · exact composed_ok (by decide) hraw h hn hn' (by omega) (by omega)

example : parseTimeValue Sample.ext0 (Sample.composed c!"A") none (.str c!"1995/96 ") none
    .none = (.ok ⟨1995, 1, 1, 0⟩, some .year2) :=
  C23_campaign (n := 1995) (k := 96) (lead := []) (trail := []) rfl rfl
    (.inl rfl) (by decide) (by decide) (by decide) (.inl rfl) (.inl rfl)

/-! ### C24: numeric months -/

theorem month2_select {text : Str} {r : DateRes} {t : Time} (hc : sp.timeComposed = true)
    (hf : sp.frequency = c!"M") (hpar : parser = none ∨ parser = some .month2)
    (hraw : strip (ext.unidecode raw) = text) (hno : ∀ c ∈ text, ¬ Letter c)
    (h : gMonth2.run text = .ok r)
    (ht : parseWith ext .month2 sp.frequency (.str raw) last next = .ok t) :
    parseTimeValue ext sp parser (.str raw) last next = (.ok t, some .month2) := by
  refine parse_select (p := .month2) (by decide) hc hf hraw h ?_ hpar ht
  intro q' hq'
  have : q' = .month1 := by revert hq' q'; decide
  subst this
  intro _
  rw [parseElements, month1_refuses hno]; rfl

/-- C24. A year and a month number (`1991,02`, `1991-2`), in any order, with any separator without
digits or letters and followed by anything without letters, is the first day of that month. -/
theorem C24_year_and_month {n m : Nat} {sep mm rest : Str}
    (hc : sp.timeComposed = true) (hf : sp.frequency = c!"M")
    (hpar : parser = none ∨ parser = some .month2)
    (hraw : (strip (ext.unidecode raw) = four n ++ sep ++ mm ++ rest ∧ MonthDigits m mm rest) ∨
      (strip (ext.unidecode raw) = mm ++ sep ++ four n ++ rest ∧ sep ≠ [] ∧
        MonthDigits m mm (sep ++ (four n ++ rest))))
    (hn : 1 ≤ n) (hn' : n ≤ 9999) (hm : 1 ≤ m) (hm' : m ≤ 12) (hs : Without digits sep)
    (hno : ∀ c ∈ strip (ext.unidecode raw), ¬ Letter c) :
    parseTimeValue ext sp parser (.str raw) last next = (.ok ⟨n, m, 1, 0⟩, some .month2) := by
  have h : gMonth2.run (strip (ext.unidecode raw)) = .ok ⟨.str (four n), some (m : Int)⟩ := by
    rcases hraw with ⟨h1, h2⟩ | ⟨h1, h2, h3⟩
    · rw [h1]; exact month2_ym hs h2
    · rw [h1]; exact month2_my hs h2 h3
  refine month2_select hc hf hpar rfl hno h ?_
  obtain ⟨y1, y2⟩ := four_toInt (n := n) (by omega)
  have := composed_year (ext := ext) (p := .month2) (freq := sp.frequency) (last := last) (next := next)
    (by decide) (by decide) rfl h y1 y2 hn hn' hm
  rw [if_pos hm'] at this
  exact this

example : parseTimeValue Sample.ext0 (Sample.composed c!"M") none (.str c!"1991,02") none
    .none = (.ok ⟨1991, 2, 1, 0⟩, some .month2) :=
  C24_year_and_month (n := 1991) (m := 2) (sep := c!",") (mm := c!"02") (rest := []) rfl rfl (.inl rfl)
    (.inl ⟨by decide, .inl ⟨by decide, by decide⟩⟩) (by decide) (by decide) (by decide) (by decide)
    (by decide) (by decide)

example : parseTimeValue Sample.ext0 (Sample.composed c!"M") (some .month2) (.str c!"9 / 2001 (1)") none
    .none = (.ok ⟨2001, 9, 1, 0⟩, some .month2) :=
  C24_year_and_month (n := 2001) (m := 9) (sep := c!" / ") (mm := c!"9") (rest := c!" (1)") rfl rfl
    (.inr rfl) (.inr ⟨by decide, by decide, .inr ⟨by decide, by decide, by decide⟩⟩) (by decide)
    (by decide) (by decide) (by decide) (by decide) (by decide)

/-- C24. A month number alone keeps the year of the previous date. -/
theorem C24_month_alone {m : Nat} {l : Time} {mm rest : Str}
    (hc : sp.timeComposed = true) (hf : sp.frequency = c!"M")
    (hpar : parser = none ∨ parser = some .month2)
    (hraw : strip (ext.unidecode raw) = mm ++ rest) (hmm : MonthDigits m mm rest)
    (hl : ValidTime l) (hm : 1 ≤ m) (hm' : m ≤ 12) (hr : Without digits rest)
    (hno : ∀ c ∈ strip (ext.unidecode raw), ¬ Letter c) :
    parseTimeValue ext sp parser (.str raw) (some l) next = (.ok ⟨l.year, m, 1, 0⟩, some .month2) := by
  have h : gMonth2.run (mm ++ rest) = .ok ⟨.none, some (m : Int)⟩ := month2_m hr hmm
  refine month2_select hc hf hpar hraw (hraw ▸ hno) h ?_
  exact composed_ok_last (by decide) hraw h hl.year_pos hl.year_le hm hm'

example : parseTimeValue Sample.ext0 (Sample.composed c!"M") (some .month2) (.str c!"03")
    (some ⟨1991, 2, 1, 0⟩) .none = (.ok ⟨1991, 3, 1, 0⟩, some .month2) :=
  C24_month_alone (m := 3) (mm := c!"03") (rest := []) rfl rfl (.inr rfl) (by decide)
    (.inl ⟨by decide, by decide⟩) (by decide) (by decide) (by decide) (by decide) (by decide)

/-- C24. A month number above 12 is reported as such. -/
theorem C24_month_above_twelve {n m : Nat} {sep mm rest : Str}
    (hraw : strip (ext.unidecode raw) = four n ++ sep ++ mm ++ rest)
    (hmm : MonthDigits m mm rest) (hn : 1 ≤ n) (hn' : n ≤ 9999) (hm : 12 < m)
    (hs : Without digits sep) (freq : Str) :
    parseWith ext .month2 freq (.str raw) last next = .error .monthOutOfRange := by
  have h := month2_ym (n := n) hs hmm
  obtain ⟨y1, y2⟩ := four_toInt (n := n) (by omega)
  have := composed_year (ext := ext) (p := .month2) (freq := freq) (last := last) (next := next)
    (by decide) (by decide) hraw h y1 y2 hn hn' (by omega)
  rw [if_neg (by omega)] at this
  exact this

example : parseWith Sample.ext0 .month2 c!"M" (.str c!"1991,13") none .none = .error .monthOutOfRange :=
  C24_month_above_twelve (n := 1991) (m := 13) (sep := c!",") (mm := c!"13") (rest := []) rfl
    (.inl ⟨by decide, by decide⟩) (by decide) (by decide) (by decide) (by decide) _

/-! ### C25: named months -/

theorem month1_select {text : Str} {r : DateRes} {t : Time} (hc : sp.timeComposed = true)
    (hf : sp.frequency = c!"M") (hpar : parser = none ∨ parser = some .month1)
    (hraw : strip (ext.unidecode raw) = text) (h : (gMonth1 ext).run text = .ok r)
    (ht : parseWith ext .month1 sp.frequency (.str raw) last next = .ok t) :
    parseTimeValue ext sp parser (.str raw) last next = (.ok t, some .month1) :=
  parse_select (p := .month1) (by decide) hc hf hraw h (by intro q' hq'; exfalso; revert hq' q'; decide) hpar ht

/-- C25. A year (four digits, or two for 1969-2068) and a month name of 3 to 50 letters that the table
of names knows, is the first day of that month of that year: year first, or name first with an
optional point and footnote reference. -/
theorem C25_year_and_name {y m : Nat} {yy w1 sep w2 w3 name dot note rest : Str}
    (hc : sp.timeComposed = true) (hf : sp.frequency = c!"M")
    (hpar : parser = none ∨ parser = some .month1)
    (hraw : (strip (ext.unidecode raw) = yy ++ w1 ++ sep ++ w2 ++ name ++ rest ∧
        YearDigits y yy (w1 ++ (sep ++ (w2 ++ (name ++ rest)))) ∧ OneSep c!".-/," sep ∧
        NoLetterFirst rest) ∨
      (strip (ext.unidecode raw) =
          name ++ (dot ++ (w1 ++ (note ++ (w2 ++ (sep ++ (w3 ++ (yy ++ rest))))))) ∧
        YearDigits y yy rest ∧ OneSep c!"-/," sep ∧ (dot = [] ∨ dot = c!".") ∧
        (note = [] ∨ IsRef note)))
    (hw1 : Blank w1) (hw2 : Blank w2) (hw3 : Blank w3) (hname : Name name)
    (hy : 1 ≤ y) (hy' : y ≤ 9999) (hm : 1 ≤ m) (hm' : m ≤ 12)
    (htable : ext.monthNumber (capitalize name) = some m) :
    parseTimeValue ext sp parser (.str raw) last next = (.ok ⟨y, m, 1, 0⟩, some .month1) := by
  have h : (gMonth1 ext).run (strip (ext.unidecode raw)) = .ok ⟨.int y, some (m : Int)⟩ := by
    have hmn : monthStrToNum ext name = some (m : Int) := by
      unfold monthStrToNum; rw [htable]; rfl
    rcases hraw with ⟨h1, h2, h3, h4⟩ | ⟨h1, h2, h3, h4, h5⟩
    · rw [h1, month1_ym h2 hw1 h3 hw2 hname h4, hmn]
    · rw [h1, month1_my h4 hw1 h5 hw2 h3 hw3 h2 hname, hmn]
  exact month1_select hc hf hpar rfl h (composed_ok (by decide) rfl h hy hy' hm hm')

example : parseTimeValue Sample.extNames (Sample.composed c!"M") none (.str c!"1991 - enero (p)") none
    .none = (.ok ⟨1991, 1, 1, 0⟩, some .month1) :=
  C25_year_and_name (y := 1991) (m := 1) (yy := c!"1991") (w1 := c!" ") (sep := c!"-") (w2 := c!" ")
    (w3 := []) (name := c!"enero") (dot := []) (note := []) (rest := c!" (p)") rfl rfl (.inl rfl)
    (.inl ⟨by decide, .inl ⟨by decide, by decide⟩, .inr ⟨'-', by decide, rfl⟩, by decide⟩) (by decide)
    (by decide) (by decide) (by decide) (by decide) (by decide) (by decide) (by decide) (by decide)

example : parseTimeValue Sample.extNames (Sample.composed c!"M") none (.str c!"Feb. (1) 07") none
    .none = (.ok ⟨2007, 2, 1, 0⟩, some .month1) :=
  C25_year_and_name (y := 2007) (m := 2) (yy := c!"07") (w1 := c!" ") (sep := []) (w2 := c!" ")
    (w3 := []) (name := c!"Feb") (dot := c!".") (note := c!"(1)") (rest := []) rfl rfl (.inl rfl)
    (.inr ⟨by decide, .inr ⟨by decide, by decide, by decide, by decide⟩, .inl rfl, .inr rfl,
      .inr ⟨c!"1", by decide, by decide, by decide, rfl⟩⟩) (by decide)
    (by decide) (by decide) (by decide) (by decide) (by decide) (by decide) (by decide) (by decide)

/-- C25. A month name alone keeps the year of the previous date. -/
theorem C25_name_alone {m : Nat} {l : Time} {name rest : Str}
    (hc : sp.timeComposed = true) (hf : sp.frequency = c!"M")
    (hpar : parser = none ∨ parser = some .month1)
    (hraw : strip (ext.unidecode raw) = name ++ rest) (hname : Name name) (hr : NoLetterFirst rest)
    (hr' : Without digits rest) (hl : ValidTime l) (hm : 1 ≤ m) (hm' : m ≤ 12)
    (htable : ext.monthNumber (capitalize name) = some m) :
    parseTimeValue ext sp parser (.str raw) (some l) next = (.ok ⟨l.year, m, 1, 0⟩, some .month1) := by
  have h : (gMonth1 ext).run (name ++ rest) = .ok ⟨.none, some (m : Int)⟩ := by
    have hmn : monthStrToNum ext name = some (m : Int) := by
      unfold monthStrToNum; rw [htable]; rfl
    rw [month1_m hname hr hr', hmn]
  exact month1_select hc hf hpar hraw h
    (composed_ok_last (by decide) hraw h hl.year_pos hl.year_le hm hm')

example : parseTimeValue Sample.extNames (Sample.composed c!"M") (some .month1) (.str c!"Feb. *")
    (some ⟨1991, 1, 1, 0⟩) .none = (.ok ⟨1991, 2, 1, 0⟩, some .month1) :=
  C25_name_alone (m := 2) (name := c!"Feb") (rest := c!". *") rfl rfl (.inr rfl) (by decide) (by decide)
    (by decide) (by decide) (by decide) (by decide) (by decide) (by decide)

/-- C25. A name the table does not know is not refused: the text denotes the month of the previous
date, whatever the name. -/
theorem C25_unknown_name_takes_last_month {l : Time} {name rest : Str}
    (hc : sp.timeComposed = true) (hf : sp.frequency = c!"M")
    (hpar : parser = none ∨ parser = some .month1)
    (hraw : strip (ext.unidecode raw) = name ++ rest) (hname : Name name) (hr : NoLetterFirst rest)
    (hr' : Without digits rest) (hl : ValidTime l)
    (htable : ext.monthNumber (capitalize name) = none) :
    parseTimeValue ext sp parser (.str raw) (some l) next =
      (.ok ⟨l.year, l.month, 1, 0⟩, some .month1) := by
  have h : (gMonth1 ext).run (name ++ rest) = .ok ⟨.none, none⟩ := by
    have hmn : monthStrToNum ext name = none := by
      unfold monthStrToNum; rw [htable]; rfl
    rw [month1_m hname hr hr', hmn]
  refine month1_select hc hf hpar hraw h ?_
  unfold parseWith parseCell
  simp only [hraw]
  have h' : parseElements ext .month1 (name ++ rest) = .ok ⟨.none, none⟩ := h
  simp only [parseStrWith, parseComposed, h', fillHoles, fillYear, YVal.truthy, fillMonth]
  have := hl.month_pos
  have := hl.month_le
  simp only [Bool.false_eq_true, if_false]
  rw [if_pos (by omega)]
  exact mkDate_first hl.year_pos hl.year_le hl.month_pos hl.month_le

example : parseTimeValue Sample.extNames (Sample.composed c!"M") (some .month1) (.str c!"Nota")
    (some ⟨1991, 1, 1, 0⟩) .none = (.ok ⟨1991, 1, 1, 0⟩, some .month1) :=
  C25_unknown_name_takes_last_month (name := c!"Nota") (rest := []) rfl rfl (.inr rfl) (by decide)
    (by decide) (by decide) (by decide) (by decide) (by decide)

/-! ### C26: semesters -/

/-- C26. A semester numeral and a year of two digits (`I.S.03`) is the first day of that semester in
the year of 1969-2068 with those two last digits. -/
theorem C26_semester_and_year {y q : Nat} {lead sep tail : Str}
    (hc : sp.timeComposed = true) (hf : sp.frequency = c!"S")
    (hpar : parser = none ∨ parser = some .semester)
    (hraw : strip (ext.unidecode raw) = lead ++ roman q ++ sep ++ two (y % 100) ++ tail)
    (hy : 1969 ≤ y) (hy' : y ≤ 2068) (h1 : 1 ≤ q) (h2 : q ≤ 2) (hl : Lead lead)
    (hs : Separator 'S' sep) (ht : Tail tail) :
    parseTimeValue ext sp parser (.str raw) last next = (.ok ⟨y, 6 * q - 5, 1, 0⟩, some .semester) := by
  have h : parseElements ext .semester _ = .ok _ := semester_ok hy hy' h1 h2 hl hs ht
  refine parse_select (p := .semester) (by decide) hc hf hraw h ?_ hpar ?_
  · intro q' hq' hh
    exfalso; revert hh; revert hq' q'; decide
  · exact composed_ok (by decide) hraw h (by omega) (by omega) (by omega) (by omega)

example : parseTimeValue Sample.ext0 (Sample.composed c!"S") none (.str c!"(2) II.S.03") none
    .none = (.ok ⟨2003, 7, 1, 0⟩, some .semester) :=
  C26_semester_and_year (y := 2003) (q := 2) (lead := c!"(2) ") (sep := c!".S.") (tail := []) rfl rfl
    (.inl rfl) (by decide) (by decide) (by decide) (by decide) (by decide)
    (.inr (.inr ⟨c!"(2)", c!" ", ⟨c!"2", by decide, by decide, by decide, rfl⟩, by decide, rfl⟩))
    (by decide) (.inl (by decide))

/-- C26. A semester numeral alone keeps the year of the previous date. -/
theorem C26_semester_alone {q : Nat} {l : Time} {lead sep : Str}
    (hc : sp.timeComposed = true) (hf : sp.frequency = c!"S")
    (hpar : parser = none ∨ parser = some .semester)
    (hraw : strip (ext.unidecode raw) = lead ++ roman q ++ sep)
    (hv : ValidTime l) (h1 : 1 ≤ q) (h2 : q ≤ 2) (hl : Lead lead) (hs : Separator 'S' sep) :
    parseTimeValue ext sp parser (.str raw) (some l) next =
      (.ok ⟨l.year, 6 * q - 5, 1, 0⟩, some .semester) := by
  have h : parseElements ext .semester _ = .ok _ := semester_noyear h1 h2 hl hs
  refine parse_select (p := .semester) (by decide) hc hf hraw h ?_ hpar ?_
  · intro q' hq' hh
    exfalso; revert hh; revert hq' q'; decide
  · exact composed_ok_last (by decide) hraw h hv.year_pos hv.year_le (by omega) (by omega)

example : parseTimeValue Sample.ext0 (Sample.composed c!"S") none (.str c!"II.S.")
    (some ⟨2003, 1, 1, 0⟩) .none = (.ok ⟨2003, 7, 1, 0⟩, some .semester) :=
  C26_semester_alone (q := 2) (lead := []) (sep := c!".S.") rfl rfl
    (.inl rfl) (by decide) (by decide) (by decide) (by decide) (.inl rfl) (by decide)

/-! ### C27, C28: the date made of the parts found -/

/-- C27. Whatever the value in the cell (other than a date) and whatever the previous date, a composed
parser raises an error or returns a real calendar date, the first of a month, at midnight. -/
theorem C27_real_first_of_month {p : Parser} {freq : Str} {curr : Cell} {t : Time}
    (hp : p ≠ .simple) (hcurr : ∀ x, curr ≠ .dt x)
    (h : parseWith ext p freq curr last next = .ok t) : ValidTime t ∧ t.day = 1 ∧ t.us = 0 := by
  rcases parseCell_ok h with h | ⟨s, h⟩
  · exact absurd h (hcurr t)
  · unfold parseStrWith at h
    split at h
    · exact absurd rfl hp
    · exact parseComposed_ok h

example : parseWith Sample.ext0 .year1 c!"A" (.int 1998) none .none = .ok ⟨1998, 1, 1, 0⟩ := by decide

/-- C27. A month number outside 1-12 found in the text is reported as `MonthOutOfRange` when the year
is fine. -/
theorem C27_month_out_of_range {p : Parser} {freq : Str} {y : YVal} {m : Int}
    (hp : p ≠ .simple) (h : parseElements ext p (strip (ext.unidecode raw)) = .ok ⟨y, some m⟩)
    (hy : y.truthy = false ∨ ∃ n, y.toInt = .ok n) (hm : m < 0 ∨ 12 < m) :
    parseWith ext p freq (.str raw) last next = .error .monthOutOfRange := by
  have hm0 : m ≠ 0 := by omega
  have hfill : ∃ n, fillHoles p ⟨y, some m⟩ last = .ok (n, m) := by
    have hfy : ∃ n, fillYear y last = .ok n := by
      unfold fillYear
      rcases hy with hy | ⟨n, hy⟩
      · rw [if_neg (by simp [hy])]; cases last <;> exact ⟨_, rfl⟩
      · by_cases ht : y.truthy = true
        · exact ⟨n, by rw [if_pos ht, hy]⟩
        · rw [if_neg ht]; cases last <;> exact ⟨_, rfl⟩
    obtain ⟨n, hfy⟩ := hfy
    refine ⟨n, ?_⟩
    unfold fillHoles
    split <;> simp [hfy, fillMonth, hm0, monthFalsy]
  obtain ⟨n, hfill⟩ := hfill
  unfold parseWith parseCell parseStrWith
  cases p <;> first | exact absurd rfl hp | skip
  all_goals
    simp only [parseComposed, h, hfill]
    rw [if_neg (by omega)]

example : parseElements Sample.ext0 .month2 c!"1991,13" = .ok ⟨.str c!"1991", some 13⟩ := by decide

/-- C28. The year and month of the result are those found in the text; a missing one is that of the
previous date, or 1 when there is none. (`fy` and `fm` are the parts the grammar found.) -/
theorem C28_missing_parts {p : Parser} {freq : Str} {fy fm : Option Nat} {t : Time}
    (hp : p ≠ .simple) (hq : p ≠ .quarterYear1)
    (h : parseElements ext p (strip (ext.unidecode raw)) =
      .ok ⟨fy.elim .none fun n => .int n, fm.map Int.ofNat⟩)
    (hy : fy ≠ some 0) (hm : fm ≠ some 0)
    (ht : parseWith ext p freq (.str raw) last next = .ok t) :
    t.year = fy.getD (last.elim 1 (·.year)) ∧ t.month = fm.getD (last.elim 1 (·.month)) := by
  have hfill : fillHoles p ⟨fy.elim .none fun n => .int n, fm.map Int.ofNat⟩ last =
      .ok (((fy.getD (last.elim 1 (·.year)) : Nat) : Int),
        ((fm.getD (last.elim 1 (·.month)) : Nat) : Int)) := by
    have h1 : fillYear (fy.elim .none fun n => .int n) last =
        .ok ((fy.getD (last.elim 1 (·.year)) : Nat) : Int) := by
      unfold fillYear
      cases fy with
      | none => cases last <;> rfl
      | some n =>
        have : n ≠ 0 := fun hh => hy (by rw [hh])
        simp [YVal.truthy, YVal.toInt, this]
    have h2 : fillMonth (fm.map Int.ofNat) last = ((fm.getD (last.elim 1 (·.month)) : Nat) : Int) := by
      unfold fillMonth
      cases fm with
      | none => cases last <;> rfl
      | some n =>
        have : n ≠ 0 := fun hh => hm (by rw [hh])
        simp [this]
    unfold fillHoles
    split
    · exact absurd rfl hq
    · simp only [h1, h2]
  unfold parseWith parseCell parseStrWith at ht
  cases p <;> first | exact absurd rfl hp | exact absurd rfl hq | skip
  all_goals
    simp only [parseComposed, h, hfill] at ht
    split at ht
    · obtain ⟨_, h1, h2, _⟩ := mkDate_ok ht
      exact ⟨by omega, by omega⟩
    · cases ht

example : parseElements Sample.ext0 .quarter1 c!"2o trim." = .ok ⟨.none, some 4⟩ ∧
    parseWith Sample.ext0 .quarter1 c!"Q" (.str c!"2o trim.") none .none = .ok ⟨1, 4, 1, 0⟩ := by decide

/-- C28. In a `QQQQA` index a text with neither year nor quarter after a fourth quarter denotes that
whole year; with a year or a quarter, or after another month, the missing parts are those of the
previous date. -/
theorem C28_quarters_then_year {freq : Str} {fy fm : Option Nat} {l t : Time}
    (h : parseElements ext .quarterYear1 (strip (ext.unidecode raw)) =
      .ok ⟨fy.elim .none fun n => .int n, fm.map Int.ofNat⟩)
    (hy : fy ≠ some 0) (hm : fm ≠ some 0)
    (ht : parseWith ext .quarterYear1 freq (.str raw) (some l) next = .ok t) :
    (fy = none ∧ fm = none ∧ l.month = 10 → t = ⟨l.year, 1, 1, 0⟩) ∧
    (¬ (fy = none ∧ fm = none ∧ l.month = 10) →
      t.year = fy.getD l.year ∧ t.month = fm.getD l.month) := by
  have h1 : fillYear (fy.elim .none fun n => .int n) (some l) = .ok ((fy.getD l.year : Nat) : Int) := by
    unfold fillYear
    cases fy with
    | none => rfl
    | some n =>
      have : n ≠ 0 := fun hh => hy (by rw [hh])
      simp [YVal.truthy, YVal.toInt, this]
  have h2 : fillMonth (fm.map Int.ofNat) (some l) = ((fm.getD l.month : Nat) : Int) := by
    unfold fillMonth
    cases fm with
    | none => rfl
    | some n =>
      have : n ≠ 0 := fun hh => hm (by rw [hh])
      simp [this]
  unfold parseWith parseCell parseStrWith at ht
  simp only [parseComposed, h, fillHoles, h1, h2] at ht
  constructor
  · rintro ⟨rfl, rfl, hl⟩
    simp [YVal.truthy, monthFalsy, hl] at ht
    obtain ⟨_, a, b, c, d⟩ := mkDate_ok ht
    have e1 : t.year = l.year := by omega
    have e2 : t.month = 1 := by omega
    have e3 : t.day = 1 := by omega
    rw [← e1]
    cases t
    simp_all
  · intro hno
    rw [if_neg] at ht
    · simp only at ht
      split at ht
      · obtain ⟨_, a, b, _⟩ := mkDate_ok ht
        exact ⟨by omega, by omega⟩
      · cases ht
    · simp only [Bool.and_eq_true, Bool.not_eq_true', beq_iff_eq, not_and]
      intro ha hb
      apply hno
      refine ⟨?_, ?_, hb⟩
      · cases fy with
        | none => rfl
        | some n =>
          have : n ≠ 0 := fun hh => hy (by rw [hh])
          simp [YVal.truthy, this] at ha
      · cases fm with
        | none => rfl
        | some n =>
          have : n ≠ 0 := fun hh => hm (by rw [hh])
          simp [monthFalsy, this] at ha

example : parseElements Sample.ext0 .quarterYear1 c!"Total" = .ok ⟨.none, none⟩ ∧
    parseWith Sample.ext0 .quarterYear1 c!"QQQQA" (.str c!"Total") (some ⟨2003, 10, 1, 0⟩) .none =
      .ok ⟨2003, 1, 1, 0⟩ := by decide

end Xls
