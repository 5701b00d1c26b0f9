/-
Property C111: numbers in the cells of a time index are read as their whole part.
-/
import Verif.Lemmas.NumberCells
import Verif.Props.Parsing

set_option autoImplicit false

namespace Xls

open Spec

variable {ext : Ext} {sp : SParams} {parser : Option Parser} {c : Cell} {last : Option Time} {next : Cell}

theorem composed_number {p : Parser} {text : Str} {n m : Nat}
    (h : parseElements ext p text = .ok ⟨.int n, some (m : Int)⟩) (hn : 1 ≤ n) (hn' : n ≤ 9999)
    (hm : 1 ≤ m) (hm' : m ≤ 12) : parseComposed ext p text last = .ok ⟨n, m, 1, 0⟩ := by
  have hfill : fillHoles p ⟨.int n, some (m : Int)⟩ last = .ok ((n : Int), (m : Int)) := by
    have hn0 : n ≠ 0 := by omega
    have hm0 : m ≠ 0 := by omega
    unfold fillHoles
    split <;> simp [fillYear, YVal.truthy, YVal.toInt, fillMonth, hn0, hm0]
  simp only [parseComposed, h, hfill]
  rw [if_pos (by omega)]
  exact mkDate_first hn hn' hm hm'

theorem composed_number_last {p : Parser} {text : Str} {l : Time} {m : Nat}
    (h : parseElements ext p text = .ok ⟨.none, some (m : Int)⟩) (hl : ValidTime l)
    (hm : 1 ≤ m) (hm' : m ≤ 12) : parseComposed ext p text (some l) = .ok ⟨l.year, m, 1, 0⟩ := by
  have hfill : fillHoles p ⟨.none, some (m : Int)⟩ (some l) = .ok ((l.year : Int), (m : Int)) := by
    have hm0 : m ≠ 0 := by omega
    unfold fillHoles
    split <;> simp_all [fillYear, YVal.truthy, fillMonth, monthFalsy]
  simp only [parseComposed, h, hfill]
  rw [if_pos (by omega)]
  exact mkDate_first hl.year_pos hl.year_le hm hm'

/-- C111. In a yearly index a number whose whole part has four digits is 1 January of that year. -/
theorem C111_year_number {n : Nat} (hc : sp.timeComposed = true) (hf : sp.frequency = c!"A")
    (hpar : parser = none ∨ parser = some .year1) (hw : WholePart c n) (hn : 1000 ≤ n) (hn' : n ≤ 9999) :
    parseTimeValue ext sp parser c last next = (.ok ⟨n, 1, 1, 0⟩, some .year1) := by
  have h : parseElements ext .year1 (natStr n) = .ok ⟨.int n, some ((1 : Nat) : Int)⟩ := by
    rw [natStr_four hn hn']
    have := year1_ok (n := n) (lead := []) (f := []) (g := []) (r := []) (g' := []) (by omega) (.inl rfl)
      (by simp [Without]) (by simp [Without]) (.inl rfl) (by simp [Without]) (fun _ => rfl)
    rw [parseElements]
    simpa using this
  refine parse_select_number (p := .year1) (by decide) hc hf hw (.inl (by rw [h]; rfl)) ?_ hpar
    (parseWith_number (by decide) hw (composed_number h (by omega) hn' (by omega) (by omega)))
  intro q' hq' hh
  exfalso; revert hh; revert hq' q'; decide

example : parseTimeValue Sample.ext0 (Sample.composed c!"A") none (.int 1998) none .none =
    (.ok ⟨1998, 1, 1, 0⟩, some .year1) :=
  C111_year_number (n := 1998) rfl rfl (.inl rfl) rfl (by decide) (by decide)

example : parseTimeValue Sample.ext0 (Sample.composed c!"A") (some .year1) (.float (.fin (3997 / 2)))
    (some ⟨1997, 1, 1, 0⟩) .none = (.ok ⟨1998, 1, 1, 0⟩, some .year1) :=
  C111_year_number (n := 1998) rfl rfl (.inr rfl) (by constructor <;> norm_num) (by decide) (by decide)

/-- C111. In a quarterly index, after a date, a number with whole part 1, 2, 3 or 4 is the first day of that
quarter of the same year. -/
theorem C111_quarter_number {q : Nat} {l : Time} (hc : sp.timeComposed = true) (hf : sp.frequency = c!"Q")
    (hpar : parser = none ∨ parser = some .quarter1) (hw : WholePart c q) (hl : ValidTime l) (hq : 1 ≤ q)
    (hq' : q ≤ 4) :
    parseTimeValue ext sp parser c (some l) next = (.ok ⟨l.year, 3 * q - 2, 1, 0⟩, some .quarter1) := by
  have h : parseElements ext .quarter1 (natStr q) = .ok ⟨.none, some ((3 * q - 2 : Nat) : Int)⟩ := by
    have hd : natStr q = [digit q] := by rw [natStr_small (by omega), digitChar_eq q (by omega)]
    have := quarter1_noyear (q := q) (f1 := []) (num := [digit q]) (f3 := []) (notes := [])
      ⟨hq, hq', .inr rfl⟩ (by simp [Without]) (by simp [Without]) (.inl rfl)
    rw [hd]
    rw [parseElements]
    simpa using this
  refine parse_select_number (p := .quarter1) (by decide) hc hf hw (.inl (by rw [h]; rfl)) ?_ hpar
    (parseWith_number (by decide) hw (composed_number_last h hl (by omega) (by omega)))
  intro q' hq' hh
  exfalso; revert hh; revert hq' q'; decide

example : parseTimeValue Sample.ext0 (Sample.composed c!"Q") (some .quarter1) (.int 2)
    (some ⟨1986, 1, 1, 0⟩) .none = (.ok ⟨1986, 4, 1, 0⟩, some .quarter1) :=
  C111_quarter_number (q := 2) rfl rfl (.inr rfl) rfl (by decide) (by decide) (by decide)

/-- C111. In a monthly index, after a date, a number with whole part from 1 to 12 is the first day of that month of
the same year (the text of a number has no letters). -/
theorem C111_month_number {m : Nat} {l : Time} (hc : sp.timeComposed = true) (hf : sp.frequency = c!"M")
    (hpar : parser = none ∨ parser = some .month2) (hw : WholePart c m) (hl : ValidTime l) (hm : 1 ≤ m)
    (hm' : m ≤ 12) (hshown : ∀ s, ShownAs ext c s → ∀ x ∈ s, ¬ Letter x) :
    parseTimeValue ext sp parser c (some l) next = (.ok ⟨l.year, m, 1, 0⟩, some .month2) := by
  have hmd : MonthDigits m (natStr m) [] := by
    by_cases h : m < 10
    · exact .inr ⟨by rw [natStr_small h, digitChar_eq m h], h, by simp [NoDigitFirst]⟩
    · refine .inl ⟨?_, by omega⟩
      rw [natStr_big (by omega), natStr_small (by omega), digitChar_eq _ (by omega), digitChar_eq _ (by omega)]
      rfl
  have h : parseElements ext .month2 (natStr m) = .ok ⟨.none, some (m : Int)⟩ := by
    have := month2_m (m := m) (mm := natStr m) (rest := []) (by simp [Without]) hmd
    rw [parseElements]
    simpa using this
  refine parse_select_number (p := .month2) (by decide) hc hf hw (.inl (by rw [h]; rfl)) ?_ hpar
    (parseWith_number (by decide) hw (composed_number_last h hl hm hm'))
  intro q' hq'
  have : q' = .month1 := by revert hq' q'; decide
  subst this
  intro _
  constructor
  · rw [parseElements, month1_refuses]
    · rfl
    · intro x hx
      have hd : isDigit x = true := isDigit_natStr m x hx
      have : ∀ y ∈ digits, ¬ Letter y := by decide
      exact this x ((isDigit_iff x).1 hd)
  · intro s hs
    rw [parseElements, month1_refuses (hshown s hs)]
    rfl

example : parseTimeValue Sample.ext0 (Sample.composed c!"M") none (.int 11) (some ⟨1991, 10, 1, 0⟩) .none =
    (.ok ⟨1991, 11, 1, 0⟩, some .month2) :=
  C111_month_number (m := 11) rfl rfl (.inl rfl) rfl (by decide) (by decide) (by decide)
    (by rintro s ⟨q, h, _⟩; cases h)

theorem month2_year_only {n : Nat} (hn : n ≤ 9999) :
    gMonth2.run (four n) = .ok ⟨.none, some ((n / 100 : Nat) : Int)⟩ := by
  have e : four n = two (n / 100) ++ two (n % 100) := by
    simp only [four, two, List.cons_append, List.nil_append, List.cons.injEq, and_true]
    refine ⟨congrArg digit (by omega), trivial, congrArg digit (by omega), congrArg digit (by omega)⟩
  have hm : MonthDigits (n / 100) (two (n / 100)) (two (n % 100)) := .inl ⟨rfl, by omega⟩
  have hdrop : ∀ t : Char → Bool, (∀ c ∈ digits, t c = false) →
      (two (n % 100)).dropWhile t = two (n % 100) := by
    intro t ht
    unfold two
    rw [List.dropWhile_cons_of_neg (by simp [ht _ (digit_mem _)])]
  apply run_ok
  unfold gMonth2
  have hM := month2M_ok hm
  rw [hdrop _ (by decide), ← e] at hM
  rw [P.or_fail, P.or_fail]
  · rw [P.bind_ok hM, P.bind_ok (star_any _)]
    rfl
  · have h1 : ∀ s, P.star notDigit s = .ok (s.takeWhile notDigit) (s.dropWhile notDigit) := fun _ => rfl
    rw [P.bind_ok hM, P.bind_ok (h1 _), hdrop _ (by decide)]
    apply P.bind_fail
    unfold gMonth2Y
    have h2 : ∀ s, P.ws s = .ok (s.takeWhile isSpace) (s.dropWhile isSpace) := fun _ => rfl
    rw [P.bind_ok (h2 _), hdrop _ (by decide)]
    apply P.bind_fail
    have := rep_fail (t := isDigit) (lo := 4) (hi := 4) (u := two (n % 100)) (v := []) (by
      intro c hc
      simp only [two, List.mem_cons, List.not_mem_nil, or_false] at hc
      rcases hc with rfl | rfl <;> exact isDigit_digit _) (by simp [two]) (by intro c hc; cases hc)
    rwa [List.append_nil] at this
  · have hy : gMonth2Y (four n) = .ok (four n) [] := by
      unfold gMonth2Y
      have := four_rep n []
      rw [List.append_nil] at this
      have hw : P.ws (four n) = .ok [] (four n) := by
        have := ws_nil (v := four n ++ []) (Stops.four (by decide))
        rwa [List.append_nil] at this
      rw [P.bind_ok hw, P.bind_ok this]
      rfl
    rw [P.bind_ok hy]
    rfl

/-- C111. In a monthly index a number with decimals is the first day of the month that its decimals, as they are
shown, name in the year that is its whole part. -/
theorem C111_year_month_number_partial {n m : Nat} {mm : Str} (hc : sp.timeComposed = true) (hf : sp.frequency = c!"M")
    (hpar : parser = none ∨ parser = some .month2) (hw : WholePart c n) (hn : 1300 ≤ n) (hn' : n ≤ 9999)
    (hshown : ShownAs ext c (four n ++ c!"." ++ mm)) (hmm : MonthDigits m mm []) (hm : 1 ≤ m) (hm' : m ≤ 12) :
    parseTimeValue ext sp parser c last next = (.ok ⟨n, m, 1, 0⟩, some .month2) := by
  have hletters : ∀ y ∈ digits, ¬ Letter y := by decide
  have hmd : ∀ x ∈ mm, x ∈ digits := by
    rcases hmm with ⟨rfl, _⟩ | ⟨rfl, _⟩
    · intro x hx
      simp only [two, List.mem_cons, List.not_mem_nil, or_false] at hx
      rcases hx with rfl | rfl <;> exact digit_mem _
    · intro x hx
      rw [List.mem_singleton] at hx
      subst hx
      exact digit_mem _
  have hfd : ∀ x ∈ four n, x ∈ digits := by
    intro x hx
    simp only [four, List.mem_cons, List.not_mem_nil, or_false] at hx
    rcases hx with rfl | rfl | rfl | rfl <;> exact digit_mem _
  have hrepr : parseElements ext .month2 (four n ++ c!"." ++ mm) = .ok ⟨.str (four n), some (m : Int)⟩ := by
    have := month2_ym (n := n) (m := m) (sep := c!".") (mm := mm) (rest := []) (by unfold Without; decide) hmm
    rw [parseElements]
    simpa using this
  have hno : ∀ x ∈ four n ++ c!"." ++ mm, ¬ Letter x := by
    intro x hx
    rw [List.append_assoc, List.mem_append, List.mem_append] at hx
    rcases hx with h | h | h
    · exact hletters x (hfd x h)
    · rw [List.mem_singleton] at h
      subst h
      decide
    · exact hletters x (hmd x h)
  obtain ⟨q, rfl, hq⟩ := hshown
  refine parse_select_number (p := .month2) (by decide) hc hf hw
    (.inr ⟨_, ⟨q, rfl, hq⟩, by rw [hrepr]; rfl⟩) ?_ hpar ?_
  · intro q' hq'
    have : q' = .month1 := by revert hq' q'; decide
    subst this
    intro _
    constructor
    · rw [parseElements, natStr_four (by omega) hn', month1_refuses fun x hx => hletters x (hfd x hx)]
      rfl
    · rintro s ⟨q2, h2, rfl⟩
      cases h2
      rw [hq, parseElements, month1_refuses hno]
      rfl
  · have hs : ∀ s, parseStrWith ext .month2 sp.frequency last next s = parseComposed ext .month2 s last :=
      fun _ => rfl
    unfold parseWith parseCell
    dsimp only [floatIntStr]
    rw [truncRat_eq hw.1 hw.2, intStr_nat, hs, hs, natStr_four (by omega) hn', hq]
    have hbad : ∃ e, parseComposed ext .month2 (four n) last = .error e := by
      have h : parseElements ext .month2 (four n) = _ := month2_year_only hn'
      unfold parseComposed
      rw [h]
      dsimp only
      have hfill : ∀ y, fillYear .none last = .ok y →
          fillHoles .month2 ⟨.none, some ((n / 100 : Nat) : Int)⟩ last = .ok (y, ((n / 100 : Nat) : Int)) := by
        intro y hy
        unfold fillHoles
        split
        · contradiction
        · rw [hy]
          dsimp only [fillMonth]
          rw [if_neg (by omega)]
      cases last with
      | none =>
        rw [hfill 1 rfl]
        dsimp only
        rw [if_neg (by omega)]
        exact ⟨_, rfl⟩
      | some l =>
        rw [hfill l.year rfl]
        dsimp only
        rw [if_neg (by omega)]
        exact ⟨_, rfl⟩
    obtain ⟨e, he⟩ := hbad
    rw [he]
    dsimp only
    obtain ⟨y1, y2⟩ := four_toInt (n := n) (by omega)
    have hfill : fillHoles .month2 ⟨.str (four n), some (m : Int)⟩ last = .ok ((n : Int), (m : Int)) := by
      have hm0 : m ≠ 0 := by omega
      unfold fillHoles
      split
      · contradiction
      · simp [fillYear, y1, y2, fillMonth, hm0]
    simp only [parseComposed, hrepr, hfill]
    rw [if_pos (by omega)]
    exact mkDate_first (by omega) hn' hm hm'

namespace Sample

/-- The libraries of the examples, with Python's texts of two numbers. -/
def extFloats : Ext := { ext0 with
  reprFloat := fun x =>
    if x = .fin (199102 / 100) then c!"1991.02" else if x = .fin (19911 / 10) then c!"1991.1" else [] }

end Sample

example : parseTimeValue Sample.extFloats (Sample.composed c!"M") none (.float (.fin (199102 / 100))) none .none =
    (.ok ⟨1991, 2, 1, 0⟩, some .month2) :=
  C111_year_month_number_partial (n := 1991) (m := 2) (mm := c!"02") rfl rfl (.inl rfl)
    (by constructor <;> norm_num) (by decide) (by decide) ⟨_, rfl, by decide +kernel⟩
    (.inl ⟨rfl, by decide⟩) (by decide) (by decide)

/-- C111. Year and month as a number with two decimals, 1991.01 to 1991.12: the number 1991.10 is the number
1991.1, so October is read as January. -/
theorem C111_october_violated :
    ∃ (ext : Ext) (sp : SParams) (q : Rat), sp.timeComposed = true ∧ sp.frequency = c!"M" ∧
      q = 1991 + 10 / 100 ∧ ext.reprFloat (.fin q) = c!"1991.1" ∧
      ∀ parser last next, parser = none ∨ parser = some .month2 →
        parseTimeValue ext sp parser (.float (.fin q)) last next = (.ok ⟨1991, 1, 1, 0⟩, some .month2) :=
  ⟨Sample.extFloats, Sample.composed c!"M", 19911 / 10, rfl, rfl, by norm_num, by decide +kernel,
    fun _ _ _ hpar => C111_year_month_number_partial (n := 1991) (m := 1) (mm := c!"1") rfl rfl hpar
      (by constructor <;> norm_num) (by decide) (by decide) ⟨_, rfl, by decide +kernel⟩
      (.inr ⟨rfl, by decide, by simp [NoDigitFirst]⟩) (by decide) (by decide)⟩

end Xls
