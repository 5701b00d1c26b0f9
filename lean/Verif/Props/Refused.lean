import Verif.Props.Parsing

/-!
Texts that are no dates.
-/

set_option autoImplicit false

namespace Xls

open Spec

/-- Three digits are a year for the first month grammar, and not one that Python can read. -/
theorem month1_three {ext : Ext} {dot w ddd name rest : Str} (hdot : dot = [] ∨ dot = c!".") (hw : Blank w)
    (h3 : ddd.length = 3) (hd : ∀ c ∈ ddd, c ∈ digits) (hr : NoDigitFirst rest) (hn : Name name) :
    (gMonth1 ext).run (name ++ (dot ++ (w ++ (ddd ++ rest)))) = .error .valueError := by
  have hdig : ∀ c ∈ digits, isDigit c = true ∧ isSpace c = false ∧ isLetter c = false ∧ isSepM c = false ∧
      (c == '(') = false ∧ (c == '*') = false ∧ (c == '.') = false := by decide
  have hspace : ∀ c, isSpace c = true → isLetter c = false ∧ (c == '.') = false ∧ (c == '*') = false := by
    intro c hc
    refine ⟨?_, ?_, ?_⟩
    · cases hl : isLetter c with
      | false => rfl
      | true => rw [(letters_only c ((isLetter_iff c).mp hl)).1] at hc; cases hc
    · by_cases hx : c = '.'
      · subst hx; revert hc; decide
      · simpa using hx
    · by_cases hx : c = '*'
      · subst hx; revert hc; decide
      · simpa using hx
  obtain ⟨a, u, rfl⟩ : ∃ a u, ddd = a :: u := by
    cases ddd with
    | nil => cases h3
    | cons a u => exact ⟨a, u, rfl⟩
  have ha := hdig a (hd a (by simp))
  have hstop : ∀ t : Char → Bool, (∀ c, isSpace c = true → t c = false) → (∀ c ∈ digits, t c = false) →
      Stops t (w ++ (a :: u ++ rest)) := by
    intro t h1 h2
    exact Stops.append (fun c hc => h1 c (hw c hc)) (Stops.cons (h2 a (hd a (by simp))))
  have hsp : Stops isSpace (a :: u ++ rest) := Stops.cons ha.2.1
  apply run_exc
  unfold gMonth1
  rw [P.or_fail (P.bind_fail (month1Y_name hn))]
  have hm : gMonth1M (name ++ (dot ++ (w ++ (a :: u ++ rest)))) = .ok name (w ++ (a :: u ++ rest)) := by
    rcases hdot with rfl | rfl
    · rw [List.nil_append, month1M_ok hn (noLetterFirst_stops.mpr
        (hstop isLetter (fun c hc => (hspace c hc).1) fun c hc => (hdig c hc).2.2.1))]
      have := hstop (· == '.') (fun c hc => (hspace c hc).2.1) fun c hc => (hdig c hc).2.2.2.2.2.2
      unfold dropPoint
      split
      · next r heq => rw [heq] at this; have := this '.' (by simp); simp at this
      · rfl
    · rw [List.singleton_append, month1M_ok hn (noLetterFirst_stops.mpr (Stops.cons (by decide)))]
      rfl
  have href : gRef (w ++ (a :: u ++ rest)) = .fail :=
    ref_fail hw (Stops.cons ha.2.1) (Stops.cons ha.2.2.2.2.1)
      (hstop (· == '*') (fun c hc => (hspace c hc).2.2) fun c hc => (hdig c hc).2.2.2.2.2.1)
  have hsep : gMonth1Sep (w ++ (a :: u ++ rest)) = .fail := by
    unfold gMonth1Sep
    have h2 : P.ws (u ++ rest) = .ok ((u ++ rest).takeWhile isSpace) ((u ++ rest).dropWhile isSpace) := rfl
    rw [P.bind_ok (ws_ok hw hsp), List.cons_append, P.bind_ok (sat_ok rfl), P.bind_ok h2,
      if_neg (by simp [ha.2.2.2.1])]
    rfl
  have hy : ∃ r, gMonth1Y (w ++ (a :: u ++ rest)) = .ok (a :: u) r := by
    unfold gMonth1Y
    have h2 : P.ws rest = .ok (rest.takeWhile isSpace) (rest.dropWhile isSpace) := rfl
    rw [P.bind_ok (ws_ok hw hsp), P.bind_ok (rep_ok (fun c hc => (hdig c (hd c hc)).1)
      (by omega) (by omega) (.inr (noDigitFirst_stops.mp hr))), P.bind_ok h2]
    exact ⟨_, rfl⟩
  obtain ⟨r, hy⟩ := hy
  have hdob : dobYear (a :: u) = .error .valueError := by
    unfold dobYear
    rw [if_neg (by simp), if_neg (by omega), if_neg (by omega)]
  unfold P.or
  rw [P.bind_ok hm, P.bind_ok (P.opt_fail href), P.bind_ok (P.opt_fail hsep), P.bind_ok hy,
    P.bind_ok (star_any _), hdob]
  rfl

/-- A text that begins with a letter is no month in numbers. -/
theorem month2_name {name rest : Str} (hn : Name name) : gMonth2.run (name ++ rest) = .error .parseError := by
  have hd : Stops isDigit (name ++ rest) := name_head hn fun c hc => (letters_only c hc).2.1
  have hs : Stops isSpace (name ++ rest) := name_head hn fun c hc => (letters_only c hc).1
  have hM : gMonth2M (name ++ rest) = .fail := by
    unfold gMonth2M
    rw [P.bind_ok (ws_nil hs)]
    exact P.bind_fail (rep_fail_nil (by omega) hd)
  have hY : gMonth2Y (name ++ rest) = .fail := by
    unfold gMonth2Y
    rw [P.bind_ok (ws_nil hs)]
    exact P.bind_fail (rep_fail_nil (by omega) hd)
  apply run_fail
  unfold gMonth2
  rw [P.or_fail (P.bind_fail hY), P.or_fail (P.bind_fail hM)]
  exact P.bind_fail hM

/-- No grammar takes the text: no date. -/
theorem searchParser_none {ext : Ext} {sp : SParams} {raw : Str} {last : Option Time} {next : Cell}
    {old : Option Parser} : ∀ (ps : List Parser),
    (∀ q ∈ ps, acceptsStr ext q sp.timeComposed sp.frequency (strip (ext.unidecode raw)) = false) →
    searchParser ext sp (.str raw) last next old ps = (.error .parseTimeImplementationError, old)
  | [], _ => rfl
  | q :: ps, h => by
    rw [searchParser]
    simp only [accepts, h q (by simp)]
    exact searchParser_none ps fun q' hq' => h q' (by simp [hq'])

/-- C25. A month name with a year of three digits is no date: neither the year of the date before nor any other is
assumed. -/
theorem C25_three_digits {ext : Ext} {sp : SParams} {parser : Option Parser} {raw : Str} {last : Option Time}
    {next : Cell} {dot w ddd name rest : Str} (hc : sp.timeComposed = true) (hf : sp.frequency = c!"M")
    (hpar : parser = none ∨ parser = some .month1)
    (hraw : strip (ext.unidecode raw) = name ++ dot ++ w ++ ddd ++ rest) (hname : Name name)
    (hdot : dot = [] ∨ dot = c!".") (hw : Blank w) (h3 : ddd.length = 3) (hd : ∀ c ∈ ddd, c ∈ digits)
    (hr : NoDigitFirst rest) :
    ∀ t, (parseTimeValue ext sp parser (.str raw) last next).1 ≠ .ok t := by
  have h1 : (gMonth1 ext).run (strip (ext.unidecode raw)) = .error .valueError := by
    rw [hraw]
    simp only [List.append_assoc]
    exact month1_three hdot hw h3 hd hr hname
  have h2 : gMonth2.run (strip (ext.unidecode raw)) = .error .parseError := by
    rw [hraw]
    simp only [List.append_assoc]
    exact month2_name hname
  have hnone : ∀ old, searchParser ext sp (.str raw) last next old parsers =
      (.error .parseTimeImplementationError, old) := by
    intro old
    apply searchParser_none
    intro q _
    have hq : q = .month1 ∨ q = .month2 ∨ (c!"M" == q.freq) = false := by cases q <;> decide
    rcases hq with rfl | rfl | hq
    · simp [acceptsStr, parseElements, h1, isOk]
    · simp [acceptsStr, parseElements, h2, isOk]
    · unfold acceptsStr
      split
      · simp [hc]
      · rw [hf, hq]; simp
  intro t
  rcases hpar with rfl | rfl
  · unfold parseTimeValue
    dsimp only
    rw [hnone]
    simp
  · have hw' : parseWith ext .month1 sp.frequency (.str raw) last next = .error .valueError := by
      unfold parseWith parseCell
      simp [parseStrWith, parseComposed, parseElements, h1]
    unfold parseTimeValue
    dsimp only
    rw [hw']
    dsimp only
    rw [hnone]
    simp

example : ∀ t, (parseTimeValue Sample.extNames (Sample.composed c!"M") (some .month1) (.str c!"Feb. 199 (p)")
    (some ⟨1991, 1, 1, 0⟩) .none).1 ≠ .ok t :=
  C25_three_digits (name := c!"Feb") (dot := c!".") (w := c!" ") (ddd := c!"199") (rest := c!" (p)") rfl rfl
    (.inr rfl) (by decide) (by decide) (.inr rfl) (by decide) rfl (by decide) (by decide)

end Xls
