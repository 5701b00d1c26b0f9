/-
What the year and month grammars make of the texts of `Verif.Spec.TimeText`.
-/
import Verif.Lemmas.TimeText

set_option autoImplicit false

namespace Xls
open Spec

/-! ### years -/

theorem notDOrP_iff (c : Char) : notDOrP c = true ↔ c ∉ noteChars := by
  unfold notDOrP noteChars
  have hd : isDigit c = true ↔ c ∈ digits := isDigit_iff c
  have : c ∈ c!"0123456789()" ↔ c ∈ digits ∨ c = '(' ∨ c = ')' := by
    simp only [digits, List.mem_cons, List.not_mem_nil, or_false]
    tauto
  rw [this, ← hd]
  cases isDigit c <;> simp

theorem yfiller {s : Str} (h : Without noteChars s) : ∀ c ∈ s, notDOrP c = true :=
  fun c hc => (notDOrP_iff c).mpr (h c hc)

theorem yearRef_ok {s v : Str} (h : YearNote s) (hv : Stops notDOrP v) : gYearRef (s ++ v) = .ok () v := by
  obtain ⟨f, r, g, hf, ⟨ds, h1, h2, h3, rfl⟩, hg, rfl⟩ := h
  unfold gYearRef
  simp only [List.append_assoc, List.cons_append, List.nil_append]
  rw [P.bind_ok (star_ok (yfiller hf) (Stops.cons (by decide)))]
  rw [P.bind_ok (char_ok _ _)]
  rw [P.bind_ok (rep_ok (u := ds) (fun c hc => (isDigit_iff c).mpr (h3 c hc)) h1 h2
    (.inr (Stops.cons (by decide))))]
  rw [P.bind_ok (char_ok _ _)]
  rw [P.bind_ok (star_ok (yfiller hg) hv)]
  rfl

theorem yearRef_fail {f v : Str} (hf : Without noteChars f) (hv : Stops notDOrP v)
    (hp : Stops (· == '(') v) : gYearRef (f ++ v) = .fail := by
  unfold gYearRef
  rw [P.bind_ok (star_ok (yfiller hf) hv)]
  exact P.bind_fail (sat_fail hp)

theorem yearRef_end {s : Str} (h : s = [] ∨ YearNote s) : ∃ a, P.opt gYearRef s = .ok a [] := by
  rcases h with rfl | h
  · exact ⟨none, by decide⟩
  · have := yearRef_ok (v := []) h (Stops.nil _)
    rw [List.append_nil] at this
    exact ⟨some (), P.opt_ok this⟩

theorem four_rep (n : Nat) (v : Str) : P.rep 4 4 isDigit (four n ++ v) = .ok (four n) v :=
  rep_ok (isDigit_four n) (by simp [four]) (by simp [four]) (.inl (by simp [four]))

theorem year1_ok {n : Nat} {lead f g r : Str} (hn : n < 10000) (hl : lead = [] ∨ YearNote lead)
    (hf : Without noteChars f) (hg : Without noteChars g)
    (hr : r = [] ∨ IsRef r) {g' : Str} (hg' : Without noteChars g') (hr' : r = [] → g' = []) :
    gYear1.run (lead ++ f ++ four n ++ g ++ r ++ g') = .ok ⟨.int n, some 1⟩ := by
  apply run_ok
  have htail : Stops notDOrP (r ++ g') ∧ ∃ a, P.opt gYearRef (r ++ g') = .ok a [] := by
    rcases hr with rfl | hr
    · rw [hr' rfl]; exact ⟨Stops.nil _, none, by decide⟩
    · refine ⟨?_, yearRef_end (.inr ⟨[], r, g', by simp [Without], hr, hg', by simp⟩)⟩
      obtain ⟨ds, _, _, _, rfl⟩ := hr
      exact Stops.cons (by decide)
  obtain ⟨ht1, a, ht2⟩ := htail
  unfold gYear1
  simp only [List.append_assoc]
  rcases hl with rfl | hl
  · rw [List.nil_append]
    rw [P.bind_ok (P.opt_fail (yearRef_fail hf (Stops.four (by decide)) (Stops.four (by decide))))]
    rw [P.bind_ok (star_ok (yfiller hf) (Stops.four (by decide)))]
    rw [P.bind_ok (four_rep _ _), P.bind_ok (star_ok (yfiller hg) ht1), P.bind_ok ht2,
      digitsVal_four hn]
    rfl
  · have hl2 : YearNote (lead ++ f) := by
      obtain ⟨f0, r0, g0, a, b, c, rfl⟩ := hl
      refine ⟨f0, r0, g0 ++ f, a, b, ?_, by simp [List.append_assoc]⟩
      intro x hx
      rcases List.mem_append.mp hx with h | h
      · exact c x h
      · exact hf x h
    rw [← List.append_assoc lead]
    rw [P.bind_ok (P.opt_ok (yearRef_ok hl2 (Stops.four (by decide))))]
    rw [P.bind_ok (star_nil (Stops.four (by decide)))]
    rw [P.bind_ok (four_rep _ _), P.bind_ok (star_ok (yfiller hg) ht1), P.bind_ok ht2,
      digitsVal_four hn]
    rfl

theorem year2_ok {n k : Nat} {lead trail : Str} (hn : n < 10000) (hl : lead = [] ∨ YearNote lead)
    (hr : trail = [] ∨ YearNote trail) :
    gYear2.run (lead ++ four n ++ c!"/" ++ two k ++ trail) = .ok ⟨.int n, some 1⟩ := by
  apply run_ok
  obtain ⟨a, ht⟩ := yearRef_end hr
  unfold gYear2
  simp only [List.append_assoc]
  have hlead : ∃ b, P.opt gYearRef (lead ++ (four n ++ (c!"/" ++ (two k ++ trail)))) =
      .ok b (four n ++ (c!"/" ++ (two k ++ trail))) := by
    rcases hl with rfl | hl
    · exact ⟨none, P.opt_fail (yearRef_fail (f := []) (by simp [Without]) (Stops.four (by decide))
        (Stops.four (by decide)))⟩
    · exact ⟨some (), P.opt_ok (yearRef_ok hl (Stops.four (by decide)))⟩
  obtain ⟨b, hlead⟩ := hlead
  rw [P.bind_ok hlead, P.bind_ok (four_rep _ _), List.singleton_append, P.bind_ok (char_ok _ _),
    P.bind_ok (two_rep _ _), P.bind_ok ht, digitsVal_four hn]
  rfl

/-- The first year grammar refuses a campaign. -/
theorem year1_refuses {n k : Nat} {lead trail : Str} (hl : lead = [] ∨ YearNote lead) :
    gYear1.run (lead ++ four n ++ c!"/" ++ two k ++ trail) = .error .parseError := by
  have hlead : ∃ b, P.opt gYearRef (lead ++ (four n ++ (c!"/" ++ (two k ++ trail)))) =
      .ok b (four n ++ (c!"/" ++ (two k ++ trail))) := by
    rcases hl with rfl | hl
    · exact ⟨none, P.opt_fail (yearRef_fail (f := []) (by simp [Without]) (Stops.four (by decide))
        (Stops.four (by decide)))⟩
    · exact ⟨some (), P.opt_ok (yearRef_ok hl (Stops.four (by decide)))⟩
  obtain ⟨b, hlead⟩ := hlead
  have hs : P.star notDOrP (c!"/" ++ (two k ++ trail)) = .ok c!"/" (two k ++ trail) :=
    star_ok (by decide) (Stops.two (by decide))
  refine run_left (a := ⟨.int (digitsVal (four n)), some 1⟩) (c := digit (k / 10))
    (r := digit (k % 10) :: trail) ?_
  unfold gYear1
  simp only [List.append_assoc]
  rw [P.bind_ok hlead, P.bind_ok (star_nil (Stops.four (by decide))), P.bind_ok (four_rep _ _),
    P.bind_ok hs]
  have hf : gYearRef (two k ++ trail) = .fail :=
    yearRef_fail (f := []) (by simp [Without]) (Stops.two (by decide)) (Stops.two (by decide))
  rw [P.bind_ok (P.opt_fail hf)]
  rfl

/-! ### numbers in text -/

theorem lstrip_head {s : Str} (h : Stops isSpace s) : lstrip s = s := by
  unfold lstrip
  have := (takeWhile_split (t := isSpace) (u := []) (v := s) (by simp) h).2
  simpa using this

theorem digit_not_space {c : Char} (h : isDigit c = true) : isSpace c = false := by
  have key : ∀ c ∈ digits, isSpace c = false := by decide
  exact key c ((isDigit_iff c).mp h)

theorem strip_digits {s : Str} (h : ∀ c ∈ s, isDigit c = true) : strip s = s := by
  unfold strip
  rw [lstrip_head (Stops.all fun c hc => digit_not_space (h c hc)),
    lstrip_head (Stops.all fun c hc => digit_not_space (h c (by simpa using hc)))]
  simp

theorem digitsWithUnderscores_digits {s : Str} (h : ∀ c ∈ s, isDigit c = true) (b : Bool)
    (hb : b = true ∨ s ≠ []) : digitsWithUnderscores b s = some s := by
  induction s generalizing b with
  | nil =>
    rcases hb with hb | hb
    · subst hb; rfl
    · exact absurd rfl hb
  | cons c s ih =>
    unfold digitsWithUnderscores
    rw [if_pos (h c (by simp)), ih (fun d hd => h d (by simp [hd])) true (.inl rfl)]
    rfl

theorem pyInt_digits {s : Str} (h : ∀ c ∈ s, isDigit c = true) (hs : s ≠ []) :
    pyInt s = some (digitsVal s : Int) := by
  unfold pyInt
  rw [strip_digits h]
  have hd := digitsWithUnderscores_digits h false (.inr hs)
  cases s with
  | nil => exact absurd rfl hs
  | cons c s =>
    have hc := h c (by simp)
    split
    · next ds heq => injection heq with h1 h2; subst h1; exact absurd hc (by decide)
    · next ds heq => injection heq with h1 h2; subst h1; exact absurd hc (by decide)
    · rw [hd]; rfl

theorem composed_year {ext : Ext} {p : Parser} {text raw : Str} {last : Option Time} {next : Cell}
    {freq : Str} {y : YVal} {n m : Nat} (hp : p ≠ .simple) (hp' : p ≠ .quarterYear1)
    (hraw : strip (ext.unidecode raw) = text)
    (h : parseElements ext p text = .ok ⟨y, some (m : Int)⟩) (hy : y.truthy = true)
    (hy' : y.toInt = .ok (n : Int)) (hn : 1 ≤ n) (hn' : n ≤ 9999)
    (hm : 1 ≤ m) :
    parseWith ext p freq (.str raw) last next =
      if m ≤ 12 then .ok ⟨n, m, 1, 0⟩ else .error .monthOutOfRange := by
  have hfill : fillHoles p ⟨y, some (m : Int)⟩ last = .ok ((n : Int), (m : Int)) := by
    have hm0 : m ≠ 0 := by omega
    unfold fillHoles
    split
    · next t => exact absurd rfl hp'
    · simp [fillYear, hy, hy', fillMonth, hm0]
  unfold parseWith parseCell
  simp only [hraw]
  unfold parseStrWith
  cases p <;> first | exact absurd rfl hp | exact absurd rfl hp' | skip
  all_goals
    simp only [parseComposed, h, hfill]
    by_cases hm' : m ≤ 12
    · rw [if_pos hm', if_pos (by omega)]
      exact mkDate_first hn hn' hm hm'
    · rw [if_neg hm', if_neg (by omega)]

theorem four_toInt {n : Nat} (hn : n < 10000) :
    (YVal.str (four n)).truthy = true ∧ (YVal.str (four n)).toInt = .ok (n : Int) := by
  refine ⟨rfl, ?_⟩
  unfold YVal.toInt
  simp only [pyInt_digits (isDigit_four n) (by simp [four]), digitsVal_four hn]

/-! ### numeric months -/

theorem noDigitFirst_stops {s : Str} : NoDigitFirst s ↔ Stops isDigit s := by
  unfold NoDigitFirst Stops
  constructor
  · intro h c hc
    have := h c hc
    rw [← isDigit_iff] at this
    simpa using this
  · intro h c hc hd
    rw [← isDigit_iff, h c hc] at hd
    cases hd

theorem monthDigits_ok {m : Nat} {mm rest : Str} (h : MonthDigits m mm rest) :
    (∀ c ∈ mm, isDigit c = true) ∧ digitsVal mm = m ∧
    P.rep 1 2 isDigit (mm ++ rest) = .ok mm rest := by
  rcases h with ⟨rfl, h⟩ | ⟨rfl, h1, h2⟩
  · exact ⟨isDigit_two m, digitsVal_two h, rep_ok (isDigit_two m) (by simp [two]) (by simp [two])
      (.inl (by simp [two]))⟩
  · refine ⟨by simpa using isDigit_digit m, ?_, rep_ok (by simpa using isDigit_digit m) (by simp)
      (by simp) (.inr (noDigitFirst_stops.mp h2))⟩
    simp [digitsVal, digitVal_digit h1]

theorem monthDigits_head {m : Nat} {mm rest : Str} (h : MonthDigits m mm rest) {t : Char → Bool}
    (ht : ∀ c ∈ digits, t c = false) : Stops t (mm ++ rest) := by
  rcases h with ⟨rfl, h⟩ | ⟨rfl, h1, h2⟩
  · exact Stops.two ht
  · exact Stops.digit ht

theorem month2M_ok {m : Nat} {mm rest : Str} (h : MonthDigits m mm rest) :
    gMonth2M (mm ++ rest) = .ok m (rest.dropWhile isSpace) := by
  obtain ⟨_, h2, h3⟩ := monthDigits_ok h
  unfold gMonth2M
  rw [P.bind_ok (ws_nil (monthDigits_head h (by decide))), P.bind_ok h3]
  have h4 : P.ws rest = .ok (rest.takeWhile isSpace) (rest.dropWhile isSpace) := rfl
  rw [P.bind_ok h4, h2]
  rfl

theorem notDigit_mem {s : Str} (h : Without digits s) : ∀ c ∈ s, notDigit c = true := by
  intro c hc
  have := h c hc
  rw [← isDigit_iff] at this
  simp [notDigit, this]

/-- `ws` then `not_digit*` eats a separator. -/
theorem sep_digits {sep v : Str} (h : Without digits sep) (hv : Stops notDigit v)
    (hv' : Stops isSpace v) :
    ∃ a b, P.ws (sep ++ v) = .ok a (b ++ v) ∧ P.star notDigit (b ++ v) = .ok b v ∧
      b = sep.dropWhile isSpace := by
  refine ⟨sep.takeWhile isSpace, sep.dropWhile isSpace, ?_, ?_, rfl⟩
  · have hsplit : sep ++ v = sep.takeWhile isSpace ++ (sep.dropWhile isSpace ++ v) := by
      rw [← List.append_assoc, List.takeWhile_append_dropWhile]
    rw [hsplit]
    apply ws_ok (takeWhile_true _ _)
    cases hdw : sep.dropWhile isSpace with
    | nil => exact hv'
    | cons c u =>
      apply Stops.cons
      have := List.head?_dropWhile_not isSpace sep
      rw [hdw] at this
      simpa using this
  · apply star_ok _ hv
    intro c hc
    exact notDigit_mem h c ((List.dropWhile_suffix _).subset hc)

theorem month2_ym {n m : Nat} {sep mm rest : Str} (hs : Without digits sep)
    (hm : MonthDigits m mm rest) :
    gMonth2.run (four n ++ sep ++ mm ++ rest) = .ok ⟨.str (four n), some (m : Int)⟩ := by
  apply run_ok
  unfold gMonth2
  apply P.or_ok
  simp only [List.append_assoc]
  obtain ⟨a, b, h1, h2, _⟩ := sep_digits hs (monthDigits_head hm (t := notDigit) (by decide))
    (monthDigits_head hm (by decide))
  have hy : gMonth2Y (four n ++ (sep ++ (mm ++ rest))) = .ok (four n) (b ++ (mm ++ rest)) := by
    unfold gMonth2Y
    rw [P.bind_ok (ws_nil (Stops.four (by decide))), P.bind_ok (four_rep _ _), P.bind_ok h1]
    rfl
  rw [P.bind_ok hy, P.bind_ok h2, P.bind_ok (month2M_ok hm), P.bind_ok (star_any _)]
  rfl

theorem month2Y_fails {m : Nat} {mm rest : Str} (h : MonthDigits m mm rest)
    (hr : NoDigitFirst rest) : gMonth2Y (mm ++ rest) = .fail := by
  unfold gMonth2Y
  rw [P.bind_ok (ws_nil (monthDigits_head h (by decide)))]
  apply P.bind_fail
  refine rep_fail (monthDigits_ok h).1 ?_ (noDigitFirst_stops.mp hr)
  rcases h with ⟨rfl, _⟩ | ⟨rfl, _⟩ <;> simp [two]

theorem month2_my {n m : Nat} {sep mm rest : Str} (hs : Without digits sep) (hne : sep ≠ [])
    (hm : MonthDigits m mm (sep ++ (four n ++ rest))) :
    gMonth2.run (mm ++ sep ++ four n ++ rest) = .ok ⟨.str (four n), some (m : Int)⟩ := by
  apply run_ok
  unfold gMonth2
  simp only [List.append_assoc]
  have hnd : NoDigitFirst (sep ++ (four n ++ rest)) := by
    cases sep with
    | nil => exact absurd rfl hne
    | cons c s => intro d hd; simp at hd; subst hd; exact hs _ (by simp)
  rw [P.or_fail (P.bind_fail (month2Y_fails hm hnd))]
  apply P.or_ok
  rw [P.bind_ok (month2M_ok hm)]
  obtain ⟨a, b, h1, h2, hb⟩ := sep_digits (v := four n ++ rest) hs (Stops.four (by decide))
    (Stops.four (by decide))
  have h3 : (sep ++ (four n ++ rest)).dropWhile isSpace = b ++ (four n ++ rest) := by
    have : P.ws (sep ++ (four n ++ rest)) = .ok _ ((sep ++ (four n ++ rest)).dropWhile isSpace) := rfl
    rw [h1] at this
    injection this with _ h
    exact h.symm
  rw [h3, P.bind_ok h2]
  have hy : gMonth2Y (four n ++ rest) = .ok (four n) (rest.dropWhile isSpace) := by
    unfold gMonth2Y
    have h4 : P.ws rest = .ok (rest.takeWhile isSpace) (rest.dropWhile isSpace) := rfl
    rw [P.bind_ok (ws_nil (Stops.four (by decide))), P.bind_ok (four_rep _ _), P.bind_ok h4]
    rfl
  rw [P.bind_ok hy, P.bind_ok (star_any _)]
  rfl

theorem rep_no_digit {lo hi : Nat} {s : Str} (h : Without digits s) (hlo : 0 < lo) :
    P.rep lo hi isDigit s = .fail := by
  refine rep_fail_nil hlo (Stops.all fun c hc => ?_)
  have := h c hc
  rw [← isDigit_iff] at this
  simpa using this

theorem Without.suffix {cs s r : Str} (h : Without cs s) (hr : r <:+ s) : Without cs r :=
  fun c hc => h c (hr.subset hc)

theorem month2_m {m : Nat} {mm rest : Str} (hr : Without digits rest)
    (hm : MonthDigits m mm rest) :
    gMonth2.run (mm ++ rest) = .ok ⟨.none, some (m : Int)⟩ := by
  apply run_ok
  unfold gMonth2
  have hnd : NoDigitFirst rest := by
    intro c hc
    exact hr c (List.mem_of_mem_head? hc)
  rw [P.or_fail (P.bind_fail (month2Y_fails hm hnd))]
  rw [P.or_fail]
  · rw [P.bind_ok (month2M_ok hm), P.bind_ok (star_any _)]; rfl
  · rw [P.bind_ok (month2M_ok hm)]
    have h1 : ∀ s, P.star notDigit s = .ok (s.takeWhile notDigit) (s.dropWhile notDigit) := fun _ => rfl
    rw [P.bind_ok (h1 _)]
    apply P.bind_fail
    unfold gMonth2Y
    have h2 : ∀ s, P.ws s = .ok (s.takeWhile isSpace) (s.dropWhile isSpace) := fun _ => rfl
    rw [P.bind_ok (h2 _)]
    apply P.bind_fail
    refine rep_no_digit ?_ (by omega)
    exact Without.suffix hr ((List.dropWhile_suffix _).trans ((List.dropWhile_suffix _).trans
      (List.dropWhile_suffix _)))

/-! ### named months -/

theorem isLetter_iff (c : Char) : isLetter c = true ↔ Letter c := by
  unfold isLetter Letter
  simp only [Bool.or_eq_true, Bool.and_eq_true, decide_eq_true_eq, Char.le_def, UInt32.le_iff_toNat_le]
  rfl

theorem letters_only (c : Char) (h : Letter c) : isSpace c = false ∧ isDigit c = false ∧ c ≠ '(' ∧
    c ≠ '*' ∧ isSepM c = false := by
  rw [← isLetter_iff] at h
  unfold isLetter at h
  simp only [Bool.or_eq_true, Bool.and_eq_true, decide_eq_true_eq] at h
  have hc : c = Char.ofNat c.toNat := (Char.ofNat_toNat c).symm
  have key : ∀ n, ((65 ≤ n ∧ n ≤ 90) ∨ (97 ≤ n ∧ n ≤ 122)) → n < 123 := by omega
  have key2 : ∀ n : Fin 123, ((65 ≤ n.1 ∧ n.1 ≤ 90) ∨ (97 ≤ n.1 ∧ n.1 ≤ 122)) →
      isSpace (Char.ofNat n.1) = false ∧ isDigit (Char.ofNat n.1) = false ∧ Char.ofNat n.1 ≠ '(' ∧
      Char.ofNat n.1 ≠ '*' ∧ isSepM (Char.ofNat n.1) = false := by decide
  have := key2 ⟨c.toNat, key _ h⟩ h
  simp only [Char.ofNat_toNat] at this
  exact this

theorem noLetterFirst_stops {s : Str} : NoLetterFirst s ↔ Stops isLetter s := by
  unfold NoLetterFirst Stops
  constructor
  · intro h c hc
    have := h c hc
    rw [← isLetter_iff] at this
    simpa using this
  · intro h c hc hd
    rw [← isLetter_iff, h c hc] at hd
    cases hd

theorem name_cons {name : Str} (h : Name name) : ∃ a b c s, name = a :: b :: c :: s ∧ Letter a ∧
    Letter b := by
  obtain ⟨h1, _, h3⟩ := h
  match name, h1, h3 with
  | a :: b :: c :: s, _, h3 => exact ⟨a, b, c, s, rfl, h3 a (by simp), h3 b (by simp)⟩

theorem name_head {name v : Str} (h : Name name) {t : Char → Bool}
    (ht : ∀ c, Letter c → t c = false) : Stops t (name ++ v) := by
  obtain ⟨a, b, c, s, rfl, ha, _⟩ := name_cons h
  exact Stops.cons (ht a ha)

def dropPoint : Str → Str
  | '.' :: r => r
  | r => r

/-- The name and the optional point. -/
theorem month1M_ok {name rest : Str} (h : Name name) (hr : NoLetterFirst rest) :
    gMonth1M (name ++ rest) = .ok name (dropPoint rest) := by
  unfold gMonth1M
  rw [P.bind_ok (ws_nil (name_head h fun c hc => (letters_only c hc).1))]
  rw [P.bind_ok (rep_ok (fun c hc => (isLetter_iff c).mpr (h.2.2 c hc)) h.1 h.2.1
    (.inr (noLetterFirst_stops.mp hr)))]
  unfold dropPoint
  split
  · rw [P.bind_ok (P.opt_ok (char_ok _ _))]; rfl
  · next hne =>
    have : P.char '.' rest = .fail := by
      cases rest with
      | nil => rfl
      | cons c u =>
        apply sat_fail; apply Stops.cons
        by_cases hc : c = '.'
        · exact (hne u (by rw [hc])).elim
        · simpa using hc
    rw [P.bind_ok (P.opt_fail this)]; rfl

theorem month1M_any {name rest : Str} (h : Name name) (hr : NoLetterFirst rest) :
    ∃ r, gMonth1M (name ++ rest) = .ok name r ∧ r <:+ rest := by
  refine ⟨_, month1M_ok h hr, ?_⟩
  unfold dropPoint
  split
  · exact List.suffix_cons _ _
  · exact List.suffix_refl _

theorem yearDigits_ok {y : Nat} {yy rest : Str} (h : YearDigits y yy rest) :
    P.rep 2 4 isDigit (yy ++ rest) = .ok yy rest ∧ dobYear yy = .ok (.int y) := by
  rcases h with ⟨rfl, h⟩ | ⟨rfl, h1, h2, h3⟩
  · refine ⟨rep_ok (isDigit_four y) (by simp [four]) (by simp [four]) (.inl (by simp [four])), ?_⟩
    have h1 : (four y).isEmpty = false := rfl
    have h2 : (four y).length = 4 := rfl
    unfold dobYear
    rw [h1, h2, digitsVal_four h]; rfl
  · exact ⟨rep_ok (isDigit_two _) (by simp [two]) (by simp [two])
      (.inr (noDigitFirst_stops.mp h3)), dob_two h1 h2⟩

theorem yearDigits_head {y : Nat} {yy rest : Str} (h : YearDigits y yy rest) {t : Char → Bool}
    (ht : ∀ c ∈ digits, t c = false) : Stops t (yy ++ rest) := by
  rcases h with ⟨rfl, h⟩ | ⟨rfl, h1, h2, h3⟩
  · exact Stops.four ht
  · exact Stops.two ht

theorem month1Sep_ok {x : Char} {w v : Str} (hx : isSepM x = true) (hxs : isSpace x = false)
    (hw : Blank w) (hv : Stops isSpace v) : gMonth1Sep (x :: (w ++ v)) = .ok () v := by
  unfold gMonth1Sep
  rw [P.bind_ok (ws_nil (Stops.cons hxs)), P.bind_ok (sat_ok rfl), P.bind_ok (ws_ok hw hv)]
  rw [if_pos hx]
  rfl

theorem month1Sep_fail {x : Char} {v : Str} (hx : isSepM x = false) (hxs : isSpace x = false) :
    gMonth1Sep (x :: v) = .fail := by
  unfold gMonth1Sep
  have h2 : P.ws v = .ok (v.takeWhile isSpace) (v.dropWhile isSpace) := rfl
  rw [P.bind_ok (ws_nil (Stops.cons hxs)), P.bind_ok (sat_ok rfl), P.bind_ok h2, if_neg (by simp [hx])]
  rfl

theorem sepM_mem {x : Char} (h : x ∈ c!".-/,") : isSepM x = true ∧ isSpace x = false ∧
    x ≠ '(' ∧ x ≠ '*' := by
  have : ∀ x ∈ c!".-/,", isSepM x = true ∧ isSpace x = false ∧ x ≠ '(' ∧ x ≠ '*' := by decide
  exact this x h

theorem month1_ym {ext : Ext} {y : Nat} {yy w1 sep w2 name rest : Str}
    (hy : YearDigits y yy (w1 ++ (sep ++ (w2 ++ (name ++ rest))))) (hw1 : Blank w1)
    (hs : OneSep c!".-/," sep) (hw2 : Blank w2) (hn : Name name) (hr : NoLetterFirst rest) :
    (gMonth1 ext).run (yy ++ w1 ++ sep ++ w2 ++ name ++ rest) =
      .ok ⟨.int y, monthStrToNum ext name⟩ := by
  apply run_ok
  unfold gMonth1
  apply P.or_ok
  simp only [List.append_assoc]
  obtain ⟨hy1, hy2⟩ := yearDigits_ok hy
  obtain ⟨r, hm, _⟩ := month1M_any hn hr
  have hnsp : Stops isSpace (name ++ rest) := name_head hn fun c hc => (letters_only c hc).1
  rcases hs with rfl | ⟨x, hx, rfl⟩
  · have hY : gMonth1Y (yy ++ (w1 ++ ([] ++ (w2 ++ (name ++ rest))))) = .ok yy (name ++ rest) := by
      unfold gMonth1Y
      rw [P.bind_ok (ws_nil (yearDigits_head hy (by decide))), P.bind_ok hy1]
      have : w1 ++ ([] ++ (w2 ++ (name ++ rest))) = (w1 ++ w2) ++ (name ++ rest) := by simp
      rw [this, P.bind_ok (ws_ok (u := w1 ++ w2) (by
        intro c hc
        rcases List.mem_append.mp hc with h | h
        · exact hw1 c h
        · exact hw2 c h) hnsp)]
      rfl
    rw [P.bind_ok hY]
    rw [P.bind_ok (P.opt_fail (ref_fail_nil hnsp
      (name_head hn fun c hc => by simpa using (letters_only c hc).2.2.1)
      (name_head hn fun c hc => by simpa using (letters_only c hc).2.2.2.1)))]
    have hsep : gMonth1Sep (name ++ rest) = .fail := by
      obtain ⟨a, b, c, s, rfl, ha, hb⟩ := name_cons hn
      exact month1Sep_fail (letters_only a ha).2.2.2.2 (letters_only a ha).1
    rw [P.bind_ok (P.opt_fail hsep), P.bind_ok hm, P.bind_ok (star_any _), hy2]
    rfl
  · obtain ⟨hx1, hx2, hx3, hx4⟩ := sepM_mem hx
    have hY : gMonth1Y (yy ++ (w1 ++ ([x] ++ (w2 ++ (name ++ rest))))) =
        .ok yy (x :: (w2 ++ (name ++ rest))) := by
      unfold gMonth1Y
      rw [P.bind_ok (ws_nil (yearDigits_head hy (by decide))), P.bind_ok hy1]
      rw [List.singleton_append, P.bind_ok (ws_ok hw1 (Stops.cons hx2))]
      rfl
    rw [P.bind_ok hY]
    rw [P.bind_ok (P.opt_fail (ref_fail_nil (Stops.cons hx2) (Stops.cons (by simpa using hx3))
      (Stops.cons (by simpa using hx4))))]
    rw [P.bind_ok (P.opt_ok (month1Sep_ok hx1 hx2 hw2 hnsp)), P.bind_ok hm, P.bind_ok (star_any _),
      hy2]
    rfl

theorem month1Y_name {name rest : Str} (hn : Name name) : gMonth1Y (name ++ rest) = .fail := by
  unfold gMonth1Y
  rw [P.bind_ok (ws_nil (name_head hn fun c hc => (letters_only c hc).1))]
  exact P.bind_fail (rep_fail_nil (by omega) (name_head hn fun c hc => (letters_only c hc).2.1))

/-- From the end of the month name to the year. -/
theorem month1_mid {y : Nat} {w1 note w2 sep w3 yy rest : Str} (hw1 : Blank w1)
    (hnote : note = [] ∨ IsRef note) (hw2 : Blank w2) (hs : OneSep c!"-/," sep) (hw3 : Blank w3)
    (hy : YearDigits y yy rest) :
    ∃ a r b r', P.opt gRef (w1 ++ (note ++ (w2 ++ (sep ++ (w3 ++ (yy ++ rest)))))) = .ok a r ∧
      P.opt gMonth1Sep r = .ok b r' ∧ ∃ r'', gMonth1Y r' = .ok yy r'' := by
  have hsep : ∀ w, Blank w → ∃ b r', P.opt gMonth1Sep (w ++ (sep ++ (w3 ++ (yy ++ rest)))) = .ok b r' ∧
      ∃ r'', gMonth1Y r' = .ok yy r'' := by
    intro w hw
    have hY : ∀ u, Blank u → ∃ r'', gMonth1Y (u ++ (yy ++ rest)) = .ok yy r'' := by
      intro u hu
      unfold gMonth1Y
      rw [P.bind_ok (ws_ok hu (yearDigits_head hy (by decide))), P.bind_ok (yearDigits_ok hy).1]
      have h2 : P.ws rest = .ok (rest.takeWhile isSpace) (rest.dropWhile isSpace) := rfl
      rw [P.bind_ok h2]
      exact ⟨_, rfl⟩
    rcases hs with rfl | ⟨x, hx, rfl⟩
    · refine ⟨none, _, P.opt_fail ?_, ?_⟩
      · have he : w ++ ([] ++ (w3 ++ (yy ++ rest))) = (w ++ w3) ++ (yy ++ rest) := by simp
        rw [he]
        have hb : Blank (w ++ w3) := by
          intro c hc
          rcases List.mem_append.mp hc with h | h
          · exact hw c h
          · exact hw3 c h
        unfold gMonth1Sep
        rw [P.bind_ok (ws_ok hb (yearDigits_head hy (by decide)))]
        obtain ⟨d, u, hdu, hd⟩ : ∃ d u, yy ++ rest = d :: u ∧ d ∈ digits := by
          rcases hy with ⟨rfl, _⟩ | ⟨rfl, _⟩
          · exact ⟨_, _, rfl, digit_mem _⟩
          · exact ⟨_, _, rfl, digit_mem _⟩
        rw [hdu, P.bind_ok (sat_ok rfl)]
        have h2 : P.ws u = .ok (u.takeWhile isSpace) (u.dropWhile isSpace) := rfl
        rw [P.bind_ok h2]
        have : isSepM d = false := by
          have : ∀ d ∈ digits, isSepM d = false := by decide
          exact this d hd
        rw [if_neg (by simp [this])]
        rfl
      · have he : w ++ ([] ++ (w3 ++ (yy ++ rest))) = (w ++ w3) ++ (yy ++ rest) := by simp
        rw [he]
        apply hY
        intro c hc
        rcases List.mem_append.mp hc with h | h
        · exact hw c h
        · exact hw3 c h
    · have hx' : x ∈ c!".-/," := by
        have : ∀ x ∈ c!"-/,", x ∈ c!".-/," := by decide
        exact this x hx
      obtain ⟨hx1, hx2, hx3, hx4⟩ := sepM_mem hx'
      refine ⟨some (), yy ++ rest, P.opt_ok ?_, by simpa using hY [] (by simp [Blank])⟩
      unfold gMonth1Sep
      rw [List.singleton_append, P.bind_ok (ws_ok hw (Stops.cons hx2)), P.bind_ok (sat_ok rfl),
        P.bind_ok (ws_ok hw3 (yearDigits_head hy (by decide)))]
      rw [if_pos hx1]
      rfl
  have hstop : ∀ t : Char → Bool, (∀ c ∈ digits, t c = false) → (∀ c ∈ c!"-/,", t c = false) →
      Stops isSpace (sep ++ (w3 ++ (yy ++ rest))) ∨ sep = [] := by
    intro t _ _
    rcases hs with rfl | ⟨x, hx, rfl⟩
    · exact .inr rfl
    · left
      apply Stops.cons
      have : ∀ x ∈ c!"-/,", isSpace x = false := by decide
      exact this x hx
  rcases hnote with rfl | hnote
  · -- no footnote
    have hw12 : Blank (w1 ++ w2) := by
      intro c hc
      rcases List.mem_append.mp hc with h | h
      · exact hw1 c h
      · exact hw2 c h
    have he : w1 ++ ([] ++ (w2 ++ (sep ++ (w3 ++ (yy ++ rest))))) =
        (w1 ++ w2) ++ (sep ++ (w3 ++ (yy ++ rest))) := by simp
    rw [he]
    obtain ⟨b, r', h1, h2⟩ := hsep _ hw12
    refine ⟨none, _, b, r', P.opt_fail ?_, h1, h2⟩
    have hstar : Stops (· == '*') ((w1 ++ w2) ++ (sep ++ (w3 ++ (yy ++ rest)))) := by
      apply Stops.append
      · intro c hc
        have := hw12 c hc
        by_cases hx : c = '*'
        · subst hx; revert this; decide
        · simpa using hx
      · rcases hs with rfl | ⟨x, hx, rfl⟩
        · apply Stops.append (u := []) (by simp)
          apply Stops.append
          · intro c hc
            have := hw3 c hc
            by_cases hx : c = '*'
            · subst hx; revert this; decide
            · simpa using hx
          · exact yearDigits_head hy (by decide)
        · apply Stops.cons
          have : ∀ x ∈ c!"-/,", (x == '*') = false := by decide
          exact this x hx
    rcases hs with rfl | ⟨x, hx, rfl⟩
    · have he : (w1 ++ w2) ++ ([] ++ (w3 ++ (yy ++ rest))) = (w1 ++ w2 ++ w3) ++ (yy ++ rest) := by simp
      rw [he] at hstar ⊢
      refine ref_fail ?_ (yearDigits_head hy (by decide)) (yearDigits_head hy (by decide)) hstar
      intro c hc
      rcases List.mem_append.mp hc with h | h
      · exact hw12 c h
      · exact hw3 c h
    · refine ref_fail hw12 (Stops.cons ?_) (Stops.cons ?_) hstar
      · have : ∀ x ∈ c!"-/,", isSpace x = false := by decide
        exact this x hx
      · have : ∀ x ∈ c!"-/,", (x == '(') = false := by decide
        exact this x hx
  · -- a footnote
    have hsp : ∃ w v, Blank w ∧ Stops isSpace v ∧ w2 ++ (sep ++ (w3 ++ (yy ++ rest))) = w ++ v ∧
        ∃ b r', P.opt gMonth1Sep v = .ok b r' ∧ ∃ r'', gMonth1Y r' = .ok yy r'' := by
      rcases hs with rfl | ⟨x, hx, rfl⟩
      · refine ⟨w2 ++ w3, yy ++ rest, ?_, yearDigits_head hy (by decide), by simp, ?_⟩
        · intro c hc
          rcases List.mem_append.mp hc with h | h
          · exact hw2 c h
          · exact hw3 c h
        · obtain ⟨d, u, hdu, hd⟩ : ∃ d u, yy ++ rest = d :: u ∧ d ∈ digits := by
            rcases hy with ⟨rfl, _⟩ | ⟨rfl, _⟩
            · exact ⟨_, _, rfl, digit_mem _⟩
            · exact ⟨_, _, rfl, digit_mem _⟩
          refine ⟨none, yy ++ rest, P.opt_fail ?_, ?_⟩
          · rw [hdu]
            have h1 : ∀ d ∈ digits, isSepM d = false ∧ isSpace d = false := by decide
            exact month1Sep_fail (h1 d hd).1 (h1 d hd).2
          · unfold gMonth1Y
            rw [P.bind_ok (ws_nil (yearDigits_head hy (by decide))), P.bind_ok (yearDigits_ok hy).1]
            have h2 : P.ws rest = .ok (rest.takeWhile isSpace) (rest.dropWhile isSpace) := rfl
            rw [P.bind_ok h2]
            exact ⟨_, rfl⟩
      · have hsx : ∀ x ∈ c!"-/,", isSpace x = false := by decide
        refine ⟨w2, _, hw2, Stops.cons (hsx x hx), rfl, ?_⟩
        have := hsep [] (by simp [Blank])
        simpa using this
    obtain ⟨w, v, hw, hv, he, b, r', h1, h2⟩ := hsp
    rw [he]
    refine ⟨some (), v, b, r', P.opt_ok ?_, h1, h2⟩
    unfold gRef
    apply P.or_ok
    obtain ⟨ds, d1, d2, d3, rfl⟩ := hnote
    have hpar : Stops isSpace (c!"(" ++ ds ++ c!")" ++ (w ++ v)) := Stops.cons (by decide)
    rw [P.bind_ok (ws_ok hw1 hpar)]
    simp only [List.append_assoc, List.cons_append, List.nil_append]
    rw [P.bind_ok (char_ok _ _)]
    rw [P.bind_ok (rep_ok (u := ds) (fun c hc => (isDigit_iff c).mpr (d3 c hc)) d1 d2
      (.inr (Stops.cons (by decide))))]
    rw [P.bind_ok (char_ok _ _)]
    rw [P.bind_ok (ws_ok hw hv)]
    rfl

theorem month1_my {ext : Ext} {y : Nat} {dot w1 note w2 sep w3 yy name rest : Str}
    (hdot : dot = [] ∨ dot = c!".") (hw1 : Blank w1)
    (hnote : note = [] ∨ IsRef note) (hw2 : Blank w2) (hs : OneSep c!"-/," sep) (hw3 : Blank w3)
    (hy : YearDigits y yy rest) (hn : Name name) :
    (gMonth1 ext).run (name ++ (dot ++ (w1 ++ (note ++ (w2 ++ (sep ++ (w3 ++ (yy ++ rest)))))))) =
      .ok ⟨.int y, monthStrToNum ext name⟩ := by
  apply run_ok
  unfold gMonth1
  rw [P.or_fail (P.bind_fail (month1Y_name hn))]
  apply P.or_ok
  have hstop : ∀ t : Char → Bool, (∀ c, isSpace c = true → t c = false) → (t '(' = false) →
      (∀ c ∈ digits, t c = false) → (∀ c ∈ c!"-/,", t c = false) →
      Stops t (w1 ++ (note ++ (w2 ++ (sep ++ (w3 ++ (yy ++ rest)))))) := by
    intro t h1 h2 h3 h4
    apply Stops.append fun c hc => h1 c (hw1 c hc)
    rcases hnote with rfl | ⟨ds, _, _, _, rfl⟩
    · apply Stops.append (u := []) (by simp)
      apply Stops.append fun c hc => h1 c (hw2 c hc)
      rcases hs with rfl | ⟨x, hx, rfl⟩
      · apply Stops.append (u := []) (by simp)
        apply Stops.append fun c hc => h1 c (hw3 c hc)
        exact yearDigits_head hy h3
      · exact Stops.cons (h4 x hx)
    · exact Stops.cons h2
  have hspl : ∀ c, isSpace c = true → isLetter c = false := by
    intro c hc
    cases hl : isLetter c with
    | false => rfl
    | true => rw [(letters_only c ((isLetter_iff c).mp hl)).1] at hc; cases hc
  have hspd : ∀ c, isSpace c = true → (c == '.') = false := by
    intro c hc
    by_cases hx : c = '.'
    · subst hx; revert hc; decide
    · simpa using hx
  have hm : gMonth1M (name ++ (dot ++ (w1 ++ (note ++ (w2 ++ (sep ++ (w3 ++ (yy ++ rest)))))))) =
      .ok name (w1 ++ (note ++ (w2 ++ (sep ++ (w3 ++ (yy ++ rest)))))) := by
    rcases hdot with rfl | rfl
    · rw [List.nil_append, month1M_ok hn (noLetterFirst_stops.mpr (hstop isLetter hspl (by decide) (by decide) (by decide)))]
      have := hstop (· == '.') hspd (by decide) (by decide) (by decide)
      unfold dropPoint
      split
      · next r heq => rw [heq] at this; have := this '.' (by simp); simp at this
      · rfl
    · rw [List.singleton_append, month1M_ok hn (noLetterFirst_stops.mpr (Stops.cons (by decide)))]
      rfl
  rw [P.bind_ok hm]
  obtain ⟨a, r, b, r', h1, h2, r'', h3⟩ := month1_mid hw1 hnote hw2 hs hw3 hy
  rw [P.bind_ok h1, P.bind_ok h2, P.bind_ok h3, P.bind_ok (star_any _), (yearDigits_ok hy).2]
  rfl

theorem tame_sep : Tame gMonth1Sep := by
  unfold gMonth1Sep
  refine Tame.bind (Tame.star _) fun _ => Tame.bind (Tame.sat _) fun x => Tame.bind (Tame.star _) fun _ => ?_
  split
  · exact Tame.pure _
  · intro s; exact .inl rfl

theorem month1_m {ext : Ext} {name rest : Str} (hn : Name name) (hr : NoLetterFirst rest)
    (hd : Without digits rest) :
    (gMonth1 ext).run (name ++ rest) = .ok ⟨.none, monthStrToNum ext name⟩ := by
  apply run_ok
  unfold gMonth1
  rw [P.or_fail (P.bind_fail (month1Y_name hn))]
  obtain ⟨r, hm, hsuf⟩ := month1M_any hn hr
  rw [P.or_fail]
  · rw [P.bind_ok hm, P.bind_ok (star_any _)]; rfl
  · rw [P.bind_ok hm]
    obtain ⟨a, r1, h1, s1⟩ := Tame.opt tame_ref r
    obtain ⟨b, r2, h2, s2⟩ := Tame.opt tame_sep r1
    rw [P.bind_ok h1, P.bind_ok h2]
    apply P.bind_fail
    unfold gMonth1Y
    have h3 : P.ws r2 = .ok (r2.takeWhile isSpace) (r2.dropWhile isSpace) := rfl
    rw [P.bind_ok h3]
    apply P.bind_fail
    refine rep_no_digit ?_ (by omega)
    exact Without.suffix hd ((List.dropWhile_suffix _).trans (s2.trans (s1.trans hsuf)))

/-- Without letters the first month grammar refuses the text. -/
theorem month1_refuses {ext : Ext} {s : Str} (h : ∀ c ∈ s, ¬ Letter c) :
    (gMonth1 ext).run s = .error .parseError := by
  have hM : ∀ r, r <:+ s → gMonth1M r = .fail := by
    intro r hr
    unfold gMonth1M
    have h1 : P.ws r = .ok (r.takeWhile isSpace) (r.dropWhile isSpace) := rfl
    rw [P.bind_ok h1]
    apply P.bind_fail
    refine rep_fail_nil (by omega) (Stops.all fun c hc => ?_)
    have := h c ((((List.dropWhile_suffix _).trans hr)).subset hc)
    rw [← isLetter_iff] at this
    simpa using this
  apply run_fail
  unfold gMonth1
  rw [P.or_fail, P.or_fail]
  · exact P.bind_fail (hM s (List.suffix_refl _))
  · exact P.bind_fail (hM s (List.suffix_refl _))
  · have hY : Tame gMonth1Y := by
      unfold gMonth1Y
      exact Tame.bind (Tame.star _) fun _ => Tame.bind (Tame.rep _ _ _) fun _ =>
        Tame.bind (Tame.star _) fun _ => Tame.pure _
    rcases hY s with h1 | ⟨y, r, h1, s1⟩
    · exact P.bind_fail h1
    · obtain ⟨a, r1, h2, s2⟩ := Tame.opt tame_ref r
      obtain ⟨b, r2, h3, s3⟩ := Tame.opt tame_sep r1
      rw [P.bind_ok h1, P.bind_ok h2, P.bind_ok h3]
      exact P.bind_fail (hM r2 (s3.trans (s2.trans s1)))

end Xls
