/-
What the grammars make of the texts of `Verif.Spec.TimeText`.
-/
import Verif.Lemmas.Peg
import Verif.Lemmas.Parse

set_option autoImplicit false

namespace Xls
open Spec

theorem takeWhile_true {α : Type} (p : α → Bool) (l : List α) : ∀ x ∈ l.takeWhile p, p x = true := by
  intro x hx
  have := List.all_takeWhile (l := l) (p := p)
  rw [List.all_eq_true] at this
  exact this x hx

/-! ### from the grammar to the date -/

theorem mkDate_first {y m : Nat} (hy : 1 ≤ y) (hy' : y ≤ 9999) (hm : 1 ≤ m) (hm' : m ≤ 12) :
    mkDate (y : Int) (m : Int) 1 = .ok ⟨y, m, 1, 0⟩ := by
  unfold mkDate
  have hml : 1 ≤ daysInMonth y m := by
    have : m = 1 ∨ m = 2 ∨ m = 3 ∨ m = 4 ∨ m = 5 ∨ m = 6 ∨ m = 7 ∨ m = 8 ∨ m = 9 ∨ m = 10 ∨ m = 11 ∨
      m = 12 := by omega
    unfold daysInMonth
    rcases this with h | h | h | h | h | h | h | h | h | h | h | h <;> subst h <;> simp <;>
      (try split) <;> omega
  rw [if_pos (by simp [maxYear]; omega)]
  rfl

theorem composed_ok {ext : Ext} {p : Parser} {text raw : Str} {last : Option Time} {next : Cell}
    {freq : Str} {n m : Nat} (hp : p ≠ .simple) (hraw : strip (ext.unidecode raw) = text)
    (h : parseElements ext p text = .ok ⟨.int n, some (m : Int)⟩) (hn : 1 ≤ n) (hn' : n ≤ 9999)
    (hm : 1 ≤ m) (hm' : m ≤ 12) :
    parseWith ext p freq (.str raw) last next = .ok ⟨n, m, 1, 0⟩ := by
  have hfill : fillHoles p ⟨.int n, some (m : Int)⟩ last = .ok ((n : Int), (m : Int)) := by
    have hn0 : n ≠ 0 := by omega
    have hm0 : m ≠ 0 := by omega
    unfold fillHoles
    split <;> simp [fillYear, YVal.truthy, YVal.toInt, fillMonth, hn0, hm0]
  unfold parseWith parseCell
  simp only [hraw]
  unfold parseStrWith
  cases p <;> first | exact absurd rfl hp | skip
  all_goals
    simp only [parseComposed, h, hfill]
    rw [if_pos (by omega)]
    exact mkDate_first hn hn' hm hm'

theorem composed_ok_last {ext : Ext} {p : Parser} {text raw : Str} {l : Time} {next : Cell}
    {freq : Str} {m : Nat} (hp : p ≠ .simple) (hraw : strip (ext.unidecode raw) = text)
    (h : parseElements ext p text = .ok ⟨.none, some (m : Int)⟩) (hl : 1 ≤ l.year)
    (hl' : l.year ≤ 9999) (hm : 1 ≤ m) (hm' : m ≤ 12) :
    parseWith ext p freq (.str raw) (some l) next = .ok ⟨l.year, m, 1, 0⟩ := by
  have hfill : fillHoles p ⟨.none, some (m : Int)⟩ (some l) = .ok ((l.year : Int), (m : Int)) := by
    have hm0 : m ≠ 0 := by omega
    unfold fillHoles
    split <;> simp_all [fillYear, YVal.truthy, fillMonth, monthFalsy]
  unfold parseWith parseCell
  simp only [hraw]
  unfold parseStrWith
  cases p <;> first | exact absurd rfl hp | skip
  all_goals
    simp only [parseComposed, h, hfill]
    rw [if_pos (by omega)]
    exact mkDate_first hl hl' hm hm'

/-! ### numerals -/

theorem roman_month {q : Nat} (h1 : 1 ≤ q) (h2 : q ≤ 4) :
    quarterStrToMonth (roman q) = .ok (some ((3 * q - 2 : Nat) : Int)) := by
  have : q = 1 ∨ q = 2 ∨ q = 3 ∨ q = 4 := by omega
  rcases this with h | h | h | h <;> subst h <;> decide

theorem roman_letters {q : Nat} (h1 : 1 ≤ q) (h2 : q ≤ 4) :
    (∀ c ∈ roman q, isQLetter c = true) ∧ 1 ≤ (roman q).length ∧ (roman q).length ≤ 3 := by
  have : q = 1 ∨ q = 2 ∨ q = 3 ∨ q = 4 := by omega
  rcases this with h | h | h | h <;> subst h <;> decide

theorem digit_month {q : Nat} (h1 : 1 ≤ q) (h2 : q ≤ 4) :
    isQDigit (digit q) = true ∧
      quarterIntToMonth (digitVal (digit q)) = some ((3 * q - 2 : Nat) : Int) := by
  have : q = 1 ∨ q = 2 ∨ q = 3 ∨ q = 4 := by omega
  rcases this with h | h | h | h <;> subst h <;> decide

/-! ### first quarter grammar -/

theorem notDOrQ_iff (c : Char) : notDOrQ c = true ↔ c ∉ quarterChars := by
  unfold notDOrQ quarterChars
  have hd : isDigit c = true ↔ c ∈ digits := isDigit_iff c
  have : c ∈ c!"0123456789IV()" ↔ c ∈ digits ∨ c = 'I' ∨ c = 'V' ∨ c = '(' ∨ c = ')' := by
    simp only [digits, List.mem_cons, List.not_mem_nil, or_false]
    tauto
  rw [this, ← hd]
  cases isDigit c <;> simp [and_assoc]

theorem filler {s : Str} (h : Without quarterChars s) : ∀ c ∈ s, notDOrQ c = true :=
  fun c hc => (notDOrQ_iff c).mpr (h c hc)

theorem notes_stop {s : Str} (h : QuarterNotes s) (t : Char → Bool) (ht : t '(' = false) :
    Stops t s := by
  rcases h with rfl | ⟨r, f, ⟨ds, _, _, _, rfl⟩, _, rfl | ⟨r2, w, _, _, rfl⟩⟩
  · exact Stops.nil _
  · exact Stops.cons ht
  · exact Stops.cons ht

theorem ref_nil : P.opt gRef [] = .ok none [] := by decide

/-- The end of the first quarter grammar, after the quarter and its filler. -/
def gQuarterEnd : P Unit := do
  let _ ← P.opt gRef
  let _ ← P.star notDOrQ
  let _ ← P.opt gRef
  pure ()

theorem quarterEnd_ok {s : Str} (h : QuarterNotes s) : gQuarterEnd s = .ok () [] := by
  unfold gQuarterEnd
  rcases h with rfl | ⟨r, f, hr, hf, hs⟩
  · decide
  · have hsplit : f = f.takeWhile isSpace ++ f.dropWhile isSpace :=
      (List.takeWhile_append_dropWhile).symm
    have hb : Blank (f.takeWhile isSpace) := takeWhile_true isSpace f
    have hd : ∀ c ∈ f.dropWhile isSpace, notDOrQ c = true := fun c hc =>
      filler hf c ((List.dropWhile_suffix _).subset hc)
    have hstop : ∀ v, Stops isSpace v → Stops isSpace (f.dropWhile isSpace ++ v) := by
      intro v hv
      cases hdw : f.dropWhile isSpace with
      | nil => exact hv
      | cons c u =>
        apply Stops.cons
        have := List.head?_dropWhile_not isSpace f
        rw [hdw] at this
        simpa using this
    rcases hs with rfl | ⟨r2, w, hr2, hw, rfl⟩
    · have h1 : P.opt gRef (r ++ f) = .ok (some ()) (f.dropWhile isSpace) := by
        apply P.opt_ok
        have := ref_ok (v := f.dropWhile isSpace) hr hb (by simpa using hstop [] (Stops.nil _))
        rw [List.append_assoc, ← hsplit] at this
        exact this
      rw [P.bind_ok h1]
      have h2 := star_ok (t := notDOrQ) (v := []) hd (Stops.nil _)
      rw [List.append_nil] at h2
      rw [P.bind_ok h2, P.bind_ok ref_nil]
      rfl
    · have hr2' := hr2
      obtain ⟨ds, _, _, _, rfl⟩ := hr2'
      have h1 : P.opt gRef (r ++ f ++ (c!"(" ++ ds ++ c!")") ++ w) =
          .ok (some ()) (f.dropWhile isSpace ++ (c!"(" ++ ds ++ c!")" ++ w)) := by
        apply P.opt_ok
        have := ref_ok (v := f.dropWhile isSpace ++ (c!"(" ++ ds ++ c!")" ++ w)) hr hb
          (hstop _ (Stops.cons (by decide)))
        rw [← this]
        congr 1
        conv => lhs; rw [hsplit]
        simp only [List.append_assoc]
      rw [P.bind_ok h1]
      have hst : Stops notDOrQ (c!"(" ++ ds ++ c!")" ++ w) := Stops.cons (by decide)
      rw [P.bind_ok (star_ok hd hst)]
      have h3 := ref_ok (v := []) hr2 hw (Stops.nil _)
      rw [List.append_nil] at h3
      rw [P.bind_ok (P.opt_ok h3)]
      rfl

theorem quarter1Q_ok {q : Nat} {num v : Str} (h : IsQuarter q num) (hv : Stops isQLetter v) :
    gQuarter1Q (num ++ v) = .ok (.ok (some ((3 * q - 2 : Nat) : Int))) v := by
  obtain ⟨h1, h2, rfl | rfl⟩ := h
  · unfold gQuarter1Q
    obtain ⟨a, b, c⟩ := roman_letters h1 h2
    apply P.or_ok
    rw [P.bind_ok (rep_ok a b c (.inr hv)), roman_month h1 h2]
    rfl
  · unfold gQuarter1Q
    obtain ⟨a, b⟩ := digit_month h1 h2
    rw [P.or_fail]
    · rw [List.singleton_append, P.bind_ok (sat_ok a), b]; rfl
    · apply P.bind_fail
      refine rep_fail_nil (by omega) ?_
      exact Stops.digit (by decide)

theorem quarter_head {q : Nat} {num v : Str} (h : IsQuarter q num) : Stops notDOrQ (num ++ v) := by
  obtain ⟨h1, h2, rfl | rfl⟩ := h
  · have : q = 1 ∨ q = 2 ∨ q = 3 ∨ q = 4 := by omega
    rcases this with h | h | h | h <;> subst h <;> exact Stops.cons (by decide)
  · exact Stops.digit (by decide)

/-- The first quarter grammar from the quarter on, given the year found. -/
theorem quarter1_rest {q : Nat} {num f2 f3 notes s : Str} {y : Option Nat}
    (hq : IsQuarter q num) (h2 : Without quarterChars f2) (h3 : Without quarterChars f3)
    (hn : QuarterNotes notes) (hy : P.opt gQuarter1Y s = .ok y (f2 ++ (num ++ (f3 ++ notes)))) :
    gQuarter1.run s = .ok ⟨y.elim .none .int, some ((3 * q - 2 : Nat) : Int)⟩ := by
  apply run_ok
  unfold gQuarter1
  rw [P.bind_ok hy, P.bind_ok (star_ok (filler h2) (quarter_head hq))]
  rw [P.bind_ok (quarter1Q_ok hq ?_)]
  rotate_left
  · cases f3 with
    | nil => exact notes_stop hn _ (by decide)
    | cons c f =>
      apply Stops.cons
      have := h3 c (by simp)
      simp only [quarterChars, List.mem_cons, List.not_mem_nil, or_false, not_or] at this
      simp [isQLetter, this]
  rw [P.bind_ok (star_ok (filler h3) (notes_stop hn _ (by decide)))]
  have hend := quarterEnd_ok hn
  unfold gQuarterEnd at hend
  obtain ⟨a1, r1, e1, _⟩ := Tame.opt tame_ref notes
  rw [P.bind_ok e1] at hend ⊢
  obtain ⟨a3, r3, e3, _⟩ := Tame.opt tame_ref (r1.dropWhile notDOrQ)
  have e2 : P.star notDOrQ r1 = .ok (r1.takeWhile notDOrQ) (r1.dropWhile notDOrQ) := rfl
  rw [P.bind_ok e2, P.bind_ok e3] at hend ⊢
  have hr3 : r3 = [] := by
    have : (PRes.ok () r3 : PRes Unit) = .ok () [] := hend
    injection this
  subst hr3
  cases y <;> rfl

theorem quarter1_year {n q : Nat} {f1 f2 num f3 notes : Str} (hn : n < 10000)
    (hq : IsQuarter q num) (h1 : Without quarterChars f1) (h2 : Without quarterChars f2)
    (h3 : Without quarterChars f3) (hnotes : QuarterNotes notes) :
    gQuarter1.run (f1 ++ four n ++ f2 ++ num ++ f3 ++ notes) =
      .ok ⟨.int n, some ((3 * q - 2 : Nat) : Int)⟩ := by
  refine quarter1_rest (y := some n) (f2 := []) hq (by simp [Without]) h3 hnotes ?_
  apply P.opt_ok
  unfold gQuarter1Y
  simp only [List.append_assoc, List.nil_append]
  rw [P.bind_ok (star_ok (filler h1) (Stops.four (by decide)))]
  rw [P.bind_ok (rep_ok (u := four n) (isDigit_four n) (by simp [four]) (by simp [four])
    (.inl (by simp [four])))]
  rw [P.bind_ok (star_ok (filler h2) (quarter_head hq)), digitsVal_four hn]
  rfl

theorem quarter1_noyear {q : Nat} {f1 num f3 notes : Str}
    (hq : IsQuarter q num) (h1 : Without quarterChars f1)
    (h3 : Without quarterChars f3) (hnotes : QuarterNotes notes) :
    gQuarter1.run (f1 ++ num ++ f3 ++ notes) = .ok ⟨.none, some ((3 * q - 2 : Nat) : Int)⟩ := by
  refine quarter1_rest (y := none) (f2 := f1) hq h1 h3 hnotes ?_
  simp only [List.append_assoc]
  apply P.opt_fail
  unfold gQuarter1Y
  rw [P.bind_ok (star_ok (filler h1) (quarter_head hq))]
  apply P.bind_fail
  have hstop : Stops isDigit (f3 ++ notes) := by
    cases f3 with
    | nil => exact notes_stop hnotes _ (by decide)
    | cons c f =>
      apply Stops.cons
      have := filler h3 c (by simp)
      unfold notDOrQ at this
      cases hd : isDigit c with
      | false => rfl
      | true => rw [hd] at this; simp at this
  obtain ⟨a, b, rfl | rfl⟩ := hq
  · refine rep_fail_nil (by omega) ?_
    have : q = 1 ∨ q = 2 ∨ q = 3 ∨ q = 4 := by omega
    rcases this with h | h | h | h <;> subst h <;> exact Stops.cons (by decide)
  · exact rep_fail (u := [digit q]) (by simpa using isDigit_digit q) (by simp) hstop

/-! ### quarter or semester before the year -/

/-- The end of several grammars. -/
theorem tail_ok {s : Str} (h : Tail s) : ∃ a r b, P.opt gRef s = .ok a r ∧
    P.rep 0 3 anyChar (r.dropWhile isSpace) = .ok b [] := by
  rcases h with h | ⟨rf, w, u, hr, hw, hu, rfl⟩
  · obtain ⟨a, r, h1, h2⟩ := Tame.opt tame_ref s
    refine ⟨a, r, _, h1, rep_any ?_⟩
    have h3 := (List.dropWhile_suffix (l := r) isSpace).length_le
    have h4 := h2.length_le
    omega
  · have hsplit : u = u.takeWhile isSpace ++ u.dropWhile isSpace :=
      (List.takeWhile_append_dropWhile).symm
    have hst : Stops isSpace (u.dropWhile isSpace) := by
      cases hdw : u.dropWhile isSpace with
      | nil => exact Stops.nil _
      | cons c v =>
        apply Stops.cons
        have := List.head?_dropWhile_not isSpace u
        rw [hdw] at this
        simpa using this
    have h1 := ref_ok (w := w ++ u.takeWhile isSpace) hr
      (by
        intro c hc
        rcases List.mem_append.mp hc with hc | hc
        · exact hw c hc
        · exact takeWhile_true _ _ c hc) hst
    have h2 : rf ++ (w ++ u.takeWhile isSpace) ++ u.dropWhile isSpace = rf ++ w ++ u := by
      conv => rhs; rw [hsplit]
      simp only [List.append_assoc]
    rw [h2] at h1
    refine ⟨some (), _, _, P.opt_ok h1, rep_any ?_⟩
    have h3 := (List.dropWhile_suffix (l := u.dropWhile isSpace) isSpace).length_le
    have h4 := (List.dropWhile_suffix (l := u) isSpace).length_le
    omega

theorem tail_drop {s : Str} (h : Tail s) : Tail (s.dropWhile isSpace) := by
  rcases h with h | ⟨rf, w, u, hr, hw, hu, rfl⟩
  · exact .inl (Nat.le_trans (List.dropWhile_suffix _).length_le h)
  · refine .inr ⟨rf, w, u, hr, hw, hu, ?_⟩
    obtain ⟨ds, _, _, _, rfl⟩ := hr
    rfl

/-- The beginning of several grammars. -/
theorem lead_ok {s v : Str} (h : Lead s) (h1 : Stops isSpace v) (h2 : Stops (· == '(') v)
    (h3 : Stops (· == '*') v) :
    P.ws (s ++ v) = .ok [] (s ++ v) ∧ ∃ a, P.opt gRef (s ++ v) = .ok a v := by
  rcases h with rfl | rfl | ⟨r, w, hr, hw, rfl⟩
  · exact ⟨ws_nil h1, none, P.opt_fail (ref_fail_nil h1 h2 h3)⟩
  · exact ⟨ws_nil (Stops.cons (by decide)), some (), P.opt_ok (ref_star v)⟩
  · refine ⟨?_, some (), P.opt_ok (ref_ok hr hw h1)⟩
    obtain ⟨ds, _, _, _, rfl⟩ := hr
    exact ws_nil (Stops.cons (by decide))

theorem sep_stop {x : Char} {sep v : Str} (h : Separator x sep) (t : Char → Bool)
    (ht : ∀ c ∈ c!"-/. ", t c = false) (hv : Stops t v) : Stops t (sep ++ v) := by
  cases sep with
  | nil => exact hv
  | cons c u => exact Stops.cons (ht c (h.2 c (by simp)))

theorem roman_numeral {q : Nat} (h1 : 1 ≤ q) (h2 : q ≤ 4) (v : Str) :
    (∀ c ∈ roman q, notDigitSep c = true) ∧ Stops isSpace (roman q ++ v) ∧
    Stops (· == '(') (roman q ++ v) ∧ Stops (· == '*') (roman q ++ v) ∧
    Stops isDigit (roman q ++ v) := by
  have : q = 1 ∨ q = 2 ∨ q = 3 ∨ q = 4 := by omega
  rcases this with h | h | h | h <;> subst h <;>
    exact ⟨by decide, Stops.cons (by decide), Stops.cons (by decide), Stops.cons (by decide),
      Stops.cons (by decide)⟩

theorem sepT_mem {sep : Str} (h : Separator 'T' sep) : ∀ c ∈ sep, isSepT c = true := by
  have key : ∀ c ∈ 'T' :: c!"-/. ", isSepT c = true := by decide
  exact fun c hc => key c (h.1 c hc)

theorem sepS_mem {sep : Str} (h : Separator 'S' sep) : ∀ c ∈ sep, isSepS c = true := by
  have key : ∀ c ∈ 'S' :: c!"-/. ", isSepS c = true := by decide
  exact fun c hc => key c (h.1 c hc)

theorem quarter2_ok {n q : Nat} {lead sep tail : Str} (hn : n < 10000) (h1 : 1 ≤ q) (h2 : q ≤ 4)
    (hl : Lead lead) (hs : Separator 'T' sep) (ht : Tail tail) :
    gQuarter2.run (lead ++ roman q ++ sep ++ four n ++ tail) =
      .ok ⟨.int n, some ((3 * q - 2 : Nat) : Int)⟩ := by
  apply run_ok
  simp only [List.append_assoc]
  obtain ⟨r0, r1, r2, r3, _⟩ := roman_numeral h1 h2 (sep ++ (four n ++ tail))
  obtain ⟨l1, a, l2⟩ := lead_ok hl r1 r2 r3
  obtain ⟨a2, r, b, t1, t2⟩ := tail_ok ht
  have t3 : P.ws r = .ok (r.takeWhile isSpace) (r.dropWhile isSpace) := rfl
  unfold gQuarter2
  rw [P.bind_ok l1, P.bind_ok l2]
  rw [P.bind_ok (star_ok r0 (sep_stop hs _ (by decide) (Stops.four (by decide))))]
  rw [P.bind_ok (star_ok (sepT_mem hs) (Stops.four (by decide)))]
  rw [P.bind_ok (rep_ok (u := four n) (isDigit_four n) (by simp [four]) (by simp [four])
    (.inl (by simp [four])))]
  rw [P.bind_ok t1, P.bind_ok t3, P.bind_ok t2, roman_month h1 h2, digitsVal_four hn]
  rfl

/-- The year of 1969-2068 two digits stand for. -/
theorem dob_two {y : Nat} (h1 : 1969 ≤ y) (h2 : y ≤ 2068) :
    dobYear (two (y % 100)) = .ok (.int y) := by
  have hl : (two (y % 100)).length = 2 := rfl
  have he : (two (y % 100)).isEmpty = false := rfl
  unfold dobYear
  rw [he, hl, digitsVal_two (by omega)]
  simp
  split <;> omega

theorem two_rep (n : Nat) (v : Str) : P.rep 2 2 isDigit (two n ++ v) = .ok (two n) v :=
  rep_ok (isDigit_two n) (by simp [two]) (by simp [two]) (.inl (by simp [two]))

theorem quarter4_ok {y q : Nat} {lead sep tail : Str} (hy1 : 1969 ≤ y) (hy2 : y ≤ 2068)
    (h1 : 1 ≤ q) (h2 : q ≤ 4) (hl : Lead lead) (hs : Separator 'T' sep) (ht : Tail tail) :
    gQuarter4.run (lead ++ roman q ++ sep ++ two (y % 100) ++ tail) =
      .ok ⟨.int y, some ((3 * q - 2 : Nat) : Int)⟩ := by
  apply run_ok
  simp only [List.append_assoc]
  obtain ⟨r0, r1, r2, r3, _⟩ := roman_numeral h1 h2 (sep ++ (two (y % 100) ++ tail))
  obtain ⟨l1, a, l2⟩ := lead_ok hl r1 r2 r3
  obtain ⟨a2, r, b, t1, t2⟩ := tail_ok ht
  have t3 : P.ws r = .ok (r.takeWhile isSpace) (r.dropWhile isSpace) := rfl
  unfold gQuarter4
  rw [P.bind_ok l1, P.bind_ok l2]
  rw [P.bind_ok (star_ok r0 (sep_stop hs _ (by decide) (Stops.two (by decide))))]
  rw [P.bind_ok (star_ok (sepT_mem hs) (Stops.two (by decide)))]
  rw [P.bind_ok (P.opt_ok (two_rep _ _))]
  rw [P.bind_ok t1, P.bind_ok t3, P.bind_ok t2, roman_month h1 h2]
  simp only [dobYearOpt, dob_two hy1 hy2]
  rfl

theorem roman_semester {q : Nat} (h1 : 1 ≤ q) (h2 : q ≤ 2) :
    semesterStrToMonth (roman q) = .ok (some ((6 * q - 5 : Nat) : Int)) := by
  have : q = 1 ∨ q = 2 := by omega
  rcases this with h | h <;> subst h <;> decide

theorem semester_ok {y q : Nat} {lead sep tail : Str} (hy1 : 1969 ≤ y) (hy2 : y ≤ 2068)
    (h1 : 1 ≤ q) (h2 : q ≤ 2) (hl : Lead lead) (hs : Separator 'S' sep) (ht : Tail tail) :
    gSemester.run (lead ++ roman q ++ sep ++ two (y % 100) ++ tail) =
      .ok ⟨.int y, some ((6 * q - 5 : Nat) : Int)⟩ := by
  apply run_ok
  simp only [List.append_assoc]
  obtain ⟨r0, r1, r2, r3, _⟩ := roman_numeral h1 (by omega) (sep ++ (two (y % 100) ++ tail))
  obtain ⟨l1, a, l2⟩ := lead_ok hl r1 r2 r3
  obtain ⟨a2, r, b, t1, t2⟩ := tail_ok ht
  have t3 : P.ws r = .ok (r.takeWhile isSpace) (r.dropWhile isSpace) := rfl
  unfold gSemester
  rw [P.bind_ok l1, P.bind_ok l2]
  rw [P.bind_ok (star_ok r0 (sep_stop hs _ (by decide) (Stops.two (by decide))))]
  rw [P.bind_ok (star_ok (sepS_mem hs) (Stops.two (by decide)))]
  rw [P.bind_ok (P.opt_ok (two_rep _ _))]
  rw [P.bind_ok t1, P.bind_ok t3, P.bind_ok t2, roman_semester h1 h2]
  simp only [dobYearOpt, dob_two hy1 hy2]
  rfl

theorem semester_noyear {q : Nat} {lead sep : Str}
    (h1 : 1 ≤ q) (h2 : q ≤ 2) (hl : Lead lead) (hs : Separator 'S' sep) :
    gSemester.run (lead ++ roman q ++ sep) = .ok ⟨.none, some ((6 * q - 5 : Nat) : Int)⟩ := by
  apply run_ok
  simp only [List.append_assoc]
  obtain ⟨r0, r1, r2, r3, _⟩ := roman_numeral h1 (by omega) sep
  obtain ⟨l1, a, l2⟩ := lead_ok hl r1 r2 r3
  unfold gSemester
  rw [P.bind_ok l1, P.bind_ok l2]
  have hs1 := sep_stop hs notDigitSep (by decide) (Stops.nil _)
  rw [List.append_nil] at hs1
  rw [P.bind_ok (star_ok r0 hs1)]
  have hs2 := star_ok (sepS_mem hs) (Stops.nil _)
  rw [List.append_nil] at hs2
  rw [P.bind_ok hs2, roman_semester h1 h2]
  rfl

/-! ### third quarter grammar: digit, words, two-digit year -/

theorem word_mem {s : Str} (h : ∀ c ∈ s, isSpace c = false ∧ c ∉ digits) :
    (∀ c ∈ s, notDigitSp c = true) ∧ (∀ c ∈ s, isSpace c = false) := by
  refine ⟨fun c hc => ?_, fun c hc => (h c hc).1⟩
  obtain ⟨h1, h2⟩ := h c hc
  rw [← isDigit_iff] at h2
  have h3 : c ≠ ' ' := by intro hx; subst hx; revert h1; decide
  simp [notDigitSp, h2, h3]

theorem blank_sp {s : Str} (h : ∀ c ∈ s, c = ' ') : (∀ c ∈ s, isSpace c = true) ∧
    (∀ c ∈ s, notDigitSp c = false) := by
  refine ⟨fun c hc => ?_, fun c hc => ?_⟩ <;> rw [h c hc] <;> decide

/-- `not_digit* ws` eats a word and the blanks after it. -/
theorem word_ws {β : Type} {f : Str → Str → P β} {a w v : Str}
    (ha : ∀ c ∈ a, isSpace c = false ∧ c ∉ digits) (hw : ∀ c ∈ w, c = ' ')
    (hv : Stops isSpace v) (hv' : Stops notDigitSp v) :
    (do let x ← P.star notDigitSp; let y ← P.ws; f x y : P β) (a ++ (w ++ v)) = f a w v := by
  rw [P.bind_ok (star_ok (word_mem ha).1 (Stops.append (blank_sp hw).2 hv')),
    P.bind_ok (ws_ok (blank_sp hw).1 hv)]

theorem quarter3_ok {y d : Nat} {a w0 b w1 c w2 tail : Str} (hy1 : 1969 ≤ y) (hy2 : y ≤ 2068)
    (ha : ∀ x ∈ a, isSpace x = false ∧ x ∉ digits) (hw0 : ∀ x ∈ w0, x = ' ')
    (hb : ∀ x ∈ b, isSpace x = false ∧ x ∉ digits) (hw1 : ∀ x ∈ w1, x = ' ')
    (hc : ∀ x ∈ c, isSpace x = false ∧ x ∉ digits) (hw2 : ∀ x ∈ w2, x = ' ')
    (ht : Tail tail) :
    gQuarter3.run (a ++ (w0 ++ (digit d :: (b ++ (w1 ++ (c ++ (w2 ++ (two (y % 100) ++ tail)))))))) =
      .ok ⟨.int y, quarterIntToMonth (digitVal (digit d))⟩ := by
  apply run_ok
  obtain ⟨a2, r, b2, t1, t2⟩ := tail_ok (tail_drop ht)
  have t3 : P.ws r = .ok (r.takeWhile isSpace) (r.dropWhile isSpace) := rfl
  unfold gQuarter3
  rw [word_ws ha hw0 (Stops.digit (by decide)) (Stops.digit (by decide))]
  rw [P.bind_ok (sat_ok (isDigit_digit d))]
  have hmid : ∀ {β : Type} (g : P β),
      (do let _ ← P.star notDigitSp
          let _ ← P.ws
          let _ ← P.star notDigitSp
          let _ ← P.ws
          g : P β) (b ++ (w1 ++ (c ++ (w2 ++ (two (y % 100) ++ tail))))) =
        g (two (y % 100) ++ tail) := by
    intro β g
    by_cases hw : w1 = []
    · subst hw
      rw [List.nil_append, ← List.append_assoc]
      rw [word_ws (a := b ++ c) (w := w2)
        (by intro x hx; rcases List.mem_append.mp hx with h | h <;> [exact hb x h; exact hc x h]) hw2
        (Stops.two (by decide)) (Stops.two (by decide))]
      have := word_ws (f := fun _ _ => g) (a := []) (w := []) (v := two (y % 100) ++ tail) (by simp)
        (by simp) (Stops.two (by decide)) (Stops.two (by decide))
      simpa using this
    · by_cases hcn : c = []
      · subst hcn
        rw [List.nil_append, ← List.append_assoc w1]
        rw [word_ws (a := b) (w := w1 ++ w2) hb
          (by intro x hx; rcases List.mem_append.mp hx with h | h <;> [exact hw1 x h; exact hw2 x h])
          (Stops.two (by decide)) (Stops.two (by decide))]
        have := word_ws (f := fun _ _ => g) (a := []) (w := []) (v := two (y % 100) ++ tail) (by simp)
          (by simp) (Stops.two (by decide)) (Stops.two (by decide))
        simpa using this
      · obtain ⟨x, w1', rfl⟩ : ∃ x w, w1 = x :: w := by
          cases w1 with
          | nil => exact absurd rfl hw
          | cons x w => exact ⟨x, w, rfl⟩
        have hx : notDigitSp x = false := (blank_sp hw1).2 x (by simp)
        rw [P.bind_ok (star_ok (v := x :: w1' ++ (c ++ (w2 ++ (two (y % 100) ++ tail))))
          (word_mem hb).1 (Stops.cons hx))]
        have hstop : Stops isSpace (c ++ (w2 ++ (two (y % 100) ++ tail))) := by
          cases c with
          | nil => exact absurd rfl hcn
          | cons z c => exact Stops.cons ((word_mem hc).2 z (by simp))
        rw [P.bind_ok (ws_ok (blank_sp hw1).1 hstop)]
        exact word_ws (f := fun _ _ => g) hc hw2 (Stops.two (by decide)) (Stops.two (by decide))
  rw [hmid, P.bind_ok (two_rep _ _)]
  have t4 : P.ws tail = .ok (tail.takeWhile isSpace) (tail.dropWhile isSpace) := rfl
  rw [P.bind_ok t4, P.bind_ok t1, P.bind_ok t3, P.bind_ok t2]
  simp only [dob_two hy1 hy2]
  rfl

end Xls
