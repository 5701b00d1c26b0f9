/-
Which grammars refuse which texts, and the choice of the parser.
-/
import Verif.Lemmas.TimeText2
import Verif.Lemmas.Parse
import Verif.Model.TimeIndex

set_option autoImplicit false

namespace Xls
open Spec

/-! ### refusals of the quarter grammars -/

theorem qletter_digit : ∀ c ∈ digits, isQLetter c = false := by decide

/-- The first quarter grammar refuses a numeral followed by digits. -/
theorem quarter1_refuses {q : Nat} {lead sep v : Str} {d : Char} (h1 : 1 ≤ q) (h2 : q ≤ 4)
    (hl : Lead lead) (hs : Separator 'T' sep) (hd : d ∈ digits) :
    gQuarter1.run (lead ++ roman q ++ sep ++ (d :: v)) = .error .parseError := by
  have hq : IsQuarter q (roman q) := ⟨h1, h2, .inl rfl⟩
  simp only [List.append_assoc]
  obtain ⟨_, r1, r2, r3, r4⟩ := roman_numeral h1 h2 (sep ++ (d :: v))
  have main : ∀ f, Without quarterChars f →
      gQuarter1.run (f ++ (roman q ++ (sep ++ (d :: v)))) = .error .parseError := by
    intro f hf
    have hY : gQuarter1Y (f ++ (roman q ++ (sep ++ (d :: v)))) = .fail := by
      unfold gQuarter1Y
      rw [P.bind_ok (star_ok (filler hf) (quarter_head hq))]
      exact P.bind_fail (rep_fail_nil (by omega) r4)
    have key : ∀ c ∈ digits, isQLetter c = false ∧ notDOrQ c = false ∧ isSpace c = false ∧
      (c == '(') = false ∧ (c == '*') = false := by decide
    obtain ⟨k1, k2, k3, k4, k5⟩ := key d hd
    have hsepf : ∀ c ∈ sep, notDOrQ c = true := by
      have : ∀ c ∈ 'T' :: c!"-/. ", notDOrQ c = true := by decide
      exact fun c hc => this c (hs.1 c hc)
    have hsepq : Stops isQLetter (sep ++ (d :: v)) :=
      sep_stop hs isQLetter (by decide) (Stops.cons k1)
    refine run_left (a := ⟨.none, some ((3 * q - 2 : Nat) : Int)⟩) (c := d) (r := v) ?_
    unfold gQuarter1
    rw [P.bind_ok (P.opt_fail hY), P.bind_ok (star_ok (filler hf) (quarter_head hq)),
      P.bind_ok (quarter1Q_ok hq hsepq), P.bind_ok (star_ok hsepf (Stops.cons k2)),
      P.bind_ok (P.opt_fail (ref_fail_nil (Stops.cons k3) (Stops.cons k4) (Stops.cons k5))),
      P.bind_ok (star_nil (Stops.cons k2)),
      P.bind_ok (P.opt_fail (ref_fail_nil (Stops.cons k3) (Stops.cons k4) (Stops.cons k5)))]
    rfl
  rcases hl with rfl | rfl | ⟨r, w, ⟨ds, _, _, _, rfl⟩, hw, rfl⟩
  · simpa using main [] (by simp [Without])
  · exact main c!"*" (by unfold Without; decide)
  · apply run_fail
    have hp : ∀ t : Char → Bool, t '(' = false →
        Stops t (c!"(" ++ ds ++ c!")" ++ w ++ (roman q ++ (sep ++ (d :: v)))) :=
      fun t ht => Stops.cons ht
    have hY : gQuarter1Y (c!"(" ++ ds ++ c!")" ++ w ++ (roman q ++ (sep ++ (d :: v)))) = .fail := by
      unfold gQuarter1Y
      rw [P.bind_ok (star_nil (hp _ (by decide)))]
      exact P.bind_fail (rep_fail_nil (by omega) (hp _ (by decide)))
    unfold gQuarter1
    rw [P.bind_ok (P.opt_fail hY), P.bind_ok (star_nil (hp _ (by decide)))]
    apply P.bind_fail
    unfold gQuarter1Q
    rw [P.or_fail (P.bind_fail (rep_fail_nil (by omega) (hp _ (by decide))))]
    exact P.bind_fail (sat_fail (hp _ (by decide)))

/-- The second quarter grammar refuses two-digit years. -/
theorem quarter2_refuses {q k : Nat} {lead sep tail : Str} (h1 : 1 ≤ q) (h2 : q ≤ 4)
    (hl : Lead lead) (hs : Separator 'T' sep) (ht : NoDigitFirst tail) :
    gQuarter2.run (lead ++ roman q ++ sep ++ two k ++ tail) = .error .parseError := by
  apply run_fail
  simp only [List.append_assoc]
  obtain ⟨r0, r1, r2, r3, _⟩ := roman_numeral h1 h2 (sep ++ (two k ++ tail))
  obtain ⟨l1, a, l2⟩ := lead_ok hl r1 r2 r3
  unfold gQuarter2
  rw [P.bind_ok l1, P.bind_ok l2,
    P.bind_ok (star_ok r0 (sep_stop hs notDigitSep (by decide) (Stops.two (by decide)))),
    P.bind_ok (star_ok (sepT_mem hs) (Stops.two (by decide)))]
  exact P.bind_fail (rep_fail (isDigit_two k) (by simp [two]) (noDigitFirst_stops.mp ht))

theorem dropWhile_append_stops {t : Char → Bool} {u v : Str} (hv : Stops t v) :
    (u ++ v).dropWhile t = u.dropWhile t ++ v := by
  induction u with
  | nil => simpa using (takeWhile_split (t := t) (u := []) (v := v) (by simp) hv).2
  | cons c u ih =>
    by_cases h : t c = true
    · simp [List.dropWhile, h, ih]
    · simp [List.dropWhile, h]

/-- The third quarter grammar refuses a text whose only digits are the two of the year. -/
theorem quarter3_refuses {k : Nat} {a tail : Str} (ha : Without digits a) (ht : NoDigitFirst tail) :
    gQuarter3.run (a ++ two k ++ tail) = .error .parseError := by
  apply run_fail
  simp only [List.append_assoc]
  unfold gQuarter3
  have s1 : ∀ s, P.star notDigitSp s = .ok (s.takeWhile notDigitSp) (s.dropWhile notDigitSp) :=
    fun _ => rfl
  have s2 : ∀ s, P.ws s = .ok (s.takeWhile isSpace) (s.dropWhile isSpace) := fun _ => rfl
  rw [P.bind_ok (s1 _), dropWhile_append_stops (Stops.two (by decide)), P.bind_ok (s2 _),
    dropWhile_append_stops (Stops.two (by decide))]
  have hsuf : (a.dropWhile notDigitSp).dropWhile isSpace <:+ a :=
    (List.dropWhile_suffix _).trans (List.dropWhile_suffix _)
  have hb := Without.suffix ha hsuf
  generalize (a.dropWhile notDigitSp).dropWhile isSpace = b at hb
  cases b with
  | cons c b =>
    apply P.bind_fail
    apply sat_fail
    apply Stops.cons
    have := hb c (by simp)
    rw [← isDigit_iff] at this
    simpa using this
  | nil =>
    have hd := digit_mem (k % 10)
    have key : ∀ c ∈ digits, notDigitSp c = false ∧ isSpace c = false := by decide
    obtain ⟨k1, k2⟩ := key _ hd
    have e : [] ++ (two k ++ tail) = digit (k / 10) :: (digit (k % 10) :: tail) := rfl
    rw [e, P.bind_ok (sat_ok (isDigit_digit _)), P.bind_ok (star_nil (Stops.cons k1)),
      P.bind_ok (ws_nil (Stops.cons k2)), P.bind_ok (star_nil (Stops.cons k1)),
      P.bind_ok (ws_nil (Stops.cons k2))]
    apply P.bind_fail
    exact rep_fail (u := [digit (k % 10)]) (by simpa using isDigit_digit _) (by simp)
      (noDigitFirst_stops.mp ht)

/-- The first two quarter grammars refuse a digit, filler and more digits. -/
theorem quarter12_refuse {d k : Nat} {mid tail : Str} (hm : Without quarterChars mid)
    (hne : mid ≠ []) :
    isOk (gQuarter1.run (digit d :: (mid ++ (two k ++ tail)))) = false ∧
    gQuarter2.run (digit d :: (mid ++ (two k ++ tail))) = .error .parseError := by
  have hd := digit_mem d
  have hmd : Stops isDigit (mid ++ (two k ++ tail)) := by
    cases mid with
    | nil => exact absurd rfl hne
    | cons c m =>
      apply Stops.cons
      have hc := hm c (by simp)
      cases hx : isDigit c with
      | false => rfl
      | true =>
        exfalso
        apply hc
        have : ∀ c ∈ digits, c ∈ quarterChars := by decide
        exact this c ((isDigit_iff c).mp hx)
  have hrep : P.rep 4 4 isDigit (digit d :: (mid ++ (two k ++ tail))) = .fail :=
    rep_fail (u := [digit d]) (by simpa using isDigit_digit _) (by simp) hmd
  have key : ∀ c ∈ digits, notDOrQ c = false ∧ isSpace c = false ∧ (c == '(') = false ∧
    (c == '*') = false ∧ notDigitSep c = false ∧ isSepT c = false ∧ isQLetter c = false := by decide
  obtain ⟨k1, k2, k3, k4, k5, k6, k7⟩ := key _ hd
  constructor
  · have hY : gQuarter1Y (digit d :: (mid ++ (two k ++ tail))) = .fail := by
      unfold gQuarter1Y
      rw [P.bind_ok (star_nil (Stops.cons k1))]
      exact P.bind_fail hrep
    cases hq : isQDigit (digit d) with
    | false =>
      rw [run_fail]; · rfl
      unfold gQuarter1
      rw [P.bind_ok (P.opt_fail hY), P.bind_ok (star_nil (Stops.cons k1))]
      apply P.bind_fail
      unfold gQuarter1Q
      rw [P.or_fail (P.bind_fail (rep_fail_nil (by omega) (Stops.cons k7)))]
      exact P.bind_fail (sat_fail (Stops.cons hq))
    | true =>
      have hQ : gQuarter1Q (digit d :: (mid ++ (two k ++ tail))) =
          .ok (.ok (quarterIntToMonth (digitVal (digit d)))) (mid ++ (two k ++ tail)) := by
        unfold gQuarter1Q
        rw [P.or_fail (P.bind_fail (rep_fail_nil (by omega) (Stops.cons k7)))]
        rw [P.bind_ok (sat_ok hq)]
        rfl
      rw [run_left (a := ⟨.none, quarterIntToMonth (digitVal (digit d))⟩) (c := digit (k / 10))
        (r := digit (k % 10) :: tail)]; · rfl
      have hf : gRef (two k ++ tail) = .fail :=
        ref_fail_nil (Stops.two (by decide)) (Stops.two (by decide)) (Stops.two (by decide))
      unfold gQuarter1
      rw [P.bind_ok (P.opt_fail hY), P.bind_ok (star_nil (Stops.cons k1)), P.bind_ok hQ,
        P.bind_ok (star_ok (filler hm) (Stops.two (by decide))), P.bind_ok (P.opt_fail hf),
        P.bind_ok (star_nil (Stops.two (by decide))), P.bind_ok (P.opt_fail hf)]
      rfl
  · apply run_fail
    unfold gQuarter2
    rw [P.bind_ok (ws_nil (Stops.cons k2)),
      P.bind_ok (P.opt_fail (ref_fail_nil (Stops.cons k2) (Stops.cons k3) (Stops.cons k4))),
      P.bind_ok (star_nil (Stops.cons k5)), P.bind_ok (star_nil (Stops.cons k6))]
    exact P.bind_fail hrep

/-! ### the choice of the parser -/

theorem searchParser_select {ext : Ext} {sp : SParams} {raw : Str} {last : Option Time} {next : Cell}
    {old : Option Parser} {p : Parser} {ps : List Parser} (pre post : List Parser)
    (hps : ps = pre ++ p :: post)
    (hpre : ∀ q ∈ pre, acceptsStr ext q sp.timeComposed sp.frequency (strip (ext.unidecode raw)) = false)
    (hp : acceptsStr ext p sp.timeComposed sp.frequency (strip (ext.unidecode raw)) = true) :
    searchParser ext sp (.str raw) last next old ps =
      (parseWith ext p sp.frequency (.str raw) last next, some p) := by
  induction pre generalizing ps with
  | nil =>
    subst hps
    simp [searchParser, accepts, hp]
  | cons q pre ih =>
    subst hps
    rw [List.cons_append, searchParser]
    simp only [accepts, hpre q (by simp)]
    exact ih rfl fun r hr => hpre r (by simp [hr])

/-- With no parser in memory, the one whose grammar takes the text is used, provided the grammars of
the same frequency that come before refuse it. With a parser in memory that reads the text, that
parser is used. -/
theorem parse_select {ext : Ext} {sp : SParams} {raw text : Str} {last : Option Time} {next : Cell}
    {parser : Option Parser} {p : Parser} {r : DateRes} (hp : p ≠ .simple)
    (hc : sp.timeComposed = true) (hf : sp.frequency = p.freq)
    (hraw : strip (ext.unidecode raw) = text) (h : parseElements ext p text = .ok r)
    (hpre : ∀ q ∈ parsers.takeWhile (fun q => decide (q ≠ p)), q.freq = p.freq →
      isOk (parseElements ext q text) = false)
    (hpar : parser = none ∨ parser = some p) {t : Time}
    (ht : parseWith ext p sp.frequency (.str raw) last next = .ok t) :
    parseTimeValue ext sp parser (.str raw) last next = (.ok t, some p) := by
  rcases hpar with rfl | rfl
  · unfold parseTimeValue
    simp only
    rw [searchParser_select (p := p) (parsers.takeWhile fun q => decide (q ≠ p))
      ((parsers.dropWhile fun q => decide (q ≠ p)).tail), ht]
    · cases p <;> first | exact absurd rfl hp | decide
    · intro q hq
      have hqs : q ≠ .simple := by
        revert hq
        cases p <;> first | exact absurd rfl hp | (revert q; decide)
      rw [hraw, hc, hf]
      unfold acceptsStr
      split
      · exact absurd rfl hqs
      · by_cases hfr : q.freq = p.freq
        · simp [hpre q hq hfr]
        · have : (p.freq == q.freq) = false := by
            simp only [beq_eq_false_iff_ne, ne_eq]; exact fun hh => hfr hh.symm
          simp [this]
    · rw [hraw, hc, hf]
      cases p <;> first | exact absurd rfl hp | simp [acceptsStr, h, isOk]
  · unfold parseTimeValue
    simp only [ht]

end Xls
