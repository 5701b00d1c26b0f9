/-
The grammar for time indexes that mix annual and quarterly entries.
-/
import Verif.Lemmas.NumberCells
import Verif.Lemmas.TimeText3
import Verif.Lemmas.Parse
import Verif.Spec.MixedText

set_option autoImplicit false

namespace Xls

open Spec

theorem notDigit_of {f : Str} (h : Without digits f) : ∀ c ∈ f, notDigit c = true := by
  intro c hc
  have := h c hc
  unfold notDigit
  cases hd : isDigit c with
  | false => rfl
  | true => exact absurd ((isDigit_iff c).1 hd) this

theorem without_digits {f : Str} (h : Without quarterChars f) : Without digits f := by
  intro c hc hd
  refine h c hc ?_
  revert hd
  unfold digits quarterChars
  simp only [List.mem_cons, List.not_mem_nil, or_false]
  tauto

theorem yq_year {n : Nat} {f g : Str} (hn : n < 10000) (hf : Without digits f) (hg : Without digits g) :
    gYearQuarter1.run (f ++ four n ++ g) = .ok ⟨.int n, none⟩ := by
  apply run_ok
  unfold gYearQuarter1
  have hy : P.opt gYearQuarterY (f ++ four n ++ g) = .ok (some n) [] := by
    apply P.opt_ok
    unfold gYearQuarterY
    rw [List.append_assoc, P.bind_ok (star_ok (notDigit_of hf) (Stops.four (by decide))),
      P.bind_ok (rep_ok (u := four n) (isDigit_four n) (by simp [four]) (by simp [four])
        (.inl (by simp [four])))]
    have h2 := star_ok (t := notDigit) (v := []) (notDigit_of hg) (Stops.nil _)
    rw [List.append_nil] at h2
    rw [P.bind_ok h2, digitsVal_four hn]
    rfl
  rw [P.bind_ok hy]
  rfl

/-- In a text with at most three digits in a row there is no year: a filler and then notes. -/
theorem yq_noYear {f notes : Str} (hf : Without digits f) (hn : QuarterNotes notes) :
    P.opt gYearQuarterY (f ++ notes) = .ok none (f ++ notes) := by
  apply P.opt_fail
  unfold gYearQuarterY
  have fin : ∀ g : Str, Without digits g → (do
      let _ ← P.star notDigit
      let y ← P.rep 4 4 isDigit
      let _ ← P.star notDigit
      pure (digitsVal y) : P Nat) g = .fail := by
    intro g hg
    have h2 := star_ok (t := notDigit) (v := []) (notDigit_of hg) (Stops.nil _)
    rw [List.append_nil] at h2
    rw [P.bind_ok h2]
    apply P.bind_fail
    exact rep_fail_nil (by omega) (Stops.nil _)
  rcases hn with rfl | ⟨r, g, ⟨ds, d1, d2, d3, rfl⟩, _, hcase⟩
  · rw [List.append_nil]
    exact fin f hf
  · have key : ∀ v : Str, (do
        let _ ← P.star notDigit
        let y ← P.rep 4 4 isDigit
        let _ ← P.star notDigit
        pure (digitsVal y) : P Nat) (f ++ (c!"(" ++ ds ++ c!")") ++ v) = .fail := by
      intro v
      have e : f ++ (c!"(" ++ ds ++ c!")") ++ v = (f ++ c!"(") ++ (ds ++ (c!")" ++ v)) := by
        simp [List.append_assoc]
      have hd : ∀ c ∈ ds, isDigit c = true := fun c hc => (isDigit_iff c).2 (d3 c hc)
      have hst : Stops notDigit (ds ++ (c!")" ++ v)) := by
        cases ds with
        | nil => simp at d1
        | cons c u =>
          apply Stops.cons
          unfold notDigit
          rw [hd c (by simp)]
          rfl
      have hf' : Without digits (f ++ c!"(") := by
        intro c hc
        rcases List.mem_append.1 hc with h | h
        · exact hf c h
        · rw [List.mem_singleton.1 h]; decide
      rw [e, P.bind_ok (star_ok (notDigit_of hf') hst)]
      apply P.bind_fail
      exact rep_fail hd (by omega) (Stops.cons (by decide))
    rcases hcase with rfl | ⟨r2, w, _, _, rfl⟩
    · have := key g
      rwa [List.append_assoc] at this
    · have := key (g ++ r2 ++ w)
      rw [← this]
      simp [List.append_assoc]

/-- The end of the grammar. -/
theorem yq_end {e : Except Err (Option Int)} {m : Option Int} {notes : Str} (hn : QuarterNotes notes)
    (hm : e = .ok m) (y : YVal) :
    (do
      let _ ← P.opt gRef
      let _ ← P.star notDOrQ
      let _ ← P.opt gRef
      let m ← P.lift e
      pure (⟨y, m⟩ : DateRes) : P DateRes) notes = .ok ⟨y, m⟩ [] := by
  have hend := quarterEnd_ok hn
  unfold gQuarterEnd at hend
  obtain ⟨a1, r1, e1, _⟩ := Tame.opt tame_ref notes
  rw [P.bind_ok e1] at hend ⊢
  obtain ⟨a3, r3, e3, _⟩ := Tame.opt tame_ref (r1.dropWhile notDOrQ)
  have e2 : P.star notDOrQ r1 = .ok (r1.takeWhile notDOrQ) (r1.dropWhile notDOrQ) := rfl
  rw [P.bind_ok e2, P.bind_ok e3] at hend ⊢
  have hr3 : r3 = [] := by
    have : (PRes.ok () r3 : PRes Unit) = .ok () [] := hend
    injection this
  subst hr3
  rw [hm]
  rfl

theorem yq_quarter {q : Nat} {f1 f3 notes : Str} (hq : 1 ≤ q ∧ q ≤ 4) (h1 : Without quarterChars f1)
    (h3 : Without quarterChars f3) (hn : QuarterNotes notes) :
    gYearQuarter1.run (f1 ++ roman q ++ f3 ++ notes) = .ok ⟨.none, some ((3 * q - 2 : Nat) : Int)⟩ := by
  apply run_ok
  unfold gYearQuarter1
  have hr : Without digits (roman q) := by
    obtain ⟨a, b⟩ := hq
    have : q = 1 ∨ q = 2 ∨ q = 3 ∨ q = 4 := by omega
    rcases this with h | h | h | h <;> subst h <;> decide
  have hw : Without digits (f1 ++ roman q ++ f3) := by
    intro c hc
    rcases List.mem_append.1 hc with h | h
    · rcases List.mem_append.1 h with h | h
      · exact without_digits h1 c h
      · exact hr c h
    · exact without_digits h3 c h
  rw [P.bind_ok (yq_noYear hw hn)]
  have hQ : P.opt gYearQuarterQ (f1 ++ roman q ++ f3 ++ notes) = .ok (some (roman q)) notes := by
    apply P.opt_ok
    unfold gYearQuarterQ
    have hIs : IsQuarter q (roman q) := ⟨hq.1, hq.2, .inl rfl⟩
    rw [List.append_assoc, List.append_assoc, P.bind_ok (star_ok (filler h1) (quarter_head hIs))]
    obtain ⟨a, b, c⟩ := roman_letters hq.1 hq.2
    rw [P.bind_ok (rep_ok a b c (.inr ?_)),
      P.bind_ok (star_ok (filler h3) (notes_stop hn _ (by decide)))]
    · rfl
    · cases f3 with
      | nil => exact notes_stop hn _ (by decide)
      | cons c f =>
        apply Stops.cons
        have := h3 c (by simp)
        simp only [quarterChars, List.mem_cons, List.not_mem_nil, or_false, not_or] at this
        simp [isQLetter, this]
  rw [P.bind_ok hQ]
  exact yq_end hn (roman_month hq.1 hq.2) .none

theorem yq_total {s : Str} (h : TotalWord s) : gYearQuarter1.run s = .ok ⟨.none, none⟩ := by
  obtain ⟨f, r, rfl, ⟨c, u, rfl, hc⟩, hf, hr⟩ := h
  have hn : QuarterNotes r := by
    rcases hr with h | h
    · exact .inl h
    · exact .inr ⟨r, [], h, by simp [Without], .inl (by simp)⟩
  apply run_ok
  unfold gYearQuarter1
  rw [P.bind_ok (yq_noYear (without_digits hf) hn)]
  have hQ : P.opt gYearQuarterQ (c :: u ++ r) = .ok none (c :: u ++ r) := by
    apply P.opt_fail
    unfold gYearQuarterQ
    rw [P.bind_ok (star_ok (filler hf) (notes_stop hn _ (by decide)))]
    apply P.bind_fail
    exact rep_fail_nil (by omega) (notes_stop hn _ (by decide))
  rw [P.bind_ok hQ]
  have hcs : isSpace c = false ∧ (c == '(') = false ∧ (c == '*') = false := by
    obtain ⟨h1, _, h2, _⟩ := letters_only c hc
    refine ⟨h1, by simpa using h2, ?_⟩
    simp only [beq_eq_false_iff_ne, ne_eq]
    rintro rfl
    revert hc
    decide
  have h1 : P.opt gRef (c :: u ++ r) = .ok none (c :: u ++ r) := by
    apply P.opt_fail
    exact ref_fail_nil (Stops.cons hcs.1) (Stops.cons hcs.2.1) (Stops.cons hcs.2.2)
  rw [P.bind_ok h1, P.bind_ok (star_ok (filler hf) (notes_stop hn _ (by decide)))]
  have h3 : P.opt gRef r = .ok (if r = [] then none else some ()) [] := by
    rcases hr with rfl | hr
    · rfl
    · have := ref_ok (v := []) (w := []) hr (by simp [Blank]) (Stops.nil _)
      rw [List.append_nil, List.append_nil] at this
      rw [P.opt_ok this]
      obtain ⟨ds, _, _, _, rfl⟩ := hr
      rfl
  rw [P.bind_ok h3]
  rfl

/-! ### The dates -/

theorem mixed_prefix {p : Parser} (hp : p = .yearQuarter1 ∨ p = .quarterYear1) {text : Str} {ext : Ext} :
    ∀ q ∈ parsers.takeWhile (fun q => decide (q ≠ p)), q.freq = p.freq →
      isOk (parseElements ext q text) = false := by
  intro q hq hh
  exfalso
  rcases hp with rfl | rfl <;> (revert hh; revert hq q; decide)

theorem mixed_year {ext : Ext} {p : Parser} {sp : SParams} {parser : Option Parser} {raw f g : Str}
    {last : Option Time} {next : Cell} {n : Nat} (hp : p = .yearQuarter1 ∨ p = .quarterYear1)
    (hc : sp.timeComposed = true) (hf : sp.frequency = p.freq) (hpar : parser = none ∨ parser = some p)
    (hraw : strip (ext.unidecode raw) = f ++ four n ++ g) (hn : 1 ≤ n ∧ n ≤ 9999)
    (h1 : Without digits f) (h2 : Without digits g) (hl : ∀ l, last = some l → 1 ≤ l.month ∧ l.month ≤ 12) :
    parseTimeValue ext sp parser (.str raw) last next =
      (.ok ⟨n, (last.elim 1 fun l => l.month), 1, 0⟩, some p) := by
  have h : parseElements ext p (f ++ four n ++ g) = .ok ⟨.int n, none⟩ := by
    have := yq_year (n := n) (by omega) h1 h2
    rcases hp with rfl | rfl <;> exact this
  refine parse_select (p := p) (by rcases hp with rfl | rfl <;> decide) hc hf hraw h (mixed_prefix hp) hpar ?_
  have hn0 : n ≠ 0 := by omega
  have hm : 1 ≤ (last.elim 1 fun l => l.month) ∧ (last.elim 1 fun l => l.month) ≤ 12 := by
    cases last with
    | none => exact ⟨by decide, by decide⟩
    | some l => exact hl l rfl
  have hfill : fillHoles p ⟨.int n, none⟩ last =
      .ok ((n : Int), ((last.elim 1 fun l => l.month : Nat) : Int)) := by
    unfold fillHoles
    rcases hp with rfl | rfl <;> cases last <;>
      simp [fillYear, YVal.truthy, YVal.toInt, fillMonth, hn0]
  unfold parseWith parseCell
  simp only [hraw]
  unfold parseStrWith
  rcases hp with rfl | rfl
  all_goals
    simp only [parseComposed, h, hfill]
    rw [if_pos (by omega)]
    exact mkDate_first hn.1 hn.2 hm.1 hm.2

theorem mixed_year_number {ext : Ext} {p : Parser} {sp : SParams} {parser : Option Parser} {c : Cell}
    {last : Option Time} {next : Cell} {n : Nat} (hp : p = .yearQuarter1 ∨ p = .quarterYear1)
    (hc : sp.timeComposed = true) (hf : sp.frequency = p.freq) (hpar : parser = none ∨ parser = some p)
    (hw : WholePart c n) (hn : 1000 ≤ n ∧ n ≤ 9999) (hl : ∀ l, last = some l → 1 ≤ l.month ∧ l.month ≤ 12) :
    parseTimeValue ext sp parser c last next = (.ok ⟨n, (last.elim 1 fun l => l.month), 1, 0⟩, some p) := by
  have h : parseElements ext p (natStr n) = .ok ⟨.int n, none⟩ := by
    rw [natStr_four hn.1 hn.2]
    have := yq_year (n := n) (f := []) (g := []) (by omega) (by simp [Without]) (by simp [Without])
    rw [List.nil_append, List.append_nil] at this
    rcases hp with rfl | rfl <;> exact this
  have hs : p ≠ .simple := by rcases hp with rfl | rfl <;> decide
  refine parse_select_number hs hc hf hw (.inl (by rw [h]; rfl)) ?_ hpar (parseWith_number hs hw ?_)
  · intro q hq hfr
    exact ⟨mixed_prefix hp q hq hfr, fun s _ => mixed_prefix hp q hq hfr⟩
  have hn0 : n ≠ 0 := by omega
  have hm : 1 ≤ (last.elim 1 fun l => l.month) ∧ (last.elim 1 fun l => l.month) ≤ 12 := by
    cases last with
    | none => exact ⟨by decide, by decide⟩
    | some l => exact hl l rfl
  have hfill : fillHoles p ⟨.int n, none⟩ last =
      .ok ((n : Int), ((last.elim 1 fun l => l.month : Nat) : Int)) := by
    unfold fillHoles
    rcases hp with rfl | rfl <;> cases last <;>
      simp [fillYear, YVal.truthy, YVal.toInt, fillMonth, hn0]
  simp only [parseComposed, h, hfill]
  rw [if_pos (by omega)]
  exact mkDate_first (by omega) hn.2 hm.1 hm.2

theorem mixed_quarter {ext : Ext} {p : Parser} {sp : SParams} {parser : Option Parser}
    {raw f1 f3 notes : Str} {l : Time} {next : Cell} {q : Nat}
    (hp : p = .yearQuarter1 ∨ p = .quarterYear1)
    (hc : sp.timeComposed = true) (hf : sp.frequency = p.freq) (hpar : parser = none ∨ parser = some p)
    (hraw : strip (ext.unidecode raw) = f1 ++ roman q ++ f3 ++ notes) (hl : ValidTime l)
    (hq : 1 ≤ q ∧ q ≤ 4) (h1 : Without quarterChars f1) (h3 : Without quarterChars f3)
    (hn : QuarterNotes notes) :
    parseTimeValue ext sp parser (.str raw) (some l) next = (.ok ⟨l.year, 3 * q - 2, 1, 0⟩, some p) := by
  have h : parseElements ext p (f1 ++ roman q ++ f3 ++ notes) =
      .ok ⟨.none, some ((3 * q - 2 : Nat) : Int)⟩ := by
    have := yq_quarter hq h1 h3 hn
    rcases hp with rfl | rfl <;> exact this
  have hs : p ≠ .simple := by rcases hp with rfl | rfl <;> decide
  refine parse_select (p := p) hs hc hf hraw h (mixed_prefix hp) hpar ?_
  exact composed_ok_last hs hraw h hl.year_pos hl.year_le (by omega) (by omega)

theorem mixed_total {ext : Ext} {sp : SParams} {parser : Option Parser} {raw : Str} {l : Time} {next : Cell}
    (hc : sp.timeComposed = true) (hf : sp.frequency = c!"QQQQA")
    (hpar : parser = none ∨ parser = some .quarterYear1) (hraw : TotalWord (strip (ext.unidecode raw)))
    (hl : ValidTime l) (h10 : l.month = 10) :
    parseTimeValue ext sp parser (.str raw) (some l) next = (.ok ⟨l.year, 1, 1, 0⟩, some .quarterYear1) := by
  have h : parseElements ext .quarterYear1 (strip (ext.unidecode raw)) = .ok ⟨.none, none⟩ := yq_total hraw
  refine parse_select (p := .quarterYear1) (by decide) hc hf rfl h (mixed_prefix (.inr rfl)) hpar ?_
  have hfill : fillHoles .quarterYear1 ⟨.none, none⟩ (some l) = .ok ((l.year : Int), ((1 : Nat) : Int)) := by
    simp [fillHoles, YVal.truthy, monthFalsy, h10]
  unfold parseWith parseCell
  unfold parseStrWith
  simp only [parseComposed, h, hfill]
  rw [if_pos (by omega)]
  exact mkDate_first hl.year_pos hl.year_le (by decide) (by decide)

end Xls
