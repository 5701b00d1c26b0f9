/-
Cleaning and extraction of the tables of Spec/Layout.lean.
-/
import Verif.Spec.Layout
import Verif.Lemmas.OneIndex
import Verif.Lemmas.CleanRead
import Verif.Props.Parsing
import Verif.Props.NumberCells

set_option autoImplicit false

namespace Xls

open Spec

/-! ### Reading dates -/

/-- The parser for a style. -/
def styleParser : Style → Option Parser
  | .dates => none
  | .yearQuarter => some .quarter1
  | .quarterYear => some .quarter2
  | .quarterShortYear => some .quarter3
  | .romanShortYear => some .quarter4
  | .year => some .year1
  | .campaign => some .year2
  | .monthName => some .month1
  | .monthNumber => some .month2
  | .semester => some .semester

/-- The parser of the state is none or that of the style. -/
def ParserFor (style : Style) (p : Option Parser) : Prop :=
  ∀ q, styleParser style = some q → p = none ∨ p = some q

theorem says_parse {ext : Ext} {sp : SParams} {style : Style} {last : Option Time} {c : Cell} {t : Time}
    (hf : style.Fits sp.timeComposed sp.frequency) (h : CellSays ext style last c t) (next : Cell)
    {p : Option Parser} (hp : ParserFor style p) :
    ∃ p', parseTimeValue ext sp p c last next = (.ok t, p') ∧ ParserFor style p' := by
  have key : ∀ q, styleParser style = some q → parseTimeValue ext sp p c last next = (.ok t, some q) →
      ∃ p', parseTimeValue ext sp p c last next = (.ok t, p') ∧ ParserFor style p' := by
    intro q hq hr
    refine ⟨some q, hr, fun q' hq' => ?_⟩
    rw [hq] at hq'
    exact .inr hq'
  cases h with
  | date =>
    have hc : sp.timeComposed = false := hf
    cases p with
    | none =>
      refine ⟨some .month1, ?_, fun q hq => by cases hq⟩
      simp [parseTimeValue, parsers, searchParser, accepts, hc, parseWith, parseCell]
    | some p =>
      refine ⟨some p, ?_, fun q hq => by cases hq⟩
      simp [parseTimeValue, parseWith, parseCell]
  | yearAndQuarter h1 h2 h3 h4 h5 h6 h7 =>
    exact key _ rfl (C20_year_then_quarter hf.1 hf.2 (hp _ rfl) h1 h2.1 h2.2 h3 h4 h5 h6 h7)
  | quarterAlone h1 h2 h3 h4 h5 h6 =>
    exact key _ rfl (C20_quarter_alone hf.1 hf.2 (hp _ rfl) h1 h2 h3 h4 h5 h6)
  | quarterAndYear h1 h2 h3 h4 h5 h6 =>
    exact key _ rfl (C20_quarter_then_year hf.1 hf.2 (hp _ rfl) h1 h2.1 h2.2 h3.1 h3.2 h4 h5 h6)
  | numberAndShortYear h1 h2 h3 h4 h5 h6 h7 h8 h9 =>
    exact key _ rfl (C21_number_then_short_year hf.1 hf.2 (hp _ rfl) h1 h2.1 h2.2 h3.1 h3.2 h4 h5 h6 h7 h8 h9)
  | romanAndShortYear h1 h2 h3 h4 h5 h6 h7 =>
    exact key _ rfl (C21_roman_then_short_year hf.1 hf.2 (hp _ rfl) h1 h2.1 h2.2 h3.1 h3.2 h4 h5 h6 h7)
  | year h1 h2 h3 h4 h5 h6 h7 h8 =>
    exact key _ rfl (C23_year hf.1 hf.2 (hp _ rfl) h1 h2.1 h2.2 h3 h4 h5 h6 h7 h8)
  | campaign h1 h2 h3 h4 =>
    exact key _ rfl (C23_campaign hf.1 hf.2 (hp _ rfl) h1 h2.1 h2.2 h3 h4)
  | yearAndMonth h1 h2 h3 h4 h5 =>
    exact key _ rfl (C24_year_and_month hf.1 hf.2 (hp _ rfl) h1 h2.1 h2.2 h3.1 h3.2 h4 h5)
  | monthAlone h1 h2 h3 h4 h5 h6 =>
    exact key _ rfl (C24_month_alone hf.1 hf.2 (hp _ rfl) h1 h2 h3 h4.1 h4.2 h5 h6)
  | yearAndName h1 h2 h3 h4 h5 h6 h7 h8 =>
    exact key _ rfl (C25_year_and_name hf.1 hf.2 (hp _ rfl) h1 h2 h3 h4 h5 h6.1 h6.2 h7.1 h7.2 h8)
  | nameAlone h1 h2 h3 h4 h5 h6 h7 =>
    exact key _ rfl (C25_name_alone hf.1 hf.2 (hp _ rfl) h1 h2 h3 h4 h5 h6.1 h6.2 h7)
  | semesterAndYear h1 h2 h3 h4 h5 h6 =>
    exact key _ rfl (C26_semester_and_year hf.1 hf.2 (hp _ rfl) h1 h2.1 h2.2 h3.1 h3.2 h4 h5 h6)
  | semesterAlone h1 h2 h3 h4 h5 =>
    exact key _ rfl (C26_semester_alone hf.1 hf.2 (hp _ rfl) h1 h2 h3.1 h3.2 h4 h5)
  | yearNumber h1 h2 => exact key _ rfl (C111_year_number hf.1 hf.2 (hp _ rfl) h1 h2.1 h2.2)
  | quarterNumber h1 h2 h3 => exact key _ rfl (C111_quarter_number hf.1 hf.2 (hp _ rfl) h1 h2 h3.1 h3.2)
  | monthNumber h1 h2 h3 h4 => exact key _ rfl (C111_month_number hf.1 hf.2 (hp _ rfl) h1 h2 h3.1 h3.2 h4)
  | yearMonthNumber h1 h2 h3 h4 h5 =>
    exact key _ rfl (C111_year_month_number_partial hf.1 hf.2 (hp _ rfl) h1 h2.1 h2.2 h3 h4 h5.1 h5.2)

/-- The last date of a list, or `l0`. -/
def lastDate (l0 : Option Time) (ots : List (Option Time)) : Option Time :=
  (ots.filterMap id).getLast?.or l0

theorem lastDate_cons_some (l0 : Option Time) (t : Time) (ots : List (Option Time)) :
    lastDate l0 (some t :: ots) = lastDate (some t) ots := by
  unfold lastDate
  rw [show List.filterMap id (some t :: ots) = t :: List.filterMap id ots from rfl, List.getLast?_cons]
  cases (List.filterMap id ots).getLast? <;> rfl

theorem lastDate_cons_none (l0 : Option Time) (ots : List (Option Time)) :
    lastDate l0 (none :: ots) = lastDate l0 ots := by
  unfold lastDate
  rw [List.filterMap_cons_none rfl]

theorem lastDate_snoc_some (l0 : Option Time) (t : Time) (ots : List (Option Time)) :
    lastDate l0 (ots ++ [some t]) = some t := by
  unfold lastDate
  rw [List.filterMap_append]
  simp

theorem lastDate_snoc_none (l0 : Option Time) (ots : List (Option Time)) :
    lastDate l0 (ots ++ [none]) = lastDate l0 ots := by
  unfold lastDate
  rw [List.filterMap_append]
  simp

theorem Spec.Reads.length {ext : Ext} {style : Style} : ∀ {l0 : Option Time} {cs : List Cell}
    {ots : List (Option Time)}, Reads ext style l0 cs ots → ots.length = cs.length
  | _, _, _, .nil => rfl
  | _, _, _, .date _ _ h => by rw [List.length_cons, List.length_cons, h.length]
  | _, _, _, .blank _ h => by rw [List.length_cons, List.length_cons, h.length]

theorem Spec.Reads.date_at {ext : Ext} {style : Style} : ∀ {l0 : Option Time} {cs : List Cell}
    {ots : List (Option Time)}, Reads ext style l0 cs ots → ∀ {i : Nat} {t : Time}, ots[i]? = some (some t) →
    ∃ c, cs[i]? = some c ∧ ¬ BlankCell c ∧ CellSays ext style (lastDate l0 (ots.take i)) c t
  | _, _, _, .nil, i, t, hi => by cases hi
  | _, _, _, .date h1 h2 h, 0, t, hi => by
    cases hi
    exact ⟨_, rfl, h2, h1⟩
  | _, _, _, .date h1 h2 h, i + 1, t, hi => by
    obtain ⟨c, a1, a2, a3⟩ := h.date_at (i := i) hi
    exact ⟨c, a1, a2, by rw [List.take_succ_cons, lastDate_cons_some]; exact a3⟩
  | _, _, _, .blank h1 h, 0, t, hi => by cases hi
  | _, _, _, .blank h1 h, i + 1, t, hi => by
    obtain ⟨c, a1, a2, a3⟩ := h.date_at (i := i) hi
    exact ⟨c, a1, a2, by rw [List.take_succ_cons, lastDate_cons_none]; exact a3⟩

theorem Spec.Reads.blank_at {ext : Ext} {style : Style} : ∀ {l0 : Option Time} {cs : List Cell}
    {ots : List (Option Time)}, Reads ext style l0 cs ots → ∀ {i : Nat}, ots[i]? = some none →
    ∃ c, cs[i]? = some c ∧ BlankCell c
  | _, _, _, .nil, i, hi => by cases hi
  | _, _, _, .date h1 h2 h, 0, hi => by cases hi
  | _, _, _, .date h1 h2 h, i + 1, hi => h.blank_at (i := i) hi
  | _, _, _, .blank h1 h, 0, hi => ⟨_, rfl, h1⟩
  | _, _, _, .blank h1 h, i + 1, hi => h.blank_at (i := i) hi

/-! ### Trailing blanks -/

/-- Number of blanks a list ends with. -/
def trail (l : List (Option Time)) : Nat := (l.reverse.takeWhile Option.isNone).length

theorem trail_some (l : List (Option Time)) (t : Time) : trail (l ++ [some t]) = 0 := by
  unfold trail
  simp

theorem trail_none (l : List (Option Time)) : trail (l ++ [none]) = trail l + 1 := by
  unfold trail
  simp

theorem trail_replicate (l : List (Option Time)) (h : ∃ z, l.getLast? = some (some z)) :
    ∀ k : Nat, trail (l ++ List.replicate k none) = k
  | 0 => by
    obtain ⟨z, hz⟩ := h
    obtain ⟨l', rfl⟩ := List.getLast?_eq_some_iff.1 hz
    rw [List.replicate_zero, List.append_nil, trail_some]
  | k + 1 => by
    rw [List.replicate_succ', ← List.append_assoc, trail_none, trail_replicate l h k]

theorem trail_get {l : List (Option Time)} {j : Nat} (h : j < trail l) :
    j < l.length ∧ l[l.length - 1 - j]? = some none := by
  unfold trail at h
  have h1 : j < l.reverse.length :=
    Nat.lt_of_lt_of_le h (List.takeWhile_sublist (p := Option.isNone) (l := l.reverse)).length_le
  rw [List.length_reverse] at h1
  refine ⟨h1, ?_⟩
  have h2 := List.getElem_mem h
  have h3 := List.mem_takeWhile_imp h2
  have h4 : (l.reverse.takeWhile Option.isNone)[j] = l.reverse[j]'(by rw [List.length_reverse]; exact h1) :=
    (List.takeWhile_prefix _).getElem h
  rw [h4, List.getElem_reverse] at h3
  rw [List.getElem?_eq_getElem (by omega)]
  congr 1
  simpa using h3

theorem neighbours {ots : List (Option Time)} {i : Nat} {l t : Time} (hi : ots[i]? = some (some t))
    (hl : lastDate none (ots.take i) = some l) :
    ∃ pre post, ots.filterMap id = pre ++ l :: t :: post := by
  unfold lastDate at hl
  rw [Option.or_none] at hl
  obtain ⟨pre, hpre⟩ := List.getLast?_eq_some_iff.1 hl
  refine ⟨pre, (ots.drop (i + 1)).filterMap id, ?_⟩
  obtain ⟨hlt, he⟩ := List.getElem?_eq_some_iff.1 hi
  have : ots = ots.take i ++ some t :: ots.drop (i + 1) := by
    rw [← he, List.getElem_cons_drop, List.take_append_drop]
  conv => lhs; rw [this]
  rw [List.filterMap_append, hpre]
  simp

/-! ### Progress -/

/-- Each date is accepted after the one before it. -/
def Progresses (sp : SParams) (ts : List Time) : Prop :=
  ∀ pre l t post, ts = pre ++ l :: t :: post →
    correctProgression (some l) t sp.frequency sp.missings sp.missingValue = .ok (some t) ∧ l ≠ t

theorem consecutive_split {f : Str} : ∀ (pre : List Time) {l t : Time} {post : List Time},
    Consecutive f (pre ++ l :: t :: post) → ∃ sh, shiftOf f = some sh ∧ IsShifted l 1 t sh
  | [], _, _, _, h => h.1
  | [_], _, _, _, h => h.2.1
  | _ :: b :: pre, _, _, _, h => consecutive_split (b :: pre) h.2

theorem consecutive_sorted {f : Str} : ∀ {ts : List Time}, (∀ t ∈ ts, ValidTime t) → Consecutive f ts →
    ts.Pairwise (· < ·)
  | [], _, _ => .nil
  | [t], _, _ => .cons (by simp) .nil
  | a :: b :: ts, hv, h => by
    obtain ⟨⟨sh, h1, h2⟩, h3⟩ := h
    have hab := (correctProgression_expected false .none (hv a (by simp)) (hv b (by simp)) h1 h2).2.2
    have ih := consecutive_sorted (fun t ht => hv t (List.mem_cons_of_mem _ ht)) h3
    refine .cons ?_ ih
    intro c hc
    rcases List.mem_cons.1 hc with rfl | hc
    · exact hab
    · exact Time.lt_trans hab ((List.pairwise_cons.1 ih).1 c hc)

theorem increment_exists {f : Str} (hf : f ∈ [c!"A", c!"Q", c!"M", c!"W", c!"D"] ∨ f = c!"S") {z : Time}
    (hv : ValidTime z) (hr : Representable z) {n : Nat} (hn : n ≤ 20)
    (hn' : f ≠ c!"D" → f ≠ c!"W" → f ≠ c!"S" → n ≤ 2) :
    ∃ z', incrementTime z n f = .ok z' := by
  cases h : incrementTime z n f with
  | ok z' => exact ⟨z', rfl⟩
  | error e =>
    exfalso
    have hmon : ∀ k, k ≤ 12 → n ≤ 2 → ¬ BeyondCalendar z n (.months k) := by
      intro k hk hn2 hb
      have hb : 10000 * 12 ≤ monthCount z + n * k := hb
      have := hr.2
      have := hv.month_le
      have : n * k ≤ 2 * 12 := Nat.mul_le_mul hn2 hk
      unfold monthCount at hb
      omega
    have hday : ∀ k, k ≤ 7 * (24 * 60 * 60 * 1000 * 1000) → ¬ BeyondCalendar z n (.micros k) := by
      intro k hd hb
      have hb : instant ⟨9999, 12, 31, 86399999999⟩ < instant z + n * k := hb
      have hk : n * k ≤ 20 * (7 * (24 * 60 * 60 * 1000 * 1000)) := Nat.mul_le_mul hn hd
      have h3 := dayOfYear_le hv
      have hv2 : ValidTime ⟨9999, 12, 31, 86399999999⟩ := by decide
      obtain ⟨w, hw⟩ : ∃ w : Time, w = ⟨9999, 12, 31, 86399999999⟩ := ⟨_, rfl⟩
      rw [← hw] at hb
      have hwy : w.year = 9999 := by rw [hw]
      obtain ⟨y, hy⟩ : ∃ y, y = 9998 := ⟨_, rfl⟩
      have h4 : daysBeforeYear (z.year + 1) ≤ daysBeforeYear y :=
        daysBeforeYear_mono (by have := hr.2; omega)
      have h5 : daysBeforeYear (z.year + 1) = daysBeforeYear z.year + yearLength z.year := rfl
      have h6 : daysBeforeYear (y + 1) = daysBeforeYear y + yearLength y := rfl
      have h7 : 365 ≤ yearLength y := by unfold yearLength; split <;> omega
      have h8 : daysBeforeYear (y + 1) ≤ dayNumber w := by
        unfold dayNumber
        rw [hwy, show (9999 : Nat) = y + 1 by omega]
        omega
      have h9 : dayNumber z ≤ daysBeforeYear y := by
        unfold dayNumber
        omega
      have h10 := hv.us_lt
      unfold instant at hb
      clear h3 h4 h5
      omega
    have key : ∀ sh, shiftOf f = some sh → BeyondCalendar z n sh := fun sh hsh =>
      (incrementTime_error hv hsh h).2
    simp only [List.mem_cons, List.not_mem_nil, or_false] at hf
    rcases hf with (rfl | rfl | rfl | rfl | rfl) | rfl
    · exact hmon 12 (by omega) (hn' (by decide) (by decide) (by decide)) (key _ rfl)
    · exact hmon 3 (by omega) (hn' (by decide) (by decide) (by decide)) (key _ rfl)
    · exact hmon 1 (by omega) (hn' (by decide) (by decide) (by decide)) (key _ rfl)
    · exact hday _ (by omega) (key _ rfl)
    · exact hday _ (by omega) (key _ rfl)
    · exact hday _ (by omega) (key _ rfl)

theorem notS_of_frequency {f : Str} (hf : f ∈ [c!"A", c!"Q", c!"M", c!"W", c!"D"]) :
    f ≠ c!"S" ∧ f ≠ c!"Y" ∧ f.length = 1 ∧ f ≠ [] ∧ ∃ sh, periodShift f = some sh := by
  simp only [List.mem_cons, List.not_mem_nil, or_false] at hf
  rcases hf with rfl | rfl | rfl | rfl | rfl <;> exact ⟨by decide, by decide, rfl, by decide, _, rfl⟩

theorem notY_of_periods {sp : SParams} {grid ts : List Time} (h : OnPeriods sp grid ts) :
    sp.frequency ≠ c!"Y" ∧ sp.frequency.length = 1 ∧ sp.frequency ≠ [] ∧ ∃ sh, periodShift sp.frequency = some sh := by
  rcases h.frequency with hf | ⟨hf, _⟩
  · exact (notS_of_frequency hf).2
  · rw [hf]; exact ⟨by decide, rfl, by decide, _, rfl⟩

theorem periodShift_lt {a b : Time} {sh : Shift} (ha : ValidTime a) (hb : ValidTime b) {f : Str}
    (hsh : periodShift f = some sh) (h : IsShifted a 1 b sh) : a < b := by
  by_cases hS : f = c!"S"
  · subst hS
    cases hsh
    have hm : monthCount b = monthCount a + 1 * 6 := h.1
    exact lt_of_monthCount ha hb (by omega)
  · by_cases hY : f = c!"Y"
    · subst hY
      cases hsh
      have hm : monthCount b = monthCount a + 1 * 12 := h.1
      exact lt_of_monthCount ha hb (by omega)
    · exact (correctProgression_expected false .none ha hb (shiftOf_periodShift hS hsh hY) h).2.2

theorem run_sorted {f : Str} : ∀ {ts : List Time}, (∀ t ∈ ts, ValidTime t) → PeriodRun f ts →
    ts.Pairwise (· < ·)
  | [], _, _ => .nil
  | [_], _, _ => by simp
  | a :: b :: rest, hv, ⟨⟨sh, h1, h2⟩, h3⟩ => by
    have hab := periodShift_lt (hv a (by simp)) (hv b (by simp)) h1 h2
    have ih := run_sorted (fun t ht => hv t (List.mem_cons_of_mem _ ht)) h3
    refine .cons ?_ ih
    intro c hc
    rcases List.mem_cons.1 hc with rfl | hc
    · exact hab
    · exact Time.lt_trans hab ((List.pairwise_cons.1 ih).1 c hc)

theorem progresses_of {sp : SParams} {grid ts : List Time} (h : OnPeriods sp grid ts) :
    Progresses sp ts := by
  intro pre l t post hts
  have hsorted := List.Pairwise.sublist h.sub (run_sorted h.valid h.run)
  have hl : l ∈ grid := h.sub.subset (by rw [hts]; simp)
  have ht : t ∈ grid := h.sub.subset (by rw [hts]; simp)
  have hlt : l < t := by
    rw [hts, List.pairwise_append] at hsorted
    exact (List.pairwise_cons.1 hsorted.2.1).1 t (by simp)
  refine ⟨?_, fun e => Time.lt_irrefl t (e ▸ hlt)⟩
  cases hm : sp.missings with
  | false =>
    obtain ⟨n1, n2, _⟩ := notS_of_frequency (h.frequency.resolve_right fun hx => by rw [hm] at hx; cases hx.2)
    have hcons := consecutive_of_run n1 n2 h.run
    rw [← h.complete hm, hts] at hcons
    obtain ⟨sh', h1, h2⟩ := consecutive_split pre hcons
    exact (correctProgression_expected false _ (h.valid l hl) (h.valid t ht) h1 h2).2.1
  | true =>
    have hf := h.frequency.imp id And.left
    obtain ⟨e1, h1⟩ := increment_exists hf (h.valid l hl) (h.representable l hl) (n := 1)
      (by omega) (by omega)
    obtain ⟨e2, h2⟩ := increment_exists hf (h.valid l hl) (h.representable l hl)
      (n := maxForthUnits sp.frequency) (by unfold maxForthUnits; repeat' (first | omega | split))
      (by
        intro a1 a2 a3
        simp only [List.mem_cons, List.not_mem_nil, or_false] at hf
        rcases hf with (e | e | e | e | e) | e <;> rw [e] <;>
          first | decide | exact absurd e a1 | exact absurd e a2 | exact absurd e a3)
    have hi : isImplicitStr sp.missingValue = false := by
      have := h.marker
      unfold isImplicitStr
      cases hmv : sp.missingValue with
      | str x =>
        rw [hmv] at this
        exact beq_eq_false_iff_ne.2 this
      | _ => rfl
    unfold correctProgression
    dsimp only
    rw [h1]
    dsimp only
    by_cases he : e1 = t
    · rw [if_pos he]
    · rw [if_neg he, if_neg (fun hx => Time.lt_irrefl l (Time.lt_trans hlt hx)),
        if_neg (fun hx => by cases hx.2), h2]
      dsimp only
      rw [hi, if_neg (fun hx => by cases hx.2.2)]

/-! ### Cleaning -/

theorem mustBe_number {sp : SParams} {c : Cell} {n : Nat} (hta : sp.timeAlignment = 0) (h : WholePart c n) :
    mustBeTimeValue sp c = true := by
  unfold mustBeTimeValue
  rw [hta]
  cases c with
  | int i => rfl
  | float x => rfl
  | _ => exact h.elim

theorem says_mustBe {ext : Ext} {sp : SParams} {style : Style} {last : Option Time} {c : Cell} {t : Time}
    (hta : sp.timeAlignment = 0) (h : CellSays ext style last c t) (hb : ¬ BlankCell c) :
    mustBeTimeValue sp c = true := by
  have hstr : ∀ raw, ¬ BlankCell (.str raw) → mustBeTimeValue sp (.str raw) = true := by
    intro raw hb
    have : strip raw ≠ [] := by
      intro he
      rw [strip_eq_nil, List.all_eq_true] at he
      exact hb he
    simp [mustBeTimeValue, hta, this]
  cases h with
  | date => exact mustBe_dt sp t
  | yearNumber h1 => exact mustBe_number hta h1
  | quarterNumber h1 => exact mustBe_number hta h1
  | monthNumber h1 => exact mustBe_number hta h1
  | yearMonthNumber h1 => exact mustBe_number hta h1
  | _ => exact hstr _ hb

theorem readsAlong_length (ext : Ext) (sp : SParams) (s : Sheet) (lo hi : Int) :
    (readsAlong ext sp s lo hi).length = (hi + 1 - lo).toNat := by
  unfold readsAlong
  rw [List.length_map, List.length_range]

theorem readsAlong_get {ext : Ext} {sp : SParams} {s : Sheet} {lo hi : Int} {i : Nat} {c : Cell}
    (h : (readsAlong ext sp s lo hi)[i]? = some c) : readCell ext sp s (lo + i) = c := by
  unfold readsAlong at h
  rw [List.getElem?_map] at h
  obtain ⟨j, hj, he⟩ := Option.map_eq_some_iff.1 h
  obtain ⟨_, e⟩ := List.getElem?_eq_some_iff.1 hj
  rw [List.getElem_range] at e
  rw [e]; exact he

/-- A time index in one column (row). -/
theorem Spec.TimeHeaderAt.single {sp : SParams} {coord : Str} {tr tc : Int} (hm : sp.timeMulticolumn = false)
    (hth : sp.timeHeader = .single coord) (hrc : coordOf coord = .ok (tr, tc)) : TimeHeaderAt sp tr tc where
  kind := by
    rw [hm, hth]
    exact ⟨fun e => Bool.noConfusion e, fun ⟨_, e⟩ => by cases e⟩
  first := by unfold HeaderAt; rw [hth]; exact hrc
  readable := fun _ e => by rw [hth] at e; cases e

theorem plainAt_single {sp : SParams} {coord : Str} (hth : sp.timeHeader = .single coord) (s : Sheet)
    (pos : Int) : PlainAt sp s pos := fun _ e => by rw [hth] at e; cases e

theorem readsAlong_single {ext : Ext} {sp : SParams} {s : Sheet} {coord : Str} {tr tc lo hi : Int}
    (hth : sp.timeHeader = .single coord) (hrc : coordOf coord = .ok (tr, tc)) :
    readsAlong ext sp s lo hi = cellsAlong s sp.alignment tr tc lo hi := by
  unfold readsAlong cellsAlong
  exact List.map_congr_left fun i _ => readCell_single hth hrc

theorem Spec.TimeHeaderAt.congr {sp sp' : SParams} {tr tc : Int} (h : TimeHeaderAt sp tr tc)
    (e1 : sp'.timeHeader = sp.timeHeader) (e2 : sp'.timeMulticolumn = sp.timeMulticolumn) :
    TimeHeaderAt sp' tr tc where
  kind := by rw [e1, e2]; exact h.kind
  first := by
    have := h.first
    unfold HeaderAt at this ⊢
    rw [e1]; exact this
  readable := by rw [e1]; exact h.readable

theorem cellsAlong_get {s : Sheet} {al : Align} {hr hc lo hi : Int} {i : Nat} {c : Cell}
    (h : (cellsAlong s al hr hc lo hi)[i]? = some c) : timeCell s al hr hc (lo + i) = c := by
  unfold cellsAlong at h
  rw [List.getElem?_map] at h
  obtain ⟨j, hj, he⟩ := Option.map_eq_some_iff.1 h
  obtain ⟨_, e⟩ := List.getElem?_eq_some_iff.1 hj
  rw [List.getElem_range] at e
  rw [e]; exact he

/-- The states of the cleaner at the `i`-th position. -/
structure ReadInv (style : Style) (all : List (Option Time)) (i : Nat) (st : CState) : Prop where
  parser : ParserFor style st.parser
  last : st.last = lastDate none (all.take i)
  blanks : st.blanks = trail (all.take i)

theorem gapLimit_tolerant {sp : SParams} (h : Tolerant sp) : gapLimit sp = 41 := by
  unfold gapLimit
  rw [if_neg]
  rintro ⟨h1, h2⟩
  rcases h with h | h
  · rw [h1] at h; cases h
  · rw [h2] at h; cases h

theorem tolerant_of_gap {sp : SParams} (h : 1 < gapLimit sp) : Tolerant sp := by
  unfold gapLimit at h
  unfold Tolerant
  cases h1 : sp.continuity with
  | false => exact .inl rfl
  | true =>
    cases h2 : sp.blankRows with
    | true => exact .inr rfl
    | false => rw [if_pos ⟨h1, h2⟩] at h; omega

/-- A time index without what comes after it. -/
structure TimeCells (ext : Ext) (sp : SParams) (s : Sheet) (style : Style) (tr tc last : Int)
    (ots : List (Option Time)) : Prop where
  header : TimeHeaderAt sp tr tc
  fits : style.Fits sp.timeComposed sp.frequency
  starts : 1 ≤ sp.dataStarts
  two : sp.dataStarts < last
  aligned : sp.alignment = .vertical ∨ sp.alignment = .horizontal
  offset : sp.timeAlignment = 0
  reads : Reads ext style none (readsAlong ext sp s sp.dataStarts last) ots
  plain : ∀ pos, sp.dataStarts ≤ pos → pos ≤ last + gapLimit sp + 1 → PlainAt sp s pos
  first : ∃ a, ots.head? = some (some a)
  ends : ∃ z, ots.getLast? = some (some z)
  gaps : none ∈ ots → Tolerant sp
  shortGaps : ∀ i : Nat, ¬ ∀ j, j < gapLimit sp → ots[i + j]? = some none

theorem Spec.TimeTable.cells {ext : Ext} {sp : SParams} {s : Sheet} {style : Style} {tr tc last : Int}
    {ots : List (Option Time)} (h : TimeTable ext sp s style tr tc last ots) :
    TimeCells ext sp s style tr tc last ots := { h with }

theorem gapLimit_bounds (sp : SParams) : 1 ≤ gapLimit sp ∧ gapLimit sp ≤ 41 := by
  unfold gapLimit; split <;> omega

/-- The steps of the cleaner over the dates and the blanks after them. -/
theorem table_takes {ext : Ext} {sp : SParams} {s : Sheet} {style : Style} {tr tc last : Int}
    {ots : List (Option Time)} (h : TimeCells ext sp s style tr tc last ots)
    (hf : sp.frequency.length = 1) (hp : Progresses sp (ots.filterMap id)) {k : Nat} (hk : k ≤ gapLimit sp - 1)
    (hblank : ∀ pos, last < pos → pos ≤ last + k → BlankCell (readCell ext sp s pos)) :
    ∀ (i : Nat) (ot : Option Time), (ots ++ List.replicate k none)[i]? = some ot →
      Takes ext sp (ReadInv style (ots ++ List.replicate k none) i)
        (ReadInv style (ots ++ List.replicate k none) (i + 1)) (readCell ext sp s (sp.dataStarts + i))
        (readCell ext sp s (sp.dataStarts + i + 1)) ot := by
  have hlen : ots.length = (last + 1 - sp.dataStarts).toNat := by
    rw [h.reads.length, readsAlong_length]
  have htwo := h.two
  obtain ⟨z, hz⟩ := h.ends
  obtain ⟨hg1, hg41⟩ := gapLimit_bounds sp
  have hall : ∀ (i : Nat), (ots ++ List.replicate k none)[i]? = some none →
      BlankCell (readCell ext sp s (sp.dataStarts + i)) ∧ Tolerant sp := by
    intro i hi
    rcases Nat.lt_or_ge i ots.length with hlt | hge
    · rw [List.getElem?_append_left hlt] at hi
      obtain ⟨c, hc, hb⟩ := h.reads.blank_at hi
      rw [readsAlong_get hc]
      exact ⟨hb, h.gaps (List.mem_of_getElem? hi)⟩
    · have hik : i < ots.length + k := by
        have := (List.getElem?_eq_some_iff.1 hi).1
        rw [List.length_append, List.length_replicate] at this
        exact this
      exact ⟨hblank _ (by omega) (by omega), tolerant_of_gap (by omega)⟩
  intro i ot hi
  have hil := (List.getElem?_eq_some_iff.1 hi).1
  rw [List.length_append, List.length_replicate] at hil
  have htake : (ots ++ List.replicate k none).take (i + 1) =
      (ots ++ List.replicate k none).take i ++ [ot] := by
    rw [List.take_add_one, hi]; rfl
  cases ot with
  | none =>
    obtain ⟨hb, htol⟩ := hall i hi
    refine ⟨mustBe_blank sp hb, htol, fun st hst => ⟨?_, hst.parser, ?_, ?_⟩⟩
    · show st.blanks < 40
      rw [hst.blanks]
      refine Nat.lt_of_not_le fun hge => ?_
      have hT : ((ots ++ List.replicate k none).take i).length = i := by
        rw [List.length_take, List.length_append, List.length_replicate]; omega
      have hnone : ∀ j, j < 40 → j < i ∧ (ots ++ List.replicate k none)[i - 1 - j]? = some none := by
        intro j hj
        obtain ⟨h1, h2⟩ := trail_get (Nat.lt_of_lt_of_le hj hge)
        rw [hT] at h1 h2
        rw [List.getElem?_take_of_lt (by omega)] at h2
        exact ⟨h1, h2⟩
      have h39 := (hnone 39 (by omega)).1
      rcases Nat.lt_or_ge i ots.length with hlt | hge2
      · apply h.shortGaps (i - 40)
        rw [gapLimit_tolerant htol]
        intro j hj
        by_cases hj40 : j = 40
        · rw [hj40, show i - 40 + 40 = i by omega]
          rw [List.getElem?_append_left hlt] at hi
          exact hi
        · have := (hnone (39 - j) (by omega)).2
          rw [List.getElem?_append_left (by omega)] at this
          rw [show i - 40 + j = i - 1 - (39 - j) by omega]
          exact this
      · have hk40 : k ≤ 40 := by omega
        have := (hnone (i - ots.length) (by omega)).2
        rw [List.getElem?_append_left (by omega), show i - 1 - (i - ots.length) = ots.length - 1 by omega,
          ← List.getLast?_eq_getElem?, hz] at this
        cases this
    · show st.last = _
      rw [htake, lastDate_snoc_none]; exact hst.last
    · show st.blanks + 1 = _
      rw [htake, trail_none, hst.blanks]
  | some t =>
    have hlt : i < ots.length := by
      refine Nat.lt_of_not_le fun hge => ?_
      rw [List.getElem?_append_right hge, List.getElem?_replicate] at hi
      split at hi <;> cases hi
    have hi' : ots[i]? = some (some t) := by rw [← hi, List.getElem?_append_left hlt]
    obtain ⟨c, hc, hb, hsays⟩ := h.reads.date_at hi'
    rw [readsAlong_get hc]
    refine ⟨says_mustBe h.offset hsays hb, fun st hst => ?_⟩
    have hlast : st.last = lastDate none (ots.take i) := by
      rw [hst.last, List.take_append_of_le_length (by omega)]
    obtain ⟨p', hp1, hp2⟩ := says_parse h.fits hsays
      (readCell ext sp s (sp.dataStarts + i + 1)) hst.parser
    rw [← hlast] at hp1
    have hprog : correctProgression st.last t sp.frequency sp.missings sp.missingValue = .ok (some t) ∧
        st.last ≠ some t := by
      cases hl : st.last with
      | none => exact ⟨rfl, by simp⟩
      | some l =>
        rw [hl] at hlast
        obtain ⟨pre, post, hn⟩ := neighbours hi' hlast.symm
        obtain ⟨q1, q2⟩ := hp pre l t post hn
        exact ⟨q1, fun e => q2 (Option.some.inj e)⟩
    refine ⟨t, p', { st with blanks := 0, parser := p' }, hp1, ?_, fun hx => hprog.2 hx.1, hp2, ?_, ?_⟩
    · unfold correctStep
      rw [if_pos hf]
      dsimp only
      rw [hprog.1]
    · show some t = _
      rw [htake, lastDate_snoc_some]
    · show 0 = _
      rw [htake, trail_some]

/-- The cleaner stops at as many blanks as end an index. -/
theorem table_stops {ext : Ext} {sp : SParams} {s : Sheet} {style : Style} {tr tc last : Int}
    {ots : List (Option Time)} (h : TimeCells ext sp s style tr tc last ots) {k : Nat} (hkk : k = gapLimit sp - 1)
    {curr next : Cell} (hb : BlankCell curr) :
    ∀ st, ReadInv style (ots ++ List.replicate k none) (ots.length + k) st → ∀ (s0 : Sheet) (r c : Int),
      cleanValue ext sp st s0 r c curr next = (.stop, s0) := by
  intro st hst s0 r c
  unfold cleanValue
  rw [mustBe_blank sp hb]
  dsimp only
  rw [if_neg (by simp), if_neg]
  rintro ⟨h1, h2⟩
  have h1 : st.blanks < 40 := h1
  rw [hst.blanks, List.take_of_length_le (by simp), trail_replicate _ h.ends] at h1
  rw [gapLimit_tolerant h2] at hkk
  omega


theorem clean_table {ext : Ext} {sp : SParams} {s : Sheet} {style : Style} {tr tc last : Int}
    {ots : List (Option Time)} (h : TimeTable ext sp s style tr tc last ots)
    (hf : sp.frequency.length = 1) (hp : Progresses sp (ots.filterMap id)) :
    ∃ s1, cleanTimeIndex ext sp s = (.ok last, s1) ∧
      DatesWritten s s1 sp.alignment tr tc sp.dataStarts ots := by
  have hline : TimeLine sp tr tc := ⟨h.header, h.starts, h.aligned, by
    intro e; rw [e] at hf; cases hf⟩
  have hlen : ots.length = (last + 1 - sp.dataStarts).toNat := by
    rw [h.reads.length, readsAlong_length]
  have htwo := h.two
  have hwithin := h.within
  obtain ⟨z, hz⟩ := h.ends
  obtain ⟨hg1, hg41⟩ := gapLimit_bounds sp
  obtain ⟨k, hk, hcase⟩ : ∃ k : Nat, k ≤ gapLimit sp - 1 ∧
      ((last + k = lastPosition sp s ∧ (k = 0 ∨ sp.alignment = .vertical)) ∨
        (sp.alignment = .vertical ∧ k = gapLimit sp - 1 ∧ last + k < lastPosition sp s)) := by
    rcases h.after with ha | ⟨ha, _⟩
    · exact ⟨0, by omega, .inl ⟨by omega, .inl rfl⟩⟩
    · by_cases hc : lastPosition sp s - last ≤ ((gapLimit sp - 1 : Nat) : Int)
      · exact ⟨(lastPosition sp s - last).toNat, by omega, .inl ⟨by omega, .inr ha⟩⟩
      · exact ⟨gapLimit sp - 1, Nat.le_refl _, .inr ⟨ha, rfl, by omega⟩⟩
  have hafter : ∀ pos, last < pos → pos ≤ lastPosition sp s → pos ≤ last + k + 1 →
      BlankCell (readCell ext sp s pos) := by
    intro pos h1 h2 h3
    rcases h.after with ha | ⟨_, ha⟩
    · omega
    · exact ha pos h1 h2 (by omega)
  have hkpos : last + k ≤ lastPosition sp s := by
    rcases hcase with ⟨h1, _⟩ | ⟨_, _, h1⟩ <;> omega
  have hinit : ReadInv style (ots ++ List.replicate k none) 0 .init :=
    ⟨fun _ _ => .inl rfl, rfl, rfl⟩
  rw [show last = last - sp.timeAlignment by rw [h.offset, Int.sub_zero]]
  refine clean_line hline (last := last) (k := k) (ReadInv style (ots ++ List.replicate k none)) hinit ?_
    (fun pos h1 h2 => h.plain pos h1 (by omega)) (by omega) (by omega) (by rw [h.offset]; omega) hz ?_ ?_
  · exact table_takes h.cells hf hp hk fun pos h1 h2 => hafter pos h1 (by omega) (by omega)
  · intro x h1 h2 h3 t
    exact not_dt_of_blank h.header (h.plain x (by omega) (by omega)) (hafter x h1 h3 h2) t
  · rcases hcase with hc | ⟨ha, hkk, hlt⟩
    · exact .inl hc
    · refine .inr ⟨ha, hlt, table_stops h.cells hkk (hafter (last + k + 1) (by omega) (by omega) (by omega))⟩

end Xls
