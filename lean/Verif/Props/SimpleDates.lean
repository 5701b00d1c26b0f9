/-
C29, C30: date texts of three numbers are read with the help of their neighbours. C19 (first half):
which cleaning strategy is used.
-/
import Verif.Lemmas.Parse
import Verif.Lemmas.Text
import Verif.Lemmas.Increment
import Verif.Lemmas.CleanMisc
import Verif.Spec.Samples
import Verif.Spec.TimeIndex

set_option autoImplicit false

namespace Xls
open Spec

variable {ext : Ext} {freq raw : Str} {last : Option Time} {next : Cell}

/-- The text a simple date is read from: slashes and points become hyphens. -/
def Spec.dashed (s : Str) : Str := s.map fun c => if c = '/' ∨ c = '.' then '-' else c

theorem replace_dashed (s : Str) : replaceChar '/' c!"-" (replaceChar '.' c!"-" s) = dashed s := by
  induction s with
  | nil => rfl
  | cons c s ih =>
    unfold replaceChar dashed at *
    simp only [List.flatMap_cons, List.map_cons]
    by_cases h1 : c = '.'
    · subst h1; simpa using ih
    · by_cases h2 : c = '/'
      · subst h2; simpa using ih
      · simp [h1, h2]
        simpa using ih

/-- The formats tried for a text of three parts of these lengths: day-month-year, month-day-year,
year-month-day. -/
def Spec.formats (a b c : Nat) : List Str :=
  let f (x y z : Char) := List.replicate a x ++ c!"-" ++ (List.replicate b y ++ c!"-" ++
    List.replicate c z)
  [f 'D' 'M' 'Y', f 'M' 'D' 'Y', f 'Y' 'M' 'D']

/-- At most 20 periods of `freq` after `l`, and later than it. -/
def Spec.Within20 (freq : Str) (l t : Time) : Prop :=
  l < t ∧ ∃ sh mx, shiftOf freq = some sh ∧ ValidTime mx ∧ IsShifted l 20 mx sh ∧ t ≤ mx

theorem senseLast_true {l t : Time} (hl : ValidTime l) (h : senseLast freq (some l) t = .ok true) :
    Within20 freq l t := by
  unfold senseLast at h
  simp only at h
  split at h
  · cases h
  · next mx hmx =>
    injection h with h
    simp only [Bool.and_eq_true, decide_eq_true_eq] at h
    obtain ⟨sh, h1, h2, h3⟩ := incrementTime_ok hl hmx
    exact ⟨h.1, sh, mx, h1, h2, h3, h.2⟩

theorem makesSense_true {t : Time} (h : makesSense ext freq last next t = .ok true) :
    senseLast freq last t = .ok true ∧ senseNext ext freq next t = .ok true := by
  unfold makesSense at h
  split at h
  · cases h
  · next a ha =>
    split at h
    · cases h
    · next b hb =>
      injection h with h
      rw [Bool.and_eq_true] at h
      rw [ha, hb, h.1, h.2]
      exact ⟨rfl, rfl⟩

theorem senseNext_true {t : Time} (hv : ValidTime t) (h : senseNext ext freq next t = .ok true)
    (ht : next.truthy = true) :
    ∃ n, (next = .dt n ∨ ∃ s f, ext.arrowParse s f = some n) ∧ Within20 freq t n := by
  unfold senseNext at h
  rw [if_pos ht] at h
  split at h
  · cases h
  · cases h
  · next n hn =>
    split at h
    · cases h
    · next mx hmx =>
      injection h with h
      simp only [Bool.and_eq_true, decide_eq_true_eq] at h
      obtain ⟨sh, h1, h2, h3⟩ := incrementTime_ok hv hmx
      refine ⟨n, ?_, h.1, sh, mx, h1, h2, h3, h.2⟩
      rcases parseCell_ok hn with hn | ⟨s, hn⟩
      · exact .inl hn
      · exact .inr (by obtain ⟨⟨s', f, hp⟩, _⟩ := parseSimpleStr_ok hn; exact ⟨s', f, hp⟩)

/-- C29. A date text accepted as a simple date has three parts; the date is one the date library reads
from it in one of three orders; it is later than the previous date by at most 20 periods; and the
value of the next cell, if there is one, is a date (or a text read as a date) later than it by at
most 20 periods. -/
theorem C29_simple_date_fits {t : Time} (he : ExtValid ext) (hl : ∀ l, last = some l → ValidTime l)
    (h : parseWith ext .simple freq (.str raw) last next = .ok t) :
    ValidTime t ∧
    (∃ a b c f, dashed (strip (ext.unidecode raw)) = a ++ c!"-" ++ (b ++ c!"-" ++ c) ∧
      f ∈ formats a.length b.length c.length ∧
      ext.arrowParse (dashed (strip (ext.unidecode raw))) f = some t) ∧
    (∀ l, last = some l → Within20 freq l t) ∧
    (next.truthy = true →
      ∃ n, (next = .dt n ∨ ∃ s f, ext.arrowParse s f = some n) ∧ Within20 freq t n) := by
  unfold parseWith parseCell parseStrWith parseSimpleStr at h
  simp only at h
  rw [replace_dashed] at h
  generalize hd : dashed (strip (ext.unidecode raw)) = d at h
  split at h
  · cases h
  · next fs hfs =>
    obtain ⟨⟨f, hf, hp⟩, hs⟩ := trySimpleFormats_ok h
    have hv : ValidTime t := he _ _ _ hp
    obtain ⟨h1, h2⟩ := makesSense_true hs
    refine ⟨hv, ?_, ?_, senseNext_true hv h2⟩
    · unfold timeFormats at hfs
      split at hfs
      · next a b c hsp =>
        injection hfs with hfs
        refine ⟨a, b, c, f, ?_, ?_, hp⟩
        · have := splitOn_join '-' d
          rw [hsp] at this
          simpa [joinWith] using this.symm
        · rw [← hfs] at hf
          unfold formats
          simpa [joinWith] using hf
      · cases hfs
    · intro l hll
      subst hll
      exact senseLast_true (hl l rfl) h1

/-- A date library that reads days before months. -/
def Sample.extDates : Ext := { Sample.ext0 with
  arrowParse := fun s f =>
    if f = c!"DD-MM-YYYY" then
      (if s = c!"01-02-2012" then some ⟨2012, 2, 1, 0⟩
       else if s = c!"01-03-2012" then some ⟨2012, 3, 1, 0⟩ else none)
    else if f = c!"MM-DD-YYYY" then
      (if s = c!"01-02-2012" then some ⟨2012, 1, 2, 0⟩
       else if s = c!"01-03-2012" then some ⟨2012, 1, 3, 0⟩ else none)
    else none }

/-- The same text is a different date according to its neighbours. -/
example :
    parseWith Sample.extDates .simple c!"M" (.str c!"01/02/2012") (some ⟨2012, 1, 1, 0⟩)
      (.str c!"01/03/2012") = .ok ⟨2012, 2, 1, 0⟩ ∧
    parseWith Sample.extDates .simple c!"D" (.str c!"01/02/2012") (some ⟨2012, 1, 1, 0⟩)
      (Sample.day 2012 1 3) = .ok ⟨2012, 1, 2, 0⟩ := by decide

/-- C29. Conversely, when nothing follows, the first of the three readings that is later than the
previous date by at most 20 periods is the result. -/
theorem C29_first_fitting_reading {a b c f : Str} {l mx t : Time} {sh : Shift} {pre post : List Str}
    (hl : ValidTime l) (hmx : ValidTime mx) (hsh : shiftOf freq = some sh)
    (h20 : IsShifted l 20 mx sh) (hnext : next.truthy = false)
    (hraw : dashed (strip (ext.unidecode raw)) = a ++ c!"-" ++ (b ++ c!"-" ++ c))
    (ha : '-' ∉ a) (hb : '-' ∉ b) (hc : '-' ∉ c)
    (hfs : formats a.length b.length c.length = pre ++ f :: post)
    (hpre : ∀ g ∈ pre, ∀ t', ext.arrowParse (dashed (strip (ext.unidecode raw))) g = some t' →
      ¬ (l < t' ∧ t' ≤ mx))
    (hp : ext.arrowParse (dashed (strip (ext.unidecode raw))) f = some t) (h1 : l < t) (h2 : t ≤ mx) :
    parseWith ext .simple freq (.str raw) (some l) next = .ok t := by
  have hinc : incrementTime l maxImpl freq = .ok mx := by
    cases hr : incrementTime l maxImpl freq with
    | error e => exact absurd (incrementTime_error hl hsh hr).2 (beyond_no_result hmx h20)
    | ok x =>
      obtain ⟨s', hs', hvx, hshx⟩ := incrementTime_ok hl hr
      rw [hsh] at hs'; cases hs'
      rw [isShifted_unique hvx hmx hshx h20]
  have hsense : ∀ t', makesSense ext freq (some l) next t' = .ok (decide (l < t') && decide (t' ≤ mx)) := by
    intro t'
    unfold makesSense senseLast senseNext
    simp [hinc, hnext]
  have hns : ∀ u v : Str, '-' ∉ u → splitOn '-' (u ++ '-' :: v) = u :: splitOn '-' v := by
    intro u v hu
    induction u with
    | nil => simp [splitOn]
    | cons x u ih =>
      simp only [List.mem_cons, not_or] at hu
      rw [List.cons_append, splitOn, if_neg (fun hh => hu.1 hh.symm), ih hu.2]
  have hend : ∀ u : Str, '-' ∉ u → splitOn '-' u = [u] := by
    intro u hu
    induction u with
    | nil => rfl
    | cons x u ih =>
      simp only [List.mem_cons, not_or] at hu
      rw [splitOn, if_neg (fun hh => hu.1 hh.symm), ih hu.2]
  have hsplit : splitOn '-' (dashed (strip (ext.unidecode raw))) = [a, b, c] := by
    rw [hraw]
    simp only [List.append_assoc, List.singleton_append]
    rw [hns _ _ ha, hns _ _ hb, hend _ hc]
  have htf : timeFormats (dashed (strip (ext.unidecode raw))) = .ok (pre ++ f :: post) := by
    rw [← hfs]
    unfold timeFormats
    rw [hsplit]
    simp [joinWith, formats]
  unfold parseWith parseCell parseStrWith parseSimpleStr
  simp only
  rw [replace_dashed, htf]
  simp only
  clear htf hfs
  induction pre with
  | nil => simp [trySimpleFormats, hp, hsense, h1, h2]
  | cons g pre ih =>
    rw [List.cons_append, trySimpleFormats]
    split
    · exact ih fun g' hg' => hpre g' (by simp [hg'])
    · next x hx =>
      have hnot : makesSense ext freq (some l) next x = .ok false := by
        rw [hsense]
        have := hpre g (by simp) x hx
        simp only [Except.ok.injEq, Bool.and_eq_false_iff, decide_eq_false_iff_not]
        by_cases hlt : l < x
        · exact .inr fun hle => this ⟨hlt, hle⟩
        · exact .inl hlt
      rw [hnot]
      exact ih fun g' hg' => hpre g' (by simp [hg'])

example : parseWith Sample.extDates .simple c!"M" (.str c!"01.02.2012") (some ⟨2010, 5, 31, 0⟩) .none =
    .ok ⟨2012, 1, 2, 0⟩ :=
  C29_first_fitting_reading (a := c!"01") (b := c!"02") (c := c!"2012") (f := c!"MM-DD-YYYY")
    (mx := ⟨2012, 1, 31, 0⟩) (sh := .months 1) (pre := [c!"DD-MM-YYYY"])
    (post := [c!"YY-MM-DDDD"])
    (by decide) (by decide) (by decide) (by unfold IsShifted; decide) (by decide) (by decide)
    (by decide) (by decide) (by decide) (by decide)
    (by
      intro g hg t' h
      rw [List.mem_singleton] at hg
      subst hg
      have : t' = ⟨2012, 2, 1, 0⟩ := by
        have hx : Sample.extDates.arrowParse (dashed (strip (Sample.extDates.unidecode c!"01.02.2012")))
          c!"DD-MM-YYYY" = some ⟨2012, 2, 1, 0⟩ := by decide
        rw [hx] at h; injection h with h; exact h.symm
      subst this; decide)
    (by decide) (by decide) (by decide)

/-! ### C30: the row before a footnote -/

/-- C30 (violated). Below a simple date any text that does not have three parts separated by hyphens,
slashes or points (a footnote) makes the date unreadable, whatever the date text, the date library and
the previous date. -/
theorem C30_footnote_below_violated {foot : Str} (hne : foot ≠ [])
    (hfoot : ∀ a b c, '-' ∉ a → '-' ∉ b → '-' ∉ c →
      dashed (strip (ext.unidecode foot)) ≠ a ++ c!"-" ++ (b ++ c!"-" ++ c)) (t : Time) :
    parseWith ext .simple freq (.str raw) last (.str foot) ≠ .ok t := by
  intro h
  unfold parseWith parseCell parseStrWith parseSimpleStr at h
  simp only at h
  split at h
  · cases h
  · next fs hfs =>
    obtain ⟨_, hs⟩ := trySimpleFormats_ok h
    obtain ⟨_, h2⟩ := makesSense_true hs
    unfold senseNext at h2
    have htr : (Cell.str foot).truthy = true := by
      cases foot with
      | nil => exact absurd rfl hne
      | cons _ _ => rfl
    rw [if_pos htr] at h2
    have hbad : parseCell ext (fun s => parseSimpleStr ext s (senseLast freq (some t))) (.str foot) =
        .error .assertionError := by
      have hdash : ∀ d : Str, ∀ p ∈ splitOn '-' d, '-' ∉ p := by
        intro d
        induction d with
        | nil => simp [splitOn]
        | cons x d ih =>
          unfold splitOn
          split
          · intro p hp
            rcases List.mem_cons.mp hp with rfl | hp
            · simp
            · exact ih p hp
          · next hx =>
            split
            · simp only [List.mem_singleton]
              rintro p rfl hh
              simp only [List.mem_singleton] at hh
              exact hx hh.symm
            · next w ws hw =>
              rw [hw] at ih
              intro p hp
              rcases List.mem_cons.mp hp with rfl | hp
              · intro hh
                rcases List.mem_cons.mp hh with hh | hh
                · exact hx hh.symm
                · exact ih w (by simp) hh
              · exact ih p (by simp [hp])
      unfold parseCell parseSimpleStr timeFormats
      simp only
      rw [replace_dashed]
      split
      · next e he =>
        split at he
        · cases he
        · injection he with he; rw [he]
      · next fs' hfs' =>
        exfalso
        split at hfs'
        · next a b c hsp =>
          have hd := hdash (dashed (strip (ext.unidecode foot)))
          rw [hsp] at hd
          have hj := splitOn_join '-' (dashed (strip (ext.unidecode foot)))
          rw [hsp] at hj
          refine hfoot a b c (hd a (by simp)) (hd b (by simp)) (hd c (by simp)) ?_
          simpa [joinWith] using hj.symm
        · cases hfs'
    rw [hbad] at h2
    cases h2

/-- The whole effect: the last row before the note is cut off, its date text stays in the sheet. -/
theorem C30_row_before_footnote_violated :
    let dates := [.str c!"fecha", Sample.day 2012 1 1, .str c!"01/02/2012", .str c!"01/03/2012"]
    let s := Sample.column (dates ++ [.str c!"Fuente"])
    let s0 := Sample.column dates
    (cleanTimeIndex Sample.extDates Sample.monthly s).1 = .ok 3 ∧
    (cleanTimeIndex Sample.extDates Sample.monthly s).2.cells 4 1 = .str c!"01/03/2012" ∧
    (cleanTimeIndex Sample.extDates Sample.monthly s0).1 = .ok 4 ∧
    (cleanTimeIndex Sample.extDates Sample.monthly s0).2.cells 4 1 = Sample.day 2012 3 1 := by decide

/-- C30. Composed texts are read without looking at the next cell, so a note below does no harm. -/
theorem C30_composed_ignores_note {p : Parser} (hp : p ≠ .simple) (curr next' : Cell) :
    parseWith ext p freq curr last next = parseWith ext p freq curr last next' := by
  unfold parseWith parseStrWith
  cases p <;> first | exact absurd rfl hp | rfl

/-- C30. An empty cell below a simple date is no obstacle: the reading depends on the previous date
only. -/
theorem C30_nothing_below {next' : Cell} (h : next.truthy = false) (h' : next'.truthy = false)
    (curr : Cell) (p : Parser) :
    parseWith ext p freq curr last next = parseWith ext p freq curr last next' := by
  have : senseNext ext freq next = senseNext ext freq next' := by
    funext t; unfold senseNext; rw [h, h']; rfl
  unfold parseWith parseStrWith makesSense
  rw [this]

/-! ### C19: the cleaning strategy -/

/-- C19. For a non-empty frequency exactly one of the single-table cleaning strategies applies and it is
the one used: with an offset iff `time_alignment` is not 0, for several frequencies iff the frequency
has more than one letter, for several columns iff `time_multicolumn`. -/
theorem C19_cleaner_determined (sp : SParams) (hf : sp.frequency ≠ []) (cl : Cleaner) :
    (cleaners.find? fun c => c.accepts sp) = some cl ↔
      cl.multiTable = false ∧ (cl.offset = true ↔ sp.timeAlignment ≠ 0) ∧
      (cl.multiFreq = true ↔ 1 < sp.frequency.length) ∧ cl.multiColumn = sp.timeMulticolumn := by
  have hlen : 1 ≤ sp.frequency.length := by
    cases h : sp.frequency with
    | nil => exact absurd h hf
    | cons _ _ => simp
  obtain ⟨t, o, f, c⟩ := cl
  have e : (decide (1 < sp.frequency.length)) = !(decide (sp.frequency.length = 1)) := by
    by_cases h : sp.frequency.length = 1
    · simp [h]
    · simp [h]; omega
  have e2 : (1 < sp.frequency.length) ↔ ¬ sp.frequency.length = 1 := by omega
  have e3 : (sp.timeAlignment != 0) = !(sp.timeAlignment == 0) := rfl
  have e4 : (sp.timeAlignment ≠ 0) ↔ (sp.timeAlignment == 0) = false := by simp
  rw [e2, e4]
  unfold cleaners Cleaner.accepts
  simp only [e, e3, List.find?, List.flatMap_cons, List.flatMap_nil, List.map_cons, List.map_nil,
    List.cons_append, List.nil_append]
  rcases hm : sp.timeMulticolumn with _ | _ <;>
  rcases hz : (sp.timeAlignment == 0) with _ | _ <;>
  by_cases hl : sp.frequency.length = 1 <;>
  cases t <;> cases o <;> cases f <;> cases c <;>
  simp [hl]

/-- C19. No cleaning strategy applies to an empty frequency: the cleaning fails and the sheet is left
as it was. -/
theorem C19_empty_frequency (ext : Ext) (sp : SParams) (s : Sheet) (hf : sp.frequency = []) :
    cleanTimeIndex ext sp s = (.error .timeIndexNotClean, s) := by
  have : (cleaners.find? fun c => c.accepts sp) = none := by
    rw [List.find?_eq_none]
    intro c _
    unfold Cleaner.accepts
    rw [hf]
    cases c.multiFreq <;> simp
  unfold cleanTimeIndex
  rw [this]

example : (cleaners.find? fun c => c.accepts { Sample.monthly with timeAlignment := -1 }) =
    some ⟨false, true, false, false⟩ := by decide

end Xls
