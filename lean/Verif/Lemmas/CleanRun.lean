/-
Running the cleaning loop over a column that is already clean.
-/
import Verif.Lemmas.CleanInv

set_option autoImplicit false

namespace Xls
open Spec

theorem scanEnd_eq (sp : SParams) (s : Sheet) : scanEnd sp s = lastPosition sp s := by
  unfold scanEnd lastPosition
  cases sp.dataEnds with
  | none => rfl
  | some e => by_cases h : e = 0 <;> simp [h]

/-! ### header cells exist -/

theorem colIndex_snoc (s : Str) (c : Char) : colIndex (s ++ [c]) = colIndex s * 26 + (c.toNat - 64) := by
  unfold colIndex; rw [List.foldl_append]; rfl

theorem colIndex_pos {s : Str} (h : s ≠ []) (hu : ∀ c ∈ s, isUpperLetter c = true) :
    1 ≤ colIndex s := by
  obtain ⟨l, c, rfl⟩ := List.eq_nil_or_concat s |>.resolve_left h
  rw [List.concat_eq_append, colIndex_snoc]
  have := hu c (by simp)
  unfold isUpperLetter at this
  simp at this
  omega

theorem takeWhile_all {α : Type} (p : α → Bool) (l : List α) : ∀ x ∈ l.takeWhile p, p x = true := by
  intro x hx
  have := List.all_takeWhile (l := l) (p := p)
  rw [List.all_eq_true] at this
  exact this x hx

theorem coordOf_pos {c : Str} {hr hc : Int} (h : coordOf c = .ok (hr, hc)) : 1 ≤ hr ∧ 1 ≤ hc := by
  unfold coordOf at h
  split at h
  · next r k hp =>
    injection h with h; injection h with h1 h2
    unfold parseCoord at hp
    simp only at hp
    split at hp
    · next hcond =>
      injection hp with hp; injection hp with h3 h4
      have := colIndex_pos hcond.1 (takeWhile_all _ _)
      omega
    · cases hp
  · cases h

theorem Spec.TimeColumn.headerCell {sp : SParams} {hr hc : Int} (h : TimeColumn sp hr hc) :
    timeHeaderCell sp.timeHeader = .ok (hr, hc) := by
  obtain ⟨coord, h1, h2⟩ := h.header
  rw [h1]; exact h2

theorem Spec.TimeColumn.freq_ne {sp : SParams} {hr hc : Int} (h : TimeColumn sp hr hc) :
    sp.frequency ≠ [] := by
  intro hf; have := h.oneLetter; rw [hf] at this; cases this

theorem Spec.TimeColumn.cell_pos {sp : SParams} {hr hc pos : Int} (h : TimeColumn sp hr hc)
    (hp : sp.dataStarts ≤ pos) :
    1 ≤ rowOf sp.alignment hr pos ∧ 1 ≤ colOf sp.alignment hc pos := by
  obtain ⟨coord, _, h2⟩ := h.header
  have := coordOf_pos h2
  have := h.starts
  unfold rowOf colOf
  split <;> omega

/-! ### steps over date-times and blanks -/

theorem getTimeValue_column {ext : Ext} {sp : SParams} {hr hc pos : Int} (h : TimeColumn sp hr hc)
    (hp : sp.dataStarts ≤ pos) (s : Sheet) :
    ∃ s', getTimeValue ext sp pos s = (.ok (timeCell s sp.alignment hr hc pos), s') ∧
      s'.cells = s.cells := by
  obtain ⟨coord, h1, h2⟩ := h.header
  have hpos := h.cell_pos hp
  refine ⟨(getTimeValue ext sp pos s).2, ?_, getTimeValue_cells ext sp pos s⟩
  unfold getTimeValue
  rw [h.single, h1]
  simp only [h2, axisCell_eq]
  rw [if_pos hpos]
  rfl

theorem parseTimeValue_dt {ext : Ext} {sp : SParams} {hr hc : Int} (h : TimeColumn sp hr hc)
    (parser : Option Parser) (t : Time) (last : Option Time) (next : Cell) :
    ∃ p, parseTimeValue ext sp parser (.dt t) last next = (.ok t, p) := by
  cases parser with
  | none =>
    refine ⟨some .month1, ?_⟩
    simp [parseTimeValue, parsers, searchParser, accepts, h.notComposed, parseWith, parseCell]
  | some p =>
    refine ⟨some p, ?_⟩
    simp [parseTimeValue, parseWith, parseCell]

/-- The iteration at a date-time. -/
theorem cleanStep_dt {ext : Ext} {sp : SParams} {hr hc pos : Int} (h : TimeColumn sp hr hc)
    (hp : sp.dataStarts ≤ pos) (st : CState) (s : Sheet) {t : Time}
    (ht : timeCell s sp.alignment hr hc pos = .dt t) :
    ∃ s0 p, s0.cells = s.cells ∧ cleanStep ext sp st s pos =
      (match correctProgression st.last t sp.frequency sp.missings sp.missingValue with
       | .error e => handleError sp { st with blanks := 0, parser := p } s0
          (rowOf sp.alignment hr pos) (colOf sp.alignment hc pos) e
       | .ok none => (.raise .attributeError, s0)
       | .ok (some t) =>
          if st.last = some t then
            handleError sp { st with blanks := 0, parser := p } s0
              (rowOf sp.alignment hr pos) (colOf sp.alignment hc pos) .sameTimeValue
          else (.next { st with blanks := 0, parser := p, last := some t },
            s0.set (rowOf sp.alignment hr pos) (colOf sp.alignment hc pos) (.dt t))) := by
  obtain ⟨s1, hg1, hc1⟩ := getTimeValue_column (ext := ext) h hp s
  obtain ⟨s2, hg2, hc2⟩ := getTimeValue_column (ext := ext) (pos := pos + 1) h (by omega) s1
  obtain ⟨p, hpar⟩ := parseTimeValue_dt (ext := ext) h st.parser t st.last
    (timeCell s1 sp.alignment hr hc (pos + 1))
  refine ⟨s2.touch (rowOf sp.alignment hr pos) (colOf sp.alignment hc pos), p, ?_, ?_⟩
  · rw [touch_cells, hc2, hc1]
  · unfold cleanStep
    rw [hg1]
    simp only
    rw [hg2]
    simp only [h.headerCell, axisCell_eq]
    unfold cleanValue
    rw [ht, mustBe_dt, if_pos rfl]
    simp only
    rw [hpar]
    simp only
    unfold correctStep
    rw [if_pos h.oneLetter]
    simp only
    cases correctProgression st.last t sp.frequency sp.missings sp.missingValue with
    | error e => rfl
    | ok r =>
      cases r with
      | none => rfl
      | some t' =>
        simp only [h.oneLetter, and_true]

theorem dropWhile_all {α : Type} {p : α → Bool} {l : List α} (h : ∀ x ∈ l, p x = true) :
    l.dropWhile p = [] := by
  induction l with
  | nil => rfl
  | cons a l ih =>
    rw [List.dropWhile_cons, if_pos (h a (by simp))]
    exact ih fun x hx => h x (List.mem_cons_of_mem _ hx)

theorem strip_blank {s : Str} (h : ∀ c ∈ s, isSpace c = true) : strip s = [] := by
  have h1 : lstrip s = [] := by
    unfold lstrip
    exact dropWhile_all h
  unfold strip
  rw [h1]; rfl

theorem mustBe_blank (sp : SParams) {c : Cell} (h : BlankCell c) : mustBeTimeValue sp c = false := by
  unfold mustBeTimeValue
  cases c with
  | none => rfl
  | str s => simp [strip_blank h]
  | _ => exact absurd h (by simp [BlankCell])

/-- The iteration at a blank cell. -/
theorem cleanStep_blank {ext : Ext} {sp : SParams} {hr hc pos : Int} (h : TimeColumn sp hr hc)
    (hp : sp.dataStarts ≤ pos) (st : CState) (s : Sheet)
    (ht : BlankCell (timeCell s sp.alignment hr hc pos)) :
    ∃ s0, s0.cells = s.cells ∧ cleanStep ext sp st s pos =
      (if st.blanks < noTimeValueLimit ∧ (sp.continuity = false ∨ sp.blankRows = true) then
        (.next { st with blanks := st.blanks + 1 }, s0)
       else (.stop, s0)) := by
  obtain ⟨s1, hg1, hc1⟩ := getTimeValue_column (ext := ext) h hp s
  obtain ⟨s2, hg2, hc2⟩ := getTimeValue_column (ext := ext) (pos := pos + 1) h (by omega) s1
  refine ⟨s2.touch (rowOf sp.alignment hr pos) (colOf sp.alignment hc pos), ?_, ?_⟩
  · rw [touch_cells, hc2, hc1]
  · unfold cleanStep
    rw [hg1]
    simp only
    rw [hg2]
    simp only [h.headerCell, axisCell_eq]
    unfold cleanValue
    rw [mustBe_blank sp ht]
    simp

theorem set_same {s0 s : Sheet} {r c : Int} {v : Cell} (h0 : s0.cells = s.cells)
    (h : s.cells r c = v) : (s0.set r c v).cells = s.cells := by
  funext r' c'
  rw [set_cells]
  split
  · next hx => rw [hx.1, hx.2, h]
  · rw [h0]

theorem correctProgression_expected {l t : Time} {f : Str} {sh : Shift} (m : Bool) (mv : PVal)
    (hv : ValidTime l) (hv' : ValidTime t) (hs : shiftOf f = some sh) (hi : IsShifted l 1 t sh) :
    incrementTime l 1 f = .ok t ∧ correctProgression (some l) t f m mv = .ok (some t) ∧ l < t := by
  have h1 : incrementTime l 1 f = .ok t := by
    cases hr : incrementTime l 1 f with
    | error e => exact absurd (incrementTime_error hv hs hr).2 (beyond_no_result hv' hi)
    | ok x =>
      obtain ⟨s', hs', hvx, hsh⟩ := incrementTime_ok hv hr
      rw [hs] at hs'; cases hs'
      rw [isShifted_unique hvx hv' hsh hi]
  refine ⟨h1, ?_, incrementTime_lt hv (Nat.le_refl 1) h1⟩
  unfold correctProgression
  simp [h1]

theorem Spec.Consecutive.snoc_inv {f : Str} {t : Time} : ∀ {ts : List Time}, Consecutive f (ts ++ [t]) →
    Consecutive f ts ∧ ∀ l, ts.getLast? = some l → ∃ sh, shiftOf f = some sh ∧ IsShifted l 1 t sh
  | [], _ => ⟨trivial, by simp⟩
  | [a], h => ⟨trivial, by intro l hl; simp at hl; subst hl; exact h.1⟩
  | a :: b :: r, h => by
    have := Consecutive.snoc_inv (ts := b :: r) h.2
    exact ⟨⟨h.1, this.1⟩, by intro l hl; exact this.2 l (by simpa using hl)⟩

/-- The loop goes unchanged over a clean column, possibly with tolerated gaps. -/
theorem steps_run {ext : Ext} {sp : SParams} {hr hc : Int} (h : TimeColumn sp hr hc) {s : Sheet}
    (hsv : SheetValid s) (n : Nat) {q : Int} (hq : q = sp.dataStarts + n)
    (hcells : ∀ p, sp.dataStarts ≤ p → p < q → (∃ t, timeCell s sp.alignment hr hc p = .dt t) ∨
      (BlankCell (timeCell s sp.alignment hr hc p) ∧
        (sp.continuity = false ∨ sp.blankRows = true)))
    (hcons : Consecutive sp.frequency (indexTimes s sp.alignment hr hc sp.dataStarts q))
    (hgap : ∀ p, sp.dataStarts ≤ p → p + 41 ≤ q → ∃ x, p ≤ x ∧ x < p + 41 ∧
      ∃ t, timeCell s sp.alignment hr hc x = .dt t) :
    ∃ st s1, Steps ext sp .init s sp.dataStarts st s1 q ∧ s1.cells = s.cells ∧
      st.last = (indexTimes s sp.alignment hr hc sp.dataStarts q).getLast? ∧
      (sp.dataStarts ≤ q - st.blanks ∧
        ∀ x, q - st.blanks ≤ x → x < q → BlankCell (timeCell s sp.alignment hr hc x)) ∧
      (∀ x, x = q - st.blanks - 1 → sp.dataStarts ≤ x → ∃ t, timeCell s sp.alignment hr hc x = .dt t) := by
  induction n generalizing q with
  | zero =>
    have hq0 : q = sp.dataStarts := by omega
    subst hq0
    refine ⟨.init, s, .refl _ _ _, rfl, ?_, ⟨by simp [CState.init], ?_⟩, ?_⟩
    · rw [indexTimes_empty _ _ _ _ (Int.le_refl _)]; rfl
    · intro x h1 h2; simp [CState.init] at h1; omega
    · intro x h1 h2; simp [CState.init] at h1; omega
  | succ n ih =>
    obtain ⟨q0, rfl⟩ : ∃ q0, q = q0 + 1 := ⟨q - 1, by omega⟩
    have hq0 : q0 = sp.dataStarts + n := by omega
    have hle : sp.dataStarts ≤ q0 := by omega
    have hsnoc := indexTimes_snoc s sp.alignment hr hc hle
    have hcons0 : Consecutive sp.frequency (indexTimes s sp.alignment hr hc sp.dataStarts q0) := by
      rw [hsnoc] at hcons
      split at hcons
      · exact (Consecutive.snoc_inv hcons).1
      · simpa using hcons
    obtain ⟨st, s1, hst, hcell, hlast, ⟨hb1, hb2⟩, hb3⟩ := ih hq0
      (fun p h1 h2 => hcells p h1 (by omega)) hcons0 (fun p h1 h2 => hgap p h1 (by omega))
    have htc : ∀ p, timeCell s1 sp.alignment hr hc p = timeCell s sp.alignment hr hc p := by
      intro p; unfold timeCell; rw [hcell]
    rcases hcells q0 hle (by omega) with ⟨t, ht⟩ | ⟨hbl, hor⟩
    · obtain ⟨s0, p, hs0, hstep⟩ := cleanStep_dt (ext := ext) h hle st s1 (t := t) (by rw [htc, ht])
      rw [hsnoc, ht] at hcons
      have hprog : correctProgression st.last t sp.frequency sp.missings sp.missingValue =
          .ok (some t) ∧ st.last ≠ some t := by
        cases hl : st.last with
        | none => exact ⟨rfl, by simp⟩
        | some l =>
          rw [hl] at hlast
          obtain ⟨sh, a, b⟩ := (Consecutive.snoc_inv hcons).2 l hlast.symm
          have hvl : ValidTime l := by
            have : l ∈ indexTimes s sp.alignment hr hc sp.dataStarts q0 :=
              List.mem_of_getLast? hlast.symm
            obtain ⟨x, _, _, hx⟩ := mem_indexTimes.mp this
            exact hsv _ _ _ hx
          obtain ⟨_, h2, h3⟩ := correctProgression_expected sp.missings sp.missingValue hvl
            (hsv _ _ _ ht) a b
          refine ⟨h2, ?_⟩
          intro hx; injection hx with hx; subst hx; exact Time.lt_irrefl _ h3
      rw [hprog.1] at hstep
      simp only [if_neg hprog.2] at hstep
      refine ⟨_, _, .tail hst hstep, ?_, ?_, ⟨?_, ?_⟩, ?_⟩
      · rw [set_same (hs0.trans hcell) (v := .dt t) ht]
      · rw [hsnoc, ht]; simp
      · simp; omega
      · intro x h1 h2; simp at h1; omega
      · intro x h1 h2; simp at h1
        have : x = q0 := by omega
        subst this; exact ⟨t, ht⟩
    · obtain ⟨s0, hs0, hstep⟩ := cleanStep_blank (ext := ext) h hle st s1 (by rw [htc]; exact hbl)
      have hlt : st.blanks < noTimeValueLimit := by
        by_cases hx : st.blanks < noTimeValueLimit
        · exact hx
        · exfalso
          unfold noTimeValueLimit at hx
          obtain ⟨x, hx1, hx2, t, hx3⟩ := hgap (q0 - 40) (by omega) (by omega)
          have : BlankCell (timeCell s sp.alignment hr hc x) := by
            by_cases hxq : x = q0
            · rw [hxq]; exact hbl
            · exact hb2 x (by omega) (by omega)
          rw [hx3] at this
          exact this
      rw [if_pos ⟨hlt, hor⟩] at hstep
      refine ⟨_, _, .tail hst hstep, hs0.trans hcell, ?_, ⟨?_, ?_⟩, ?_⟩
      · rw [hsnoc, hlast]
        cases hc' : timeCell s sp.alignment hr hc q0 with
        | dt t => rw [hc'] at hbl; exact absurd hbl (by simp [BlankCell])
        | _ => simp
      · simp; omega
      · intro x h1 h2
        simp at h1
        by_cases hxq : x = q0
        · rw [hxq]; exact hbl
        · exact hb2 x (by omega) (by omega)
      · intro x h1 h2
        simp at h1
        exact hb3 x (by omega) h2

/-! ### finishing the loop -/

/-- The loop from an intermediate state. -/
theorem cleanLoop_steps {ext : Ext} {sp : SParams} {st st1 : CState} {s s1 : Sheet} {p q e : Int}
    (h : Steps ext sp st s p st1 s1 q) (hq : q ≤ e) (reached : Option Int) :
    cleanLoop ext sp st s reached (intRange p e) =
      cleanLoop ext sp st1 s1 (if q = p then reached else some (q - 1)) (intRange q e) := by
  induction h with
  | refl => simp
  | @tail st1 s1 q st2 s2 h hs ih =>
    rw [ih (by omega), intRange_cons (a := q) (by omega)]
    have := h.le
    rw [if_neg (by omega : ¬ q + 1 = p)]
    simp only [cleanLoop, hs]
    congr 2
    omega

theorem Spec.TimeColumn.not_other {sp : SParams} {hr hc : Int} (h : TimeColumn sp hr hc) :
    sp.alignment ≠ .other := by
  rcases h.aligned with h | h <;> rw [h] <;> simp

/-- If the loop stops at `q`. -/
theorem cleanTimeIndex_stop {ext : Ext} {sp : SParams} {hr hc : Int} (h : TimeColumn sp hr hc)
    {st1 : CState} {s s1 s' : Sheet} {q : Int}
    (hst : Steps ext sp .init s sp.dataStarts st1 s1 q) (hq : q ≤ lastPosition sp s)
    (hs : cleanStep ext sp st1 s1 q = (.stop, s')) :
    cleanTimeIndex ext sp s = (estimateEnd sp s' hr hc q, s') := by
  rw [cleanTimeIndex_accepted s h.freq_ne]
  unfold cleanWith
  rw [if_neg h.not_other, cleanLoop_steps hst (by rw [scanEnd_eq]; omega),
    intRange_cons (by rw [scanEnd_eq]; omega)]
  simp only [cleanLoop, hs, h.headerCell]

/-- If the loop raises at `q`. -/
theorem cleanTimeIndex_raise {ext : Ext} {sp : SParams} {hr hc : Int} (h : TimeColumn sp hr hc)
    {st1 : CState} {s s1 s' : Sheet} {q : Int} {e : Err}
    (hst : Steps ext sp .init s sp.dataStarts st1 s1 q) (hq : q ≤ lastPosition sp s)
    (hs : cleanStep ext sp st1 s1 q = (.raise e, s')) :
    cleanTimeIndex ext sp s = (.error e, s') := by
  rw [cleanTimeIndex_accepted s h.freq_ne]
  unfold cleanWith
  rw [if_neg h.not_other, cleanLoop_steps hst (by rw [scanEnd_eq]; omega),
    intRange_cons (by rw [scanEnd_eq]; omega)]
  simp only [cleanLoop, hs]

/-- If the loop visits all positions. -/
theorem cleanTimeIndex_done {ext : Ext} {sp : SParams} {hr hc : Int} (h : TimeColumn sp hr hc)
    {st1 : CState} {s s1 : Sheet} {q : Int}
    (hst : Steps ext sp .init s sp.dataStarts st1 s1 q) (hq : q = lastPosition sp s + 1)
    (hlt : sp.dataStarts < q) :
    cleanTimeIndex ext sp s = (estimateEnd sp s1 hr hc (q - 1), s1) := by
  rw [cleanTimeIndex_accepted s h.freq_ne]
  unfold cleanWith
  rw [if_neg h.not_other, cleanLoop_steps hst (by rw [scanEnd_eq]; omega),
    intRange_nil (by rw [scanEnd_eq]; omega), if_neg (by omega)]
  simp only [cleanLoop, h.headerCell]

/-- The loop is deterministic: the run through an intermediate point is part of the whole run. -/
theorem cleanTimeIndex_through {ext : Ext} {sp : SParams} {hr hc : Int} (h : TimeColumn sp hr hc)
    {st1 : CState} {s s1 : Sheet} {q : Int}
    (hst : Steps ext sp .init s sp.dataStarts st1 s1 q) (hq : q ≤ lastPosition sp s + 1) :
    ∀ pos, sp.dataStarts ≤ pos → pos < q →
      timeCell (cleanTimeIndex ext sp s).2 sp.alignment hr hc pos =
        timeCell s1 sp.alignment hr hc pos := by
  rw [cleanTimeIndex_accepted s h.freq_ne]
  unfold cleanWith
  rw [if_neg h.not_other, cleanLoop_steps hst (by rw [scanEnd_eq]; omega)]
  obtain ⟨st2, s2, q2, hst2, hend⟩ := cleanLoop_end (ext := ext) (sp := sp) _ (st := st1) (s := s1)
    (reached := if q = sp.dataStarts then none else some (q - 1)) (p := q) (e := scanEnd sp s + 1) rfl
  intro pos hp1 hp2
  have key : timeCell s2 sp.alignment hr hc pos = timeCell s1 sp.alignment hr hc pos := by
    unfold timeCell
    rcases steps_frame h.headerCell hst2 (rowOf sp.alignment hr pos) (colOf sp.alignment hc pos) with
      h' | ⟨⟨pos', a1, a2, a3⟩, _⟩
    · exact h'
    · exfalso
      have := isAt_inj (al := sp.alignment) (hr := hr) (hc := hc) (a := pos) (b := pos')
        ⟨rfl, rfl⟩ a3
      omega
  generalize cleanLoop ext sp st1 s1 (if q = sp.dataStarts then none else some (q - 1))
    (intRange q (scanEnd sp s + 1)) = res at *
  obtain ⟨r1, r2⟩ := res
  simp only at hend
  have hr2 : r2.cells = s2.cells := by
    cases hend with
    | done => rfl
    | stop _ _ hx => exact cleanStep_end hx (by simp)
    | raise _ _ _ hx => exact cleanStep_end hx (by simp)
  have key2 : timeCell r2 sp.alignment hr hc pos = timeCell s1 sp.alignment hr hc pos := by
    rw [← key]; unfold timeCell; rw [hr2]
  cases r1 with
  | error e => exact key2
  | ok r =>
    cases r with
    | none => exact key2
    | some x => simp only [h.headerCell]; exact key2

end Xls
