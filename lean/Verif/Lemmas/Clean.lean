/-
Lemmas on cleaning a time index: progression, one step, the loop.
-/
import Verif.Lemmas.Parse

set_option autoImplicit false

namespace Xls
open Spec

/-! ### progression -/

theorem timeValueTypo_iff (a b : Time) : timeValueTypo a b = true ↔ agreeing a b = 2 := by
  unfold timeValueTypo agreeing
  by_cases h1 : a.day = b.day <;> by_cases h2 : a.month = b.month <;>
    by_cases h3 : a.year = b.year <;> simp [h1, h2, h3]

theorem Time.not_lt_iff (a b : Time) : ¬ a < b ↔ (a = b ∨ b < a) := by
  constructor
  · intro h
    rcases Time.lt_trichotomy a b with h' | h' | h'
    · exact absurd h' h
    · exact .inl h'
    · exact .inr h'
  · rintro (h | h)
    · subst h; exact Time.lt_irrefl a
    · exact Time.lt_asymm h

theorem Time.le_iff (a b : Time) : a ≤ b ↔ (a = b ∨ a < b) := by
  have : (a ≤ b) = ¬ b < a := rfl
  rw [this, Time.not_lt_iff]
  constructor
  · rintro (h | h)
    · exact .inl h.symm
    · exact .inr h
  · rintro (h | h)
    · exact .inl h.symm
    · exact .inr h

/-- What a successful check of the progression returns, when `missing_value` is not the string
`Implicit`. -/
theorem correctProgression_ok {l curr : Time} {freq : Str} {m : Bool} {mv : PVal}
    {r : Option Time} (hv : ValidTime l) (hi : isImplicitStr mv = false)
    (h : correctProgression (some l) curr freq m mv = .ok r) :
    ∃ t, r = some t ∧ ¬ t < l ∧ (incrementTime l 1 freq = .ok t ∨ (t = curr ∧ (m = true ∨ t = l))) := by
  unfold correctProgression at h
  simp only at h
  split at h
  · cases h
  · next exp hexp =>
    have hlt := incrementTime_lt hv (Nat.le_refl 1) hexp
    split at h
    · next he =>
      injection h with h
      exact ⟨curr, h.symm, by rw [← he]; exact Time.lt_asymm hlt, .inl (by rw [hexp, he])⟩
    · split at h
      · split at h
        · injection h with h
          exact ⟨exp, h.symm, Time.lt_asymm hlt, .inl hexp⟩
        · cases h
      · next hnb =>
        split at h
        · split at h
          · injection h with h
            exact ⟨exp, h.symm, Time.lt_asymm hlt, .inl hexp⟩
          · cases h
        · next hnf =>
          split at h
          · cases h
          · split at h
            · next hh => rw [hi] at hh; simp at hh
            · injection h with h
              refine ⟨curr, h.symm, hnb, .inr ⟨rfl, ?_⟩⟩
              cases m with
              | true => exact .inl rfl
              | false =>
                rcases Time.lt_trichotomy l curr with h' | h' | h'
                · exact absurd ⟨h', rfl⟩ hnf
                · exact .inr h'.symm
                · exact absurd h' hnb

theorem correctProgression_valid {last : Option Time} {curr : Time} {freq : Str} {m : Bool}
    {mv : PVal} {t : Time} (hl : ∀ x, last = some x → ValidTime x) (hc : ValidTime curr)
    (h : correctProgression last curr freq m mv = .ok (some t)) : ValidTime t := by
  unfold correctProgression at h
  split at h
  · injection h with h; injection h with h; subst h; exact hc
  · next l =>
    have hl := hl l rfl
    split at h
    · cases h
    · next exp hexp =>
      have hve := incrementTime_valid hl hexp
      split at h
      · injection h with h; injection h with h; subst h; exact hc
      · split at h
        · split at h
          · injection h with h; injection h with h; subst h; exact hve
          · cases h
        · split at h
          · split at h
            · injection h with h; injection h with h; subst h; exact hve
            · cases h
          · split at h
            · cases h
            · split at h
              · unfold forthTimeValueTypo at h
                split at h
                · cases h
                · next hd =>
                  split at h
                  · cases h
                  · next hm =>
                    split at h
                    · cases h
                    · next hy =>
                      injection h with h
                      have := List.mem_of_find?_eq_some h
                      simp only [List.mem_cons, List.not_mem_nil, or_false] at this
                      rcases this with h' | h' | h' <;> subst h'
                      · exact (mkDate_ok hd).1
                      · exact (mkDate_ok hm).1
                      · exact (mkDate_ok hy).1
              · injection h with h; injection h with h; subst h; exact hc

/-! ### reading does not change cells -/

@[simp] theorem touch_cells (s : Sheet) (r c : Int) : (s.touch r c).cells = s.cells := rfl

@[simp] theorem touch_title (s : Sheet) (r c : Int) : (s.touch r c).title = s.title := rfl

theorem set_cells (s : Sheet) (r c : Int) (v : Cell) (r' c' : Int) :
    (s.set r c v).cells r' c' = if r' = r ∧ c' = c then v else s.cells r' c' := rfl

theorem multiParts_cells (ext : Ext) (al : Align) (pos : Int) (s : Sheet) (cs : List Str) :
    (multiParts ext al pos s cs).2.cells = s.cells := by
  induction cs generalizing s with
  | nil => rfl
  | cons c cs ih =>
    unfold multiParts
    split
    · rfl
    · next hr hc _ =>
      simp only
      split
      · split
        · rfl
        · have := ih ((s.touch hr hc).touch (axisCell al hr hc pos).1 (axisCell al hr hc pos).2)
          split
          · next heq => rw [heq] at this; exact this
          · exact this
      · rfl

theorem getTimeValue_cells (ext : Ext) (sp : SParams) (pos : Int) (s : Sheet) :
    (getTimeValue ext sp pos s).2.cells = s.cells := by
  unfold getTimeValue
  split
  · rfl
  · rfl
  · split
    · rfl
    · simp only; split <;> rfl
  · next coords _ _ =>
    have := multiParts_cells ext sp.alignment pos s coords
    split
    · next heq => rw [heq] at this; exact this
    · next heq => rw [heq] at this; exact this

theorem multiParts_congr (ext : Ext) (al : Align) (pos : Int) {s s' : Sheet}
    (h : s.cells = s'.cells) (cs : List Str) :
    (multiParts ext al pos s cs).1 = (multiParts ext al pos s' cs).1 := by
  induction cs generalizing s s' with
  | nil => rfl
  | cons c cs ih =>
    unfold multiParts
    split
    · rfl
    · next hr hc _ =>
      simp only
      split
      · rw [h]
        split
        · rfl
        · have := ih (s := (s.touch hr hc).touch (axisCell al hr hc pos).1 (axisCell al hr hc pos).2)
            (s' := (s'.touch hr hc).touch (axisCell al hr hc pos).1 (axisCell al hr hc pos).2) h
          generalize multiParts ext al pos ((s.touch hr hc).touch (axisCell al hr hc pos).1
            (axisCell al hr hc pos).2) cs = x at *
          generalize multiParts ext al pos ((s'.touch hr hc).touch (axisCell al hr hc pos).1
            (axisCell al hr hc pos).2) cs = y at *
          obtain ⟨x1, x2⟩ := x
          obtain ⟨y1, y2⟩ := y
          simp only at this
          subst this
          cases x1 <;> rfl
      · rfl

theorem getTimeValue_congr (ext : Ext) (sp : SParams) (pos : Int) {s s' : Sheet}
    (h : s.cells = s'.cells) :
    (getTimeValue ext sp pos s).1 = (getTimeValue ext sp pos s').1 := by
  unfold getTimeValue
  split
  · rfl
  · rfl
  · split
    · rfl
    · simp only; split <;> simp [h]
  · next coords _ _ =>
    have := multiParts_congr ext sp.alignment pos h coords
    generalize multiParts ext sp.alignment pos s coords = x at *
    generalize multiParts ext sp.alignment pos s' coords = y at *
    obtain ⟨x1, x2⟩ := x
    obtain ⟨y1, y2⟩ := y
    simp only at this
    subst this
    cases x1 <;> rfl

/-- A date-time read from the index is a date-time of the sheet. -/
theorem getTimeValue_dt {ext : Ext} {sp : SParams} {pos : Int} {s : Sheet} {t : Time}
    (h : (getTimeValue ext sp pos s).1 = .ok (.dt t)) : ∃ r c, s.cells r c = .dt t := by
  unfold getTimeValue at h
  split at h
  · simp at h
  · simp at h
  · split at h
    · simp at h
    · simp only at h
      split at h
      · simp only at h; injection h with h; exact ⟨_, _, h⟩
      · simp at h
  · split at h
    · simp at h
    · simp only at h
      injection h with h
      split at h <;> cases h

theorem axisCell_eq (al : Align) (hr hc pos : Int) :
    axisCell al hr hc pos = (rowOf al hr pos, colOf al hc pos) := by
  unfold axisCell rowOf colOf
  cases al <;> simp

/-! ### one step -/

theorem correctStep_state {sp : SParams} {st st' : CState} {curr : Time} {r : Option Time}
    (h : correctStep sp st curr = .ok (r, st')) :
    st'.last = st.last ∧ st'.parser = st.parser ∧ st'.blanks = st.blanks := by
  unfold correctStep at h
  split at h
  · split at h
    · injection h with h; injection h with h1 h2; subst h2; exact ⟨rfl, rfl, rfl⟩
    · cases h
  · split at h
    · cases h
    · split at h
      · cases h
      · injection h with h; injection h with h1 h2; subst h2; exact ⟨rfl, rfl, rfl⟩
      · injection h with h; injection h with h1 h2; subst h2; exact ⟨rfl, rfl, rfl⟩

/-- How an iteration that goes on may have gone. -/
inductive NextCase (ext : Ext) (sp : SParams) (st : CState) (s : Sheet) (r c : Int)
    (curr next : Cell) (st' : CState) (s' : Sheet) : Prop where
  /-- a date-time was written -/
  | write (t0 t : Time) (p : Option Parser) (st1 : CState)
      (must : mustBeTimeValue sp curr = true)
      (parsed : parseTimeValue ext sp st.parser curr st.last next = (.ok t0, p))
      (corr : correctStep sp { st with blanks := 0, parser := p } t0 = .ok (some t, st1))
      (fresh : ¬ (st.last = some t ∧ sp.frequency.length = 1))
      (hst : st' = { st1 with last := some t })
      (hs : s' = s.set r c (.dt t))
  /-- a date out of range was blanked -/
  | blanked (p : Option Parser) (e : Err)
      (must : mustBeTimeValue sp curr = true)
      (parsed : parseTimeValue ext sp st.parser curr st.last next = (.error e, p))
      (out : e = .dayOutOfRange ∨ e = .monthOutOfRange)
      (hst : st' = { st with blanks := 0, parser := p })
      (hs : s' = s.set r c .none)
  /-- a value that is not a time was skipped -/
  | skipped
      (must : mustBeTimeValue sp curr = false)
      (few : st.blanks < noTimeValueLimit)
      (may : sp.continuity = false ∨ sp.blankRows = true)
      (hst : st' = { st with blanks := st.blanks + 1 })
      (hs : s' = s)

theorem incrementTime_error_not_range {t : Time} {n : Nat} {f : Str} {e : Err}
    (h : incrementTime t n f = .error e) : e ≠ .dayOutOfRange ∧ e ≠ .monthOutOfRange ∧
      endsIndex e = false := by
  unfold incrementTime addMicros at h
  repeat' split at h
  all_goals
    first
    | (have := (addMonths_error h).1; subst this; simp [endsIndex])
    | (have := addDays_error' h; subst this; simp [endsIndex])
    | (injection h with h; subst h; simp [endsIndex])

theorem correctProgression_error {last : Option Time} {curr : Time} {f : Str} {m : Bool} {mv : PVal}
    {e : Err} (h : correctProgression last curr f m mv = .error e) :
    e ≠ .dayOutOfRange ∧ e ≠ .monthOutOfRange ∧ endsIndex e = false := by
  unfold correctProgression at h
  split at h
  · cases h
  · split at h
    · next hh => injection h with h; subst h; exact incrementTime_error_not_range hh
    · split at h
      · cases h
      · split at h
        · split at h
          · cases h
          · injection h with h; subst h; simp [endsIndex]
        · split at h
          · split at h
            · cases h
            · injection h with h; subst h; simp [endsIndex]
          · split at h
            · next hh => injection h with h; subst h; exact incrementTime_error_not_range hh
            · split at h
              · unfold forthTimeValueTypo at h
                repeat' split at h
                all_goals
                  first
                  | (next hh => injection h with h; subst h; rw [mkDate_error hh]; simp [endsIndex])
                  | cases h
              · cases h

theorem correctStep_error {sp : SParams} {st : CState} {curr : Time} {e : Err}
    (h : correctStep sp st curr = .error e) :
    e ≠ .dayOutOfRange ∧ e ≠ .monthOutOfRange ∧ endsIndex e = false := by
  unfold correctStep at h
  split at h
  · split at h
    · cases h
    · next hh => injection h with h; subst h; exact correctProgression_error hh
  · split at h
    · next hh =>
      injection h with h; subst h
      unfold nextFrequency at hh
      repeat' split at hh
      all_goals first | (injection hh with hh; subst hh; simp [endsIndex]) | cases hh
    · split at h
      · next hh => injection h with h; subst h; exact correctProgression_error hh
      · cases h
      · cases h

theorem handleError_next {sp : SParams} {st st' : CState} {s s' : Sheet} {r c : Int} {e : Err}
    (h : handleError sp st s r c e = (.next st', s')) :
    (e = .dayOutOfRange ∨ e = .monthOutOfRange) ∧ st' = st ∧ s' = s.set r c .none := by
  unfold handleError at h
  split at h
  · next he =>
    injection h with h1 h2
    injection h1 with h1
    exact ⟨he, h1.symm, h2.symm⟩
  · split at h
    · injection h with h1 h2; cases h1
    · injection h with h1 h2; cases h1

theorem cleanValue_next {ext : Ext} {sp : SParams} {st st' : CState} {s s' : Sheet} {r c : Int}
    {curr next : Cell} (h : cleanValue ext sp st s r c curr next = (.next st', s')) :
    NextCase ext sp st s r c curr next st' s' := by
  unfold cleanValue at h
  split at h
  · next hm =>
    simp only at h
    split at h
    · next e p hp =>
      obtain ⟨he, hst, hs⟩ := handleError_next h
      exact .blanked p e hm hp he hst hs
    · next t0 p hp =>
      split at h
      · next e hc =>
        obtain ⟨he, _, _⟩ := handleError_next h
        obtain ⟨h1, h2, _⟩ := correctStep_error hc
        rcases he with he | he
        · exact absurd he h1
        · exact absurd he h2
      · injection h with h1 h2; cases h1
      · next t st1 hc =>
        have hl := (correctStep_state hc).1
        split at h
        · obtain ⟨he, _, _⟩ := handleError_next h
          rcases he with he | he <;> cases he
        · next hf =>
          injection h with h1 h2
          injection h1 with h1
          rw [hl] at hf
          exact .write t0 t p st1 hm hp hc hf h1.symm h2.symm
  · next hm =>
    split at h
    · next hb =>
      injection h with h1 h2
      injection h1 with h1
      exact .skipped (by simpa using hm) hb.1 hb.2 h1.symm h2.symm
    · injection h with h1 h2; cases h1

/-- An iteration that ends the loop changes no cell. -/
theorem handleError_end {sp : SParams} {st : CState} {s s' : Sheet} {r c : Int} {e : Err}
    {x : StepEnd} (h : handleError sp st s r c e = (x, s')) (hx : ∀ st', x ≠ .next st') :
    s' = s := by
  unfold handleError at h
  split at h
  · injection h with h1 h2; exact absurd h1.symm (hx _)
  · split at h <;> (injection h with h1 h2; exact h2.symm)

theorem cleanValue_end {ext : Ext} {sp : SParams} {st : CState} {s s' : Sheet} {r c : Int}
    {curr next : Cell} {x : StepEnd} (h : cleanValue ext sp st s r c curr next = (x, s'))
    (hx : ∀ st', x ≠ .next st') : s' = s := by
  unfold cleanValue at h
  split at h
  · simp only at h
    split at h
    · exact handleError_end h hx
    · split at h
      · exact handleError_end h hx
      · injection h with h1 h2; exact h2.symm
      · split at h
        · exact handleError_end h hx
        · injection h with h1 h2; exact absurd h1.symm (hx _)
  · split at h
    · injection h with h1 h2; exact absurd h1.symm (hx _)
    · injection h with h1 h2; exact h2.symm

theorem cleanStep_next {ext : Ext} {sp : SParams} {st st' : CState} {s s' : Sheet} {pos : Int}
    (h : cleanStep ext sp st s pos = (.next st', s')) :
    ∃ hr hc curr next s0, timeHeaderCell sp.timeHeader = .ok (hr, hc) ∧ s0.cells = s.cells ∧
      (getTimeValue ext sp pos s).1 = .ok curr ∧ (getTimeValue ext sp (pos + 1) s).1 = .ok next ∧
      NextCase ext sp st s0 (rowOf sp.alignment hr pos) (colOf sp.alignment hc pos) curr next
        st' s' := by
  unfold cleanStep at h
  have e1 := getTimeValue_cells ext sp pos s
  split at h
  · injection h with h1 h2; cases h1
  · next curr s1 hg1 =>
    rw [hg1] at e1
    have e2 := getTimeValue_cells ext sp (pos + 1) s1
    have e3 := getTimeValue_congr ext sp (pos + 1) (s := s1) (s' := s) e1
    split at h
    · injection h with h1 h2; cases h1
    · next next s2 hg2 =>
      rw [hg2] at e2 e3
      split at h
      · injection h with h1 h2; cases h1
      · next hr hc hh =>
        simp only [axisCell_eq] at h
        refine ⟨hr, hc, curr, next, s2.touch _ _, hh, ?_, ?_, e3.symm, cleanValue_next h⟩
        · rw [touch_cells]; exact e2.trans e1
        · rw [hg1]

theorem cleanStep_end {ext : Ext} {sp : SParams} {st : CState} {s s' : Sheet} {pos : Int}
    {x : StepEnd} (h : cleanStep ext sp st s pos = (x, s')) (hx : ∀ st', x ≠ .next st') :
    s'.cells = s.cells := by
  unfold cleanStep at h
  have e1 := getTimeValue_cells ext sp pos s
  split at h
  · next hg1 => rw [hg1] at e1; injection h with h1 h2; subst h2; exact e1
  · next curr s1 hg1 =>
    rw [hg1] at e1
    have e2 := getTimeValue_cells ext sp (pos + 1) s1
    split at h
    · next hg2 => rw [hg2] at e2; injection h with h1 h2; subst h2; exact e2.trans e1
    · next next s2 hg2 =>
      rw [hg2] at e2
      split at h
      · injection h with h1 h2; subst h2; exact e2.trans e1
      · have := cleanValue_end h hx
        rw [this, touch_cells]; exact e2.trans e1

/-- How an iteration that stops without an exception may have gone. -/
theorem cleanValue_stop {ext : Ext} {sp : SParams} {st : CState} {s s' : Sheet} {r c : Int}
    {curr next : Cell} (h : cleanValue ext sp st s r c curr next = (.stop, s')) :
    (mustBeTimeValue sp curr = false ∧
      ¬ (st.blanks < noTimeValueLimit ∧ (sp.continuity = false ∨ sp.blankRows = true))) ∨
    (mustBeTimeValue sp curr = true ∧ hasEnd sp = false ∧
      ((∃ e p, parseTimeValue ext sp st.parser curr st.last next = (.error e, p) ∧
        endsIndex e = true) ∨
       (sp.frequency.length = 1 ∧ ∃ t0 p l, parseTimeValue ext sp st.parser curr st.last next =
          (.ok t0, p) ∧ st.last = some l ∧
          correctProgression (some l) t0 sp.frequency sp.missings sp.missingValue =
            .ok (some l)))) := by
  unfold cleanValue at h
  split at h
  · next hm =>
    simp only at h
    split at h
    · next e p hp =>
      unfold handleError at h
      split at h
      · injection h with h1 h2; cases h1
      · split at h
        · next hh => exact .inr ⟨hm, hh.2, .inl ⟨e, p, hp, hh.1⟩⟩
        · injection h with h1 h2; cases h1
    · next t0 p hp =>
      split at h
      · next e hc =>
        obtain ⟨_, _, h3⟩ := correctStep_error hc
        unfold handleError at h
        split at h
        · injection h with h1 h2; cases h1
        · split at h
          · next hh => rw [h3] at hh; simp at hh
          · injection h with h1 h2; cases h1
      · injection h with h1 h2; cases h1
      · next t st1 hc =>
        have hl := (correctStep_state hc).1
        split at h
        · next hf =>
          rw [hl] at hf
          unfold handleError at h
          split at h
          · injection h with h1 h2; cases h1
          · split at h
            · next hh =>
              refine .inr ⟨hm, hh.2, .inr ⟨hf.2, t0, p, t, hp, hf.1, ?_⟩⟩
              unfold correctStep at hc
              rw [if_pos hf.2] at hc
              split at hc
              · next hcp =>
                injection hc with hc; injection hc with h1 h2; subst h1
                have h9 := hf.1; simp only at h9; rw [h9] at hcp; exact hcp
              · cases hc
            · injection h with h1 h2; cases h1
        · injection h with h1 h2; cases h1
  · next hm =>
    split at h
    · injection h with h1 h2; cases h1
    · next hb => exact .inl ⟨by simpa using hm, hb⟩

theorem cleanStep_stop {ext : Ext} {sp : SParams} {st : CState} {s s' : Sheet} {pos : Int}
    (h : cleanStep ext sp st s pos = (.stop, s')) :
    ∃ hr hc curr next s0, timeHeaderCell sp.timeHeader = .ok (hr, hc) ∧ s0.cells = s.cells ∧
      (getTimeValue ext sp pos s).1 = .ok curr ∧ (getTimeValue ext sp (pos + 1) s).1 = .ok next ∧
      cleanValue ext sp st s0 (rowOf sp.alignment hr pos) (colOf sp.alignment hc pos) curr next
        = (.stop, s') := by
  unfold cleanStep at h
  have e1 := getTimeValue_cells ext sp pos s
  split at h
  · injection h with h1 h2; cases h1
  · next curr s1 hg1 =>
    rw [hg1] at e1
    have e2 := getTimeValue_cells ext sp (pos + 1) s1
    have e3 := getTimeValue_congr ext sp (pos + 1) (s := s1) (s' := s) e1
    split at h
    · injection h with h1 h2; cases h1
    · next next s2 hg2 =>
      rw [hg2] at e2 e3
      split at h
      · injection h with h1 h2; cases h1
      · next hr hc hh =>
        simp only [axisCell_eq] at h
        refine ⟨hr, hc, curr, next, s2.touch _ _, hh, ?_, ?_, e3.symm, h⟩
        · rw [touch_cells]; exact e2.trans e1
        · rw [hg1]

/-! ### the loop -/

/-- The loop went on from `(st, s)` at position `p` to `(st', s')` at position `q`. -/
inductive Steps (ext : Ext) (sp : SParams) : CState → Sheet → Int → CState → Sheet → Int → Prop where
  | refl (st : CState) (s : Sheet) (p : Int) : Steps ext sp st s p st s p
  | tail {st : CState} {s : Sheet} {p : Int} {st1 : CState} {s1 : Sheet} {q : Int} {st2 : CState}
      {s2 : Sheet} (h : Steps ext sp st s p st1 s1 q)
      (hs : cleanStep ext sp st1 s1 q = (.next st2, s2)) : Steps ext sp st s p st2 s2 (q + 1)

theorem Steps.head {ext : Ext} {sp : SParams} {st st1 st2 : CState} {s s1 s2 : Sheet} {p q : Int}
    (h1 : cleanStep ext sp st s p = (.next st1, s1)) (h2 : Steps ext sp st1 s1 (p + 1) st2 s2 q) :
    Steps ext sp st s p st2 s2 q := by
  generalize hp : p + 1 = p1 at h2
  induction h2 with
  | refl => subst hp; exact .tail (.refl _ _ _) h1
  | tail _ hs ih => exact .tail ih hs

theorem Steps.le {ext : Ext} {sp : SParams} {st st' : CState} {s s' : Sheet} {p q : Int}
    (h : Steps ext sp st s p st' s' q) : p ≤ q := by
  induction h with
  | refl => exact Int.le_refl _
  | tail _ _ ih => omega

theorem intRange_nil {a b : Int} (h : b ≤ a) : intRange a b = [] := by
  unfold intRange
  have : (b - a).toNat = 0 := by omega
  rw [this]; rfl

theorem intRange_cons {a b : Int} (h : a < b) : intRange a b = a :: intRange (a + 1) b := by
  unfold intRange
  obtain ⟨n, hn⟩ : ∃ n, (b - a).toNat = n + 1 := ⟨(b - a).toNat - 1, by omega⟩
  have h2 : (b - (a + 1)).toNat = n := by omega
  rw [hn, h2, List.range_succ_eq_map]
  simp only [List.map_cons, List.map_map]
  congr 1
  · simp
  · apply List.map_congr_left
    intro i _
    simp only [Function.comp]
    omega

theorem mem_intRange {a b x : Int} : x ∈ intRange a b ↔ a ≤ x ∧ x < b := by
  unfold intRange
  simp only [List.mem_map, List.mem_range]
  constructor
  · rintro ⟨i, hi, rfl⟩; omega
  · intro h; exact ⟨(x - a).toNat, by omega, by omega⟩

/-- How the loop ended. -/
inductive LoopEnd (ext : Ext) (sp : SParams) (e : Int) (p : Int) (reached : Option Int)
    (st1 : CState) (s1 : Sheet) (q : Int) : Except Err (Option Int) → Sheet → Prop where
  /-- all positions visited -/
  | done (hq : q = max p e) :
      LoopEnd ext sp e p reached st1 s1 q (.ok (if q = p then reached else some (q - 1))) s1
  /-- stopped at a position -/
  | stop (s' : Sheet) (hq : q < e) (h : cleanStep ext sp st1 s1 q = (.stop, s')) :
      LoopEnd ext sp e p reached st1 s1 q (.ok (some q)) s'
  /-- raised at a position -/
  | raise (err : Err) (s' : Sheet) (hq : q < e) (h : cleanStep ext sp st1 s1 q = (.raise err, s')) :
      LoopEnd ext sp e p reached st1 s1 q (.error err) s'

theorem cleanLoop_end {ext : Ext} {sp : SParams} (n : Nat) {st : CState} {s : Sheet}
    {reached : Option Int} {p e : Int} (hn : (e - p).toNat = n) :
    ∃ st1 s1 q, Steps ext sp st s p st1 s1 q ∧
      LoopEnd ext sp e p reached st1 s1 q (cleanLoop ext sp st s reached (intRange p e)).1
        (cleanLoop ext sp st s reached (intRange p e)).2 := by
  induction n generalizing st s reached p with
  | zero =>
    rw [intRange_nil (by omega)]
    refine ⟨st, s, p, .refl _ _ _, ?_⟩
    have := LoopEnd.done (ext := ext) (sp := sp) (e := e) (p := p) (reached := reached) (st1 := st)
      (s1 := s) (q := p) (by omega)
    simpa [cleanLoop] using this
  | succ n ih =>
    rw [intRange_cons (by omega)]
    simp only [cleanLoop]
    cases h : cleanStep ext sp st s p with
    | mk x s' =>
      cases x with
      | raise er => exact ⟨st, s, p, .refl _ _ _, .raise er s' (by omega) h⟩
      | stop => exact ⟨st, s, p, .refl _ _ _, .stop s' (by omega) h⟩
      | next st' =>
        simp only
        obtain ⟨st1, s1, q, hst, hend⟩ := ih (st := st') (s := s') (reached := some p) (p := p + 1)
          (by omega)
        refine ⟨st1, s1, q, Steps.head h hst, ?_⟩
        generalize cleanLoop ext sp st' s' (some p) (intRange (p + 1) e) = res at *
        obtain ⟨r1, r2⟩ := res
        simp only at *
        have hle := hst.le
        cases hend with
        | done hq =>
          have h1 : (if q = p + 1 then some p else some (q - 1)) = some (q - 1) := by
            split
            · congr 1; omega
            · rfl
          rw [h1]
          have := LoopEnd.done (ext := ext) (sp := sp) (e := e) (p := p) (reached := reached)
            (st1 := st1) (s1 := s1) (q := q) (by omega)
          rwa [if_neg (by omega)] at this
        | stop s'' hq h => exact .stop _ hq h
        | raise er s'' hq h => exact .raise er _ hq h

end Xls
