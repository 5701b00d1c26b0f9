/-
C06, C07, C11-C16: what cleaning a time index does to a worksheet.
-/
import Verif.Lemmas.CleanMisc
import Verif.Spec.Samples

set_option autoImplicit false

namespace Xls
open Spec

theorem cleanTimeIndex_end (ext : Ext) (sp : SParams) (s : Sheet) :
    ∃ st1 s1 q, Steps ext sp .init s sp.dataStarts st1 s1 q ∧
      CleanEnd ext sp s st1 s1 q (cleanTimeIndex ext sp s).1 (cleanTimeIndex ext sp s).2 := by
  by_cases hf : sp.frequency = []
  · rw [cleanTimeIndex_empty s hf]
    exact ⟨_, _, _, .refl _ _ _, .error _ _ rfl (by omega)⟩
  · rw [cleanTimeIndex_accepted s hf]
    exact cleanWith_end ext sp s

/-! ### C06, C07 -/

/-- C06. Whatever the outcome, there is a position where cleaning stopped: all cells it changed are
before it, and the date-times before it are strictly increasing in sheet order. -/
theorem C06_cleaned_index_increasing {ext : Ext} {sp : SParams} {s : Sheet} {hr hc : Int}
    (he : ExtValid ext) (hs : SheetValid s) (hf : sp.frequency.length = 1)
    (hi : NotImplicitString sp.missingValue) (hh : HeaderAt sp hr hc) :
    ∃ stop, sp.dataStarts ≤ stop ∧ stop ≤ max sp.dataStarts (lastPosition sp s + 1) ∧
      (∀ r c, (cleanTimeIndex ext sp s).2.cells r c ≠ s.cells r c →
        ∃ pos, sp.dataStarts ≤ pos ∧ pos < stop ∧ IsAt sp.alignment hr hc pos r c) ∧
      Increasing (indexTimes (cleanTimeIndex ext sp s).2 sp.alignment hr hc sp.dataStarts stop) := by
  rw [headerAt_iff] at hh
  rw [notImplicit_iff] at hi
  obtain ⟨st1, s1, q, hst, hend⟩ := cleanTimeIndex_end ext sp s
  refine ⟨q, hst.le, by have := hend.bound; rw [scanEnd_eq] at this; exact this, ?_, ?_⟩
  · intro r c hne
    rw [hend.cells] at hne
    rcases steps_frame hh hst r c with h | ⟨h, _⟩
    · exact absurd h hne
    · exact h
  · have := (steps_single he hs hf hi hh hst rfl rfl).1
    rwa [indexTimes_congr (s := (cleanTimeIndex ext sp s).2) (s' := s1)]
    intro p _ _; unfold timeCell; rw [hend.cells]

/-- The state of the sheet up to the detected end. -/
theorem clean_ok {ext : Ext} {sp : SParams} {s : Sheet} {hr hc e : Int}
    (he : ExtValid ext) (hs : SheetValid s)
    (hi : isImplicitStr sp.missingValue = false)
    (hh : timeHeaderCell sp.timeHeader = .ok (hr, hc))
    (h : (cleanTimeIndex ext sp s).1 = .ok e) :
    ∃ st1 s1 q, Steps ext sp .init s sp.dataStarts st1 s1 q ∧
      (cleanTimeIndex ext sp s).2.cells = s1.cells ∧
      sp.dataStarts ≤ e + sp.timeAlignment ∧
      (e + sp.timeAlignment < q ∨ (e + sp.timeAlignment = q ∧
        ∀ t, timeCell s1 sp.alignment hr hc q = .dt t → st1.last = some t ∧ hasEnd sp = false)) := by
  obtain ⟨st1, s1, q, hst, hend⟩ := cleanTimeIndex_end ext sp s
  have hval := steps_valid he hs hst (by simp [CState.init]) (by simp [CState.init, mfGet])
  rw [h] at hend
  refine ⟨st1, s1, q, hst, hend.cells, ?_⟩
  have hle := hst.le
  generalize hr1 : (Except.ok e : Except Err Int) = r1 at hend
  generalize (cleanTimeIndex ext sp s).2 = s2 at hend
  cases hend with
  | error => cases hr1
  | done hr' hc' hh' hq hq' =>
    have := estimateEnd_ok (by omega) hr1.symm
    exact ⟨this.2.2.1, .inl (by omega)⟩
  | stop hr' hc' hh' s' hs' hq hstop =>
    rw [hh] at hh'; injection hh' with hh'; injection hh' with e1 e2; subst e1; subst e2
    have := estimateEnd_ok hle hr1.symm
    refine ⟨this.2.2.1, ?_⟩
    by_cases hx : e + sp.timeAlignment < q
    · exact .inl hx
    · have hx' : e + sp.timeAlignment = q := by omega
      right
      refine ⟨hx', ?_⟩
      intro t ht1
      exact stop_dt hi hval.2.1 hh ht1 hstop

theorem hasEnd_iff (sp : SParams) : hasEnd sp = true ↔ ∃ e, sp.dataEnds = some e ∧ e ≠ 0 := by
  unfold hasEnd
  cases sp.dataEnds <;> simp

/-- C06. On success, the date-times up to the detected end are strictly increasing, except that the
last one may repeat the one before it when `data_ends` was not given. -/
theorem C06_increasing_up_to_end {ext : Ext} {sp : SParams} {s : Sheet} {hr hc e : Int}
    (he : ExtValid ext) (hs : SheetValid s) (hf : sp.frequency.length = 1)
    (hi : NotImplicitString sp.missingValue) (hh : HeaderAt sp hr hc)
    (h : (cleanTimeIndex ext sp s).1 = .ok e) :
    let ts := indexTimes (cleanTimeIndex ext sp s).2 sp.alignment hr hc sp.dataStarts
      (e + sp.timeAlignment)
    Increasing ts ∧
    (∀ t, timeCell (cleanTimeIndex ext sp s).2 sp.alignment hr hc (e + sp.timeAlignment) = .dt t →
      Increasing (ts ++ [t]) ∨ (sp.dataEnds.getD 0 = 0 ∧ ts.getLast? = some t)) := by
  rw [headerAt_iff] at hh
  rw [notImplicit_iff] at hi
  obtain ⟨st1, s1, q, hst, hcells, hge, hor⟩ := clean_ok he hs hi hh h
  have hinc := (steps_single he hs hf hi hh hst rfl rfl).1
  have hsame : ∀ hi, indexTimes (cleanTimeIndex ext sp s).2 sp.alignment hr hc sp.dataStarts hi =
      indexTimes s1 sp.alignment hr hc sp.dataStarts hi := by
    intro hi; apply indexTimes_congr; intro p _ _; unfold timeCell; rw [hcells]
  simp only
  rw [hsame]
  have hpre : ∀ a b, sp.dataStarts ≤ a → a ≤ b →
      Increasing (indexTimes s1 sp.alignment hr hc sp.dataStarts b) →
      Increasing (indexTimes s1 sp.alignment hr hc sp.dataStarts a) := by
    intro a b h1 h2 hb
    obtain ⟨n, rfl⟩ : ∃ n : Nat, b = a + n := ⟨(b - a).toNat, by omega⟩
    induction n with
    | zero => simpa using hb
    | succ n ih =>
      apply ih (by omega)
      have := indexTimes_snoc s1 sp.alignment hr hc (lo := sp.dataStarts) (hi := a + n) (by omega)
      rw [show a + ((n + 1 : Nat) : Int) = a + n + 1 by omega, this] at hb
      exact (List.pairwise_append.mp hb).1
  have htc : timeCell (cleanTimeIndex ext sp s).2 sp.alignment hr hc (e + sp.timeAlignment) =
      timeCell s1 sp.alignment hr hc (e + sp.timeAlignment) := by unfold timeCell; rw [hcells]
  rw [htc]
  refine ⟨hpre _ q hge (by omega) hinc, ?_⟩
  intro t ht
  rcases hor with hlt | ⟨heq, hdt⟩
  · left
    have := hpre (e + sp.timeAlignment + 1) q (by omega) (by omega) hinc
    rw [indexTimes_snoc _ _ _ _ hge, ht] at this
    exact this
  · right
    rw [heq] at ht
    obtain ⟨a, b⟩ := hdt t ht
    refine ⟨?_, ?_⟩
    · unfold hasEnd at b
      split at b
      · next hx => rw [hx]; simpa using b
      · next hx => rw [hx]; rfl
    · rw [heq, ← steps_last hh hst rfl, a]

/-- The exception is real: a repeated date ends the index and is counted in. -/
example : (cleanTimeIndex Sample.ext0 Sample.monthly (Sample.column [.str c!"fecha",
    Sample.day 2012 1 1, Sample.day 2012 2 1, Sample.day 2012 2 1])).1 = .ok 4 := by decide

/-- Hypotheses met by a sheet with a gap and a typo. -/
example : ExtValid Sample.ext0 ∧ HeaderAt Sample.monthly 1 1 ∧
    (cleanTimeIndex Sample.ext0 { Sample.monthly with missings := true } (Sample.column
      [.str c!"fecha", Sample.day 2012 1 1, Sample.day 2012 4 1, Sample.day 2011 3 1,
        Sample.day 2012 7 1])).1 = .error .timeValueGoingBackwards ∧
    (cleanTimeIndex Sample.ext0 { Sample.monthly with missings := true } (Sample.column
      [.str c!"fecha", Sample.day 2012 1 1, Sample.day 2012 4 1, Sample.day 2011 5 1,
        Sample.day 2012 7 1])).1 = .ok 5 := by
  refine ⟨?_, ?_, by decide, by decide⟩
  · intro s f t h; cases h
  · show coordOf c!"A1" = .ok (1, 1); decide

/-- C07. Without missings the date-times before the position where cleaning stopped (see C06) are one
period apart, each from the one before. -/
theorem C07_no_holes {ext : Ext} {sp : SParams} {s : Sheet} {hr hc : Int}
    (he : ExtValid ext) (hs : SheetValid s) (hf : sp.frequency.length = 1)
    (hi : NotImplicitString sp.missingValue) (hh : HeaderAt sp hr hc) (hm : sp.missings = false) :
    ∃ stop, sp.dataStarts ≤ stop ∧ stop ≤ max sp.dataStarts (lastPosition sp s + 1) ∧
      (∀ r c, (cleanTimeIndex ext sp s).2.cells r c ≠ s.cells r c →
        ∃ pos, sp.dataStarts ≤ pos ∧ pos < stop ∧ IsAt sp.alignment hr hc pos r c) ∧
      Consecutive sp.frequency
        (indexTimes (cleanTimeIndex ext sp s).2 sp.alignment hr hc sp.dataStarts stop) := by
  rw [headerAt_iff] at hh
  rw [notImplicit_iff] at hi
  obtain ⟨st1, s1, q, hst, hend⟩ := cleanTimeIndex_end ext sp s
  refine ⟨q, hst.le, by have := hend.bound; rw [scanEnd_eq] at this; exact this, ?_, ?_⟩
  · intro r c hne
    rw [hend.cells] at hne
    rcases steps_frame hh hst r c with h | ⟨h, _⟩
    · exact absurd h hne
    · exact h
  · have := (steps_single he hs hf hi hh hst rfl rfl).2 hm
    rwa [indexTimes_congr (s := (cleanTimeIndex ext sp s).2) (s' := s1)]
    intro p _ _; unfold timeCell; rw [hend.cells]

theorem consecutive_prefix {s : Sheet} {al : Align} {hr hc lo : Int} {f : Str} (a b : Int)
    (h1 : lo ≤ a) (h2 : a ≤ b) (hb : Consecutive f (indexTimes s al hr hc lo b)) :
    Consecutive f (indexTimes s al hr hc lo a) := by
  obtain ⟨n, rfl⟩ : ∃ n : Nat, b = a + n := ⟨(b - a).toNat, by omega⟩
  induction n with
  | zero => simpa using hb
  | succ n ih =>
    apply ih (by omega)
    have := indexTimes_snoc s al hr hc (lo := lo) (hi := a + n) (by omega)
    rw [show a + ((n + 1 : Nat) : Int) = a + n + 1 by omega, this] at hb
    split at hb
    · exact (Consecutive.snoc_inv hb).1
    · simpa using hb

/-- C07. On success without missings, the date-times up to the detected end are one period apart,
each from the one before (a last one that repeats the one before it, see C06, excepted). -/
theorem C07_no_holes_up_to_end {ext : Ext} {sp : SParams} {s : Sheet} {hr hc e : Int}
    (he : ExtValid ext) (hs : SheetValid s) (hf : sp.frequency.length = 1)
    (hi : NotImplicitString sp.missingValue) (hh : HeaderAt sp hr hc) (hm : sp.missings = false)
    (h : (cleanTimeIndex ext sp s).1 = .ok e) :
    let ts := indexTimes (cleanTimeIndex ext sp s).2 sp.alignment hr hc sp.dataStarts
      (e + sp.timeAlignment)
    Consecutive sp.frequency ts ∧
    (∀ t, timeCell (cleanTimeIndex ext sp s).2 sp.alignment hr hc (e + sp.timeAlignment) = .dt t →
      Consecutive sp.frequency (ts ++ [t]) ∨ (sp.dataEnds.getD 0 = 0 ∧ ts.getLast? = some t)) := by
  have h6 := C06_increasing_up_to_end he hs hf hi hh h
  rw [headerAt_iff] at hh
  rw [notImplicit_iff] at hi
  obtain ⟨st1, s1, q, hst, hcells, hge, hor⟩ := clean_ok he hs hi hh h
  have hcons := (steps_single he hs hf hi hh hst rfl rfl).2 hm
  have hsame : ∀ hi, indexTimes (cleanTimeIndex ext sp s).2 sp.alignment hr hc sp.dataStarts hi =
      indexTimes s1 sp.alignment hr hc sp.dataStarts hi := by
    intro hi; apply indexTimes_congr; intro p _ _; unfold timeCell; rw [hcells]
  simp only at h6 ⊢
  rw [hsame] at h6 ⊢
  have htc : timeCell (cleanTimeIndex ext sp s).2 sp.alignment hr hc (e + sp.timeAlignment) =
      timeCell s1 sp.alignment hr hc (e + sp.timeAlignment) := by unfold timeCell; rw [hcells]
  rw [htc] at h6 ⊢
  refine ⟨consecutive_prefix _ q hge (by omega) hcons, ?_⟩
  intro t ht
  rcases hor with hlt | ⟨heq, hdt⟩
  · left
    have := consecutive_prefix (e + sp.timeAlignment + 1) q (by omega) (by omega) hcons
    rw [indexTimes_snoc _ _ _ _ hge, ht] at this
    exact this
  · rcases h6.2 t ht with h7 | h7
    · exfalso
      rw [heq] at ht h7
      have hl := steps_last hh hst rfl
      rw [(hdt t ht).1] at hl
      have hmem := List.mem_of_getLast? hl.symm
      exact Time.lt_irrefl t ((List.pairwise_append.mp h7).2.2 t hmem t (by simp))
    · exact .inr h7

example : (cleanTimeIndex Sample.ext0 Sample.monthly (Sample.column [.str c!"fecha",
      Sample.day 2012 1 1, Sample.day 2012 2 1, Sample.day 2012 5 1, Sample.day 2012 4 1])).1
        = .ok 5 ∧
    indexTimes (cleanTimeIndex Sample.ext0 Sample.monthly (Sample.column [.str c!"fecha",
      Sample.day 2012 1 1, Sample.day 2012 2 1, Sample.day 2012 5 1, Sample.day 2012 4 1])).2
      .vertical 1 1 2 6 = [⟨2012, 1, 1, 0⟩, ⟨2012, 2, 1, 0⟩, ⟨2012, 3, 1, 0⟩, ⟨2012, 4, 1, 0⟩] := by
  decide

/-! ### C11, C12 -/

/-- C11. Whatever the outcome, cleaning changes only cells of the column (row) of the first time
header between `data_starts` and the last position scanned. -/
theorem C11_only_time_column_touched {ext : Ext} {sp : SParams} {s : Sheet} (r c : Int)
    (hne : (cleanTimeIndex ext sp s).2.cells r c ≠ s.cells r c) :
    ∃ hr hc pos, HeaderAt sp hr hc ∧ sp.dataStarts ≤ pos ∧ pos ≤ lastPosition sp s ∧
      IsAt sp.alignment hr hc pos r c := by
  obtain ⟨st1, s1, q, hst, hend⟩ := cleanTimeIndex_end ext sp s
  rw [hend.cells] at hne
  have hb := hend.bound
  rw [scanEnd_eq] at hb
  cases hst with
  | refl => exact absurd rfl hne
  | @tail st1 s1 q1 st2 s2 h hs =>
    obtain ⟨hr, hc, _, _, _, hh, _⟩ := cleanStep_next hs
    rcases steps_frame hh (.tail h hs) r c with h' | ⟨⟨pos, a, b, d⟩, _⟩
    · exact absurd h' hne
    · exact ⟨hr, hc, pos, headerAt_iff.mpr hh, a, by omega, d⟩

/-- C11. In particular nothing above `data_starts` changes in a vertical series. -/
theorem C11_nothing_above_start {ext : Ext} {sp : SParams} {s : Sheet} {r c : Int}
    (hal : sp.alignment = .vertical) (hr : r < sp.dataStarts) :
    (cleanTimeIndex ext sp s).2.cells r c = s.cells r c := by
  by_cases h : (cleanTimeIndex ext sp s).2.cells r c = s.cells r c
  · exact h
  · obtain ⟨hr', hc, pos, _, h1, _, h2⟩ := C11_only_time_column_touched r c h
    exfalso
    unfold IsAt rowOf at h2
    rw [if_pos hal] at h2
    omega

example : (cleanTimeIndex Sample.ext0 Sample.monthly (Sample.column [.str c!"fecha",
      Sample.day 2012 1 1, Sample.day 2012 2 1, Sample.day 2012 5 1])).2.cells 4 1 ≠
    (Sample.column [.str c!"fecha",
      Sample.day 2012 1 1, Sample.day 2012 2 1, Sample.day 2012 5 1]).cells 4 1 := by decide

/-- C12. Every cell that cleaning changes ends up holding a real date-time, or nothing; the latter
only where the value read in the original sheet has a day or month out of range. -/
theorem C12_writes_dates_or_blanks {ext : Ext} {sp : SParams} {s : Sheet} (he : ExtValid ext)
    (hs : SheetValid s) (r c : Int)
    (hne : (cleanTimeIndex ext sp s).2.cells r c ≠ s.cells r c) :
    (∃ t, (cleanTimeIndex ext sp s).2.cells r c = .dt t ∧ ValidTime t) ∨
    ((cleanTimeIndex ext sp s).2.cells r c = .none ∧
      ∃ pos v parser last next e, (getTimeValue ext sp pos s).1 = .ok v ∧
        parseWith ext parser sp.frequency v last next = .error e ∧
        (e = .dayOutOfRange ∨ e = .monthOutOfRange)) := by
  obtain ⟨st1, s1, q, hst, hend⟩ := cleanTimeIndex_end ext sp s
  rw [hend.cells] at hne ⊢
  have hval := steps_valid he hs hst (by simp [CState.init]) (by simp [CState.init, mfGet])
  have hst' := hst
  cases hst with
  | refl => exact absurd rfl hne
  | @tail st1 s1 q1 st2 s2 h hs =>
    obtain ⟨hr, hc, _, _, _, hh, _⟩ := cleanStep_next hs
    rcases steps_frame hh hst' r c with h' | ⟨_, h' | ⟨t, h'⟩⟩
    · exact absurd h' hne
    · right
      obtain ⟨pos, curr, last, next, pr, e, _, _, a, b, d⟩ := steps_blanked hst' r c hne h'
      exact ⟨h', pos, curr, pr, last, next, e, a, b, d⟩
    · exact .inl ⟨t, h', hval.1 _ _ _ h'⟩

/-- A month number above 12 is blanked. -/
example : (cleanTimeIndex Sample.ext0 { Sample.monthly with timeComposed := true }
      (Sample.column [.str c!"fecha", .str c!"2012,1", .str c!"2012,2", .str c!"2012,13",
        .str c!"2012,3"])).1 = .ok 5 ∧
    (cleanTimeIndex Sample.ext0 { Sample.monthly with timeComposed := true }
      (Sample.column [.str c!"fecha", .str c!"2012,1", .str c!"2012,2", .str c!"2012,13",
        .str c!"2012,3"])).2.cells 4 1 = .none := by decide

/-! ### C13, C14 -/

/-- C13. For a vertical series, the detected end is after `data_starts`; shifted by the time
alignment it is the row of the last date-time at or above the row where scanning stopped, or
`data_starts` if there is none. Nothing from the stopping row on was changed. -/
theorem C13_end_is_last_time {ext : Ext} {sp : SParams} {s : Sheet} {hr hc e : Int}
    (hh : HeaderAt sp hr hc) (h : (cleanTimeIndex ext sp s).1 = .ok e) :
    ∃ stop, sp.dataStarts ≤ stop ∧ stop ≤ lastPosition sp s ∧ sp.dataStarts < e ∧
      sp.dataStarts ≤ e + sp.timeAlignment ∧ e + sp.timeAlignment ≤ stop ∧
      (∀ r c, (∃ pos, stop < pos ∧ IsAt sp.alignment hr hc pos r c) →
        (cleanTimeIndex ext sp s).2.cells r c = s.cells r c) ∧
      (∀ x, e + sp.timeAlignment < x → x ≤ stop →
        ∀ t, timeCell (cleanTimeIndex ext sp s).2 sp.alignment hr hc x ≠ .dt t) ∧
      ((∃ t, timeCell (cleanTimeIndex ext sp s).2 sp.alignment hr hc (e + sp.timeAlignment) = .dt t)
        ∨ e + sp.timeAlignment = sp.dataStarts) := by
  rw [headerAt_iff] at hh
  obtain ⟨st1, s1, q, hst, hend⟩ := cleanTimeIndex_end ext sp s
  have hcells := hend.cells
  have frame : ∀ r c, (∃ pos, q ≤ pos ∧ IsAt sp.alignment hr hc pos r c) →
      (cleanTimeIndex ext sp s).2.cells r c = s.cells r c := by
    rintro r c ⟨pos, h1, h2⟩
    rw [hcells]
    rcases steps_frame hh hst r c with h' | ⟨⟨pos', a, b, d⟩, _⟩
    · exact h'
    · have := isAt_inj h2 d; omega
  rw [h] at hend
  have hle := hst.le
  generalize hr1 : (Except.ok e : Except Err Int) = r1 at hend
  generalize hs2 : (cleanTimeIndex ext sp s).2 = s2 at hend frame ⊢
  cases hend with
  | error => cases hr1
  | done hr' hc' hh' hq hq' =>
    rw [hh] at hh'; injection hh' with hh'; injection hh' with e1 e2; subst e1; subst e2
    rw [scanEnd_eq] at hq
    obtain ⟨a1, a2, a3, a4, a5, a6⟩ := estimateEnd_ok (by omega) hr1.symm
    exact ⟨q - 1, by omega, by omega, a1, a3, a4,
      fun r c ⟨pos, h1, h2⟩ => frame r c ⟨pos, by omega, h2⟩, a5, a6⟩
  | stop hr' hc' hh' s' hs' hq hstop =>
    rw [hh] at hh'; injection hh' with hh'; injection hh' with e1 e2; subst e1; subst e2
    rw [scanEnd_eq] at hq
    obtain ⟨a1, a2, a3, a4, a5, a6⟩ := estimateEnd_ok (by omega) hr1.symm
    exact ⟨q, by omega, by omega, a1, a3, a4,
      fun r c ⟨pos, h1, h2⟩ => frame r c ⟨pos, by omega, h2⟩, a5, a6⟩

example : HeaderAt Sample.monthly 1 1 ∧ (cleanTimeIndex Sample.ext0 Sample.monthly
    (Sample.column [.str c!"fecha", Sample.day 2012 1 1, Sample.day 2012 2 1, .none,
      .str c!"Fuente: X"])).1 = .ok 3 := ⟨by show coordOf c!"A1" = _; decide, by decide⟩

/-- The state right after a clean run of dates. -/
theorem run_state {ext : Ext} {sp : SParams} {hr hc : Int}
    (h : TimeColumn sp hr hc) {s : Sheet} (hsv : SheetValid s) {b : Int} (hb : sp.dataStarts ≤ b)
    (hcells : ∀ p, sp.dataStarts ≤ p → p < b → ∃ t, timeCell s sp.alignment hr hc p = .dt t)
    (hcons : Consecutive sp.frequency (indexTimes s sp.alignment hr hc sp.dataStarts b)) :
    ∃ st s1, Steps ext sp .init s sp.dataStarts st s1 b ∧ s1.cells = s.cells := by
  obtain ⟨st, s1, hst, hcell, _⟩ := steps_run (ext := ext) h hsv (b - sp.dataStarts).toNat
    (q := b) (by omega) (fun p a c => .inl (hcells p a c)) hcons
    (fun p a c => ⟨p, Int.le_refl _, by omega, hcells p a (by omega)⟩)
  exact ⟨st, s1, hst, hcell⟩

/-- C14 (violation). Take any run of consecutive dates ended by a blank, in a continuous series
without blank rows. If it is vertical the end is detected; if it is horizontal, cleaning always
raises `TypeError`. -/
theorem C14_horizontal_end_violated {ext : Ext} {sp : SParams} {hr hc : Int}
    (h : TimeColumn sp hr hc) {s : Sheet} (hsv : SheetValid s) {b : Int}
    (hb : sp.dataStarts + 1 < b) (hend : b ≤ lastPosition sp s)
    (hcells : ∀ p, sp.dataStarts ≤ p → p < b → ∃ t, timeCell s sp.alignment hr hc p = .dt t)
    (hcons : Consecutive sp.frequency (indexTimes s sp.alignment hr hc sp.dataStarts b))
    (hblank : BlankCell (timeCell s sp.alignment hr hc b))
    (hcont : sp.continuity = true) (hbr : sp.blankRows = false) (hta : sp.timeAlignment = 0) :
    (sp.alignment = .vertical → (cleanTimeIndex ext sp s).1 = .ok (b - 1)) ∧
    (sp.alignment = .horizontal → (cleanTimeIndex ext sp s).1 = .error .typeError) := by
  obtain ⟨st, s1, hst, hcell⟩ := run_state (ext := ext) h hsv (by omega) hcells hcons
  have htc : ∀ s2 : Sheet, s2.cells = s1.cells → ∀ p, timeCell s2 sp.alignment hr hc p =
      timeCell s sp.alignment hr hc p := by
    intro s2 h2 p; unfold timeCell; rw [h2, hcell]
  obtain ⟨s0, hs0, hstep⟩ := cleanStep_blank (ext := ext) h (by omega : sp.dataStarts ≤ b) st s1
    (by rw [htc s1 rfl]; exact hblank)
  rw [if_neg (by rw [hcont, hbr]; simp)] at hstep
  rw [cleanTimeIndex_stop h hst hend hstep]
  have hnd : ∀ t, timeCell s0 sp.alignment hr hc b ≠ .dt t := by
    intro t ht
    rw [htc s0 hs0] at ht
    rw [ht] at hblank
    exact hblank
  constructor
  · intro hal
    obtain ⟨t, ht⟩ := hcells (b - 1) (by omega) (by omega)
    have := estimateEnd_eq (sp := sp) (s := s0) (hr := hr) (hc := hc) (pos := b) (r0 := b - 1) (t := t)
      hal (by omega) (by omega) (by rw [htc s0 hs0]; exact ht)
      (fun x h1 h2 => by rw [show x = b by omega]; exact hnd) (by omega)
      (by have := h.starts; omega)
    simp only [this, hta]
    simp
  · intro hal
    exact estimateEnd_horizontal_typeError hal hnd

/-- The same table in both directions. -/
example :
    let s := Sample.column [.str c!"fecha", Sample.day 2012 1 1, Sample.day 2012 2 1,
      Sample.day 2012 3 1, .none, .str c!"total"]
    (cleanTimeIndex Sample.ext0 Sample.monthly s).1 = .ok 4 ∧
    (cleanTimeIndex Sample.ext0 { Sample.monthly with alignment := .horizontal }
      (Sample.transpose s)).1 = .error .typeError := by decide

/-! ### C15, C16 -/

/-- C15. Cleaning an index that already holds a complete run of dates one period apart, ended by a
blank or by the end of the scanned rows, changes no cell and reports the row of the last date
(shifted by the time alignment). -/
theorem C15_clean_index_unchanged {ext : Ext} {sp : SParams} {hr hc : Int}
    (h : TimeColumn sp hr hc) {s : Sheet} (hsv : SheetValid s) {b : Int}
    (hal : sp.alignment = .vertical)
    (hb : sp.dataStarts < b - sp.timeAlignment) (hb' : sp.dataStarts ≤ b)
    (hcells : ∀ p, sp.dataStarts ≤ p → p ≤ b → ∃ t, timeCell s sp.alignment hr hc p = .dt t)
    (hcons : Consecutive sp.frequency (indexTimes s sp.alignment hr hc sp.dataStarts (b + 1)))
    (hend : b = lastPosition sp s ∨ (b < lastPosition sp s ∧ sp.continuity = true ∧
      sp.blankRows = false ∧ BlankCell (timeCell s sp.alignment hr hc (b + 1)))) :
    (cleanTimeIndex ext sp s).1 = .ok (b - sp.timeAlignment) ∧
    (cleanTimeIndex ext sp s).2.cells = s.cells := by
  obtain ⟨st, s1, hst, hcell⟩ := run_state (ext := ext) h hsv (by omega)
    (fun p a c => hcells p a (by omega)) hcons
  have htc : ∀ s2 : Sheet, s2.cells = s1.cells → ∀ p, timeCell s2 sp.alignment hr hc p =
      timeCell s sp.alignment hr hc p := by
    intro s2 h2 p; unfold timeCell; rw [h2, hcell]
  obtain ⟨t, ht⟩ := hcells b hb' (by omega)
  have hpos := h.starts
  rcases hend with hend | ⟨hend, hcont, hbr, hblank⟩
  · rw [cleanTimeIndex_done h hst (by omega) (by omega)]
    refine ⟨?_, hcell⟩
    rw [show b + 1 - 1 = b by omega]
    exact estimateEnd_eq hal hb' (Int.le_refl _) (by rw [htc s1 rfl]; exact ht)
      (fun x h1 h2 => by omega) hb (by omega)
  · obtain ⟨s0, hs0, hstep⟩ := cleanStep_blank (ext := ext) h (by omega : sp.dataStarts ≤ b + 1) st s1
      (by rw [htc s1 rfl]; exact hblank)
    rw [if_neg (by rw [hcont, hbr]; simp)] at hstep
    rw [cleanTimeIndex_stop h hst (by omega) hstep]
    refine ⟨?_, hs0.trans hcell⟩
    refine estimateEnd_eq hal hb' (by omega) (by rw [htc s0 hs0]; exact ht) ?_ hb (by omega)
    intro x h1 h2 t' ht'
    rw [show x = b + 1 by omega, htc s0 hs0] at ht'
    rw [ht'] at hblank
    exact hblank

example : TimeColumn Sample.monthly 1 1 :=
  ⟨rfl, ⟨c!"A1", rfl, by decide⟩, by decide, .inl rfl, rfl, rfl⟩

example :
    let s := Sample.column [.str c!"fecha", Sample.day 2012 1 1, Sample.day 2012 2 1,
      Sample.day 2012 3 1, .none, .str c!"total"]
    indexTimes s .vertical 1 1 2 5 = [⟨2012, 1, 1, 0⟩, ⟨2012, 2, 1, 0⟩, ⟨2012, 3, 1, 0⟩] ∧
    (cleanTimeIndex Sample.ext0 Sample.monthly s).1 = .ok 4 := by decide

/-- C15. Cleaning twice is cleaning once: if a continuous vertical series without blank rows and
without missings was cleaned up to the detected end, with a date in every row up to it, no repeated
date, and a blank or the last scanned row after it, then a second cleaning of the resulting sheet
changes nothing and reports the same end. -/
theorem C15_cleaning_twice {ext : Ext} {sp : SParams} {hr hc e : Int}
    (h : TimeColumn sp hr hc) (he : ExtValid ext) {s : Sheet} (hsv : SheetValid s)
    (hi : NotImplicitString sp.missingValue)
    (hal : sp.alignment = .vertical) (hm : sp.missings = false)
    (hcont : sp.continuity = true) (hbr : sp.blankRows = false)
    (h1 : (cleanTimeIndex ext sp s).1 = .ok e)
    (hfull : ∀ p, sp.dataStarts ≤ p → p ≤ e + sp.timeAlignment →
      ∃ t, timeCell (cleanTimeIndex ext sp s).2 sp.alignment hr hc p = .dt t)
    (hnodup : (indexTimes (cleanTimeIndex ext sp s).2 sp.alignment hr hc sp.dataStarts
      (e + sp.timeAlignment + 1)).Nodup)
    (hnext : e + sp.timeAlignment = lastPosition sp (cleanTimeIndex ext sp s).2 ∨
      (e + sp.timeAlignment < lastPosition sp (cleanTimeIndex ext sp s).2 ∧
        BlankCell (timeCell (cleanTimeIndex ext sp s).2 sp.alignment hr hc
          (e + sp.timeAlignment + 1)))) :
    (cleanTimeIndex ext sp (cleanTimeIndex ext sp s).2).1 = .ok e ∧
    (cleanTimeIndex ext sp (cleanTimeIndex ext sp s).2).2.cells =
      (cleanTimeIndex ext sp s).2.cells := by
  have hh : HeaderAt sp hr hc := headerAt_iff.mpr h.headerCell
  have h7 := C07_no_holes_up_to_end he hsv h.oneLetter hi hh hm h1
  obtain ⟨stop, _, _, hgt, hge, _⟩ := C13_end_is_last_time hh h1
  have hsv' : SheetValid (cleanTimeIndex ext sp s).2 := by
    obtain ⟨st1, s1, q, hst, hend⟩ := cleanTimeIndex_end ext sp s
    have hval := steps_valid he hsv hst (by simp [CState.init]) (by simp [CState.init, mfGet])
    intro r c t ht
    rw [hend.cells] at ht
    exact hval.1 r c t ht
  generalize hs2 : (cleanTimeIndex ext sp s).2 = s2 at *
  have hcons : Consecutive sp.frequency
      (indexTimes s2 sp.alignment hr hc sp.dataStarts (e + sp.timeAlignment + 1)) := by
    obtain ⟨t, ht⟩ := hfull (e + sp.timeAlignment) hge (Int.le_refl _)
    rw [indexTimes_snoc _ _ _ _ hge, ht] at hnodup ⊢
    rcases h7.2 t ht with h8 | ⟨_, h8⟩
    · exact h8
    · exfalso
      have hmem := List.mem_of_getLast? h8
      exact (List.nodup_append.mp hnodup).2.2 t hmem t (by simp) rfl
  have := C15_clean_index_unchanged (ext := ext) h hsv' (b := e + sp.timeAlignment) hal
    (by omega) hge hfull hcons (by
      rcases hnext with h' | h'
      · exact .inl h'
      · exact .inr ⟨h'.1, hcont, hbr, h'.2⟩)
  rw [show e + sp.timeAlignment - sp.timeAlignment = e by omega] at this
  exact this

set_option maxRecDepth 4000 in
example :
    let s := Sample.column [.str c!"fecha", Sample.day 2012 1 1, Sample.day 2012 2 1,
      Sample.day 2012 12 1, .none, .str c!"total"]
    let s' := (cleanTimeIndex Sample.ext0 Sample.monthly s).2
    (cleanTimeIndex Sample.ext0 Sample.monthly s).1 = .ok 4 ∧
    indexTimes s' .vertical 1 1 2 5 = [⟨2012, 1, 1, 0⟩, ⟨2012, 2, 1, 0⟩, ⟨2012, 3, 1, 0⟩] ∧
    timeCell s' .vertical 1 1 5 = .none ∧
    (cleanTimeIndex Sample.ext0 Sample.monthly s').1 = .ok 4 := by decide

/-- C15. With composed times the second run fails: an index whose first cell already is a date-time
is refused, and nothing is changed. -/
theorem C15_composed_second_run_fails {ext : Ext} {sp : SParams} {hr hc : Int} {s : Sheet}
    {t : Time} (hsing : sp.timeMulticolumn = false) (hf : sp.frequency ≠ [])
    (hal : sp.alignment ≠ .other)
    (hhead : ∃ coord, sp.timeHeader = .single coord ∧ coordOf coord = .ok (hr, hc))
    (hstart : 1 ≤ sp.dataStarts) (hend : sp.dataStarts ≤ lastPosition sp s)
    (hcomp : sp.timeComposed = true)
    (ht : timeCell s sp.alignment hr hc sp.dataStarts = .dt t) :
    (cleanTimeIndex ext sp s).1 = .error .timeIsNotComposed ∧
    (cleanTimeIndex ext sp s).2.cells = s.cells := by
  obtain ⟨coord, hc1, hc2⟩ := hhead
  have hpos : ∀ p, sp.dataStarts ≤ p → 1 ≤ rowOf sp.alignment hr p ∧ 1 ≤ colOf sp.alignment hc p := by
    intro p hp
    have := coordOf_pos hc2
    unfold rowOf colOf; split <;> omega
  have hget : ∀ (p : Int) (x : Sheet), sp.dataStarts ≤ p →
      ∃ x', getTimeValue ext sp p x = (.ok (timeCell x sp.alignment hr hc p), x') ∧
        x'.cells = x.cells := by
    intro p x hp
    refine ⟨(getTimeValue ext sp p x).2, ?_, getTimeValue_cells ext sp p x⟩
    unfold getTimeValue
    rw [hsing, hc1]
    simp only [hc2, axisCell_eq]
    rw [if_pos (hpos p hp)]
    rfl
  obtain ⟨s1, hg1, hcl1⟩ := hget sp.dataStarts s (Int.le_refl _)
  obtain ⟨s2, hg2, hcl2⟩ := hget (sp.dataStarts + 1) s1 (by omega)
  have hh : timeHeaderCell sp.timeHeader = .ok (hr, hc) := by rw [hc1]; exact hc2
  have hstep : ∃ s0, s0.cells = s.cells ∧ cleanStep ext sp .init s sp.dataStarts =
      (.raise .timeIsNotComposed, s0) := by
    refine ⟨s2.touch (rowOf sp.alignment hr sp.dataStarts) (colOf sp.alignment hc sp.dataStarts),
      by rw [touch_cells, hcl2, hcl1], ?_⟩
    unfold cleanStep
    rw [hg1]
    simp only
    rw [hg2]
    simp only [hh, axisCell_eq]
    unfold cleanValue
    rw [ht, mustBe_dt, if_pos rfl]
    simp [CState.init, parseTimeValue, parsers, searchParser, accepts, hcomp, handleError, endsIndex]
  obtain ⟨s0, hs0, hstep⟩ := hstep
  rw [cleanTimeIndex_accepted s hf]
  unfold cleanWith
  rw [if_neg hal, intRange_cons (by rw [scanEnd_eq]; omega)]
  simp [cleanLoop, hstep, hs0]

example :
    let sp := { Sample.monthly with timeComposed := true }
    let s := Sample.column [.str c!"fecha", .str c!"2012,1", .str c!"2012,2", .str c!"2012,3"]
    (cleanTimeIndex Sample.ext0 sp s).1 = .ok 4 ∧
    (cleanTimeIndex Sample.ext0 sp (cleanTimeIndex Sample.ext0 sp s).2).1 =
      .error .timeIsNotComposed := by decide

/-- A date library for the next witness: it knows March and one numeric date. -/
def Sample.ext1 : Ext :=
  { Sample.ext0 with
    monthNumber := fun s => if s = c!"Mar" then some 3 else none
    arrowParse := fun s f => if s = c!"01-01-2012" ∧ f = c!"DD-MM-YYYY" then some ⟨2012, 1, 1, 0⟩
      else none }

/-- C15 (violation). Without the hypotheses of `C15_cleaning_twice` a second run can go further than
the first one: once the first cell is a date-time, a composed month text at the end of the index is
read as a date although the times are declared as not composed. -/
theorem C15_cleaning_twice_violated :
    let s := Sample.column [.str c!"fecha", .str c!"01-01-2012", Sample.day 2012 2 1,
      .str c!"mar 2012"]
    let s' := (cleanTimeIndex Sample.ext1 Sample.monthly s).2
    (cleanTimeIndex Sample.ext1 Sample.monthly s).1 = .ok 3 ∧
    (cleanTimeIndex Sample.ext1 Sample.monthly s').1 = .ok 4 ∧
    s'.cells 4 1 = .str c!"mar 2012" ∧
    (cleanTimeIndex Sample.ext1 Sample.monthly s').2.cells 4 1 = Sample.day 2012 3 1 := by decide

/-- C16. In a continuous series without blank rows, nothing at or after the first blank time cell is
changed. -/
theorem C16_blank_ends_index {ext : Ext} {sp : SParams} {hr hc b : Int} {s : Sheet}
    (hsing : sp.timeMulticolumn = false) (hh : HeaderAt sp hr hc)
    (hcont : sp.continuity = true) (hbr : sp.blankRows = false) (hb : sp.dataStarts ≤ b)
    (hblank : BlankCell (timeCell s sp.alignment hr hc b)) (r c : Int)
    (hne : (cleanTimeIndex ext sp s).2.cells r c ≠ s.cells r c) :
    ∃ pos, sp.dataStarts ≤ pos ∧ pos < b ∧ IsAt sp.alignment hr hc pos r c := by
  rw [headerAt_iff] at hh
  obtain ⟨st1, s1, q, hst, hend⟩ := cleanTimeIndex_end ext sp s
  rw [hend.cells] at hne
  rcases steps_frame hh hst r c with h' | ⟨⟨pos, a, d, f⟩, _⟩
  · exact absurd h' hne
  · refine ⟨pos, a, ?_, f⟩
    by_cases hx : pos < b
    · exact hx
    · exfalso
      obtain ⟨st2, s2, st3, s3, g1, g2, g3⟩ := steps_at hst hb (by omega)
      obtain ⟨hr', hc', curr, next, s0, hh', hcell, hcur, hnext, hn⟩ := cleanStep_next g2
      have hcv := getTimeValue_single hsing hh hcur
      have : timeCell s2 sp.alignment hr hc b = timeCell s sp.alignment hr hc b :=
        steps_frame_pos g1 (Int.le_refl _) hr hc
      rw [this] at hcv
      have hmust := mustBe_blank sp hblank
      rw [← hcv] at hmust
      cases hn with
      | write _ _ _ _ must => rw [hmust] at must; cases must
      | blanked _ _ must => rw [hmust] at must; cases must
      | skipped _ _ may => rw [hcont, hbr] at may; simp at may

/-- C16. Nor is anything after that blank cell read: two sheets that agree up to it give the same
outcome. -/
theorem C16_nothing_read_after_blank {ext : Ext} {sp : SParams} {hr hc b : Int} {s s2 : Sheet}
    (hsing : sp.timeMulticolumn = false) (hh : HeaderAt sp hr hc) (hal : sp.alignment ≠ .other)
    (hcont : sp.continuity = true) (hbr : sp.blankRows = false) (hb : sp.dataStarts ≤ b)
    (hblank : BlankCell (timeCell s sp.alignment hr hc b))
    (hend1 : b ≤ lastPosition sp s) (hend2 : b ≤ lastPosition sp s2)
    (hagree : ∀ pos, pos ≤ b → ∀ hr hc,
      timeCell s sp.alignment hr hc pos = timeCell s2 sp.alignment hr hc pos) :
    (cleanTimeIndex ext sp s).1 = (cleanTimeIndex ext sp s2).1 := by
  rw [headerAt_iff] at hh
  by_cases hf : sp.frequency = []
  · rw [cleanTimeIndex_empty s hf, cleanTimeIndex_empty s2 hf]
  rw [cleanTimeIndex_accepted s hf, cleanTimeIndex_accepted s2 hf]
  unfold cleanWith
  rw [if_neg hal, if_neg hal]
  obtain ⟨st1, s1, q, hst, hend⟩ := cleanLoop_end (ext := ext) (sp := sp) _ (st := .init) (s := s)
    (reached := none) (p := sp.dataStarts) (e := scanEnd sp s + 1) rfl
  have hqb : q ≤ b := by
    by_cases hx : q ≤ b
    · exact hx
    · exfalso
      obtain ⟨st2, s2, st3, s3, g1, g2, g3⟩ := steps_at hst hb (by omega)
      obtain ⟨hr', hc', curr, next, s0, hh', hcell, hcur, hnext, hn⟩ := cleanStep_next g2
      have hcv := getTimeValue_single hsing hh hcur
      have : timeCell s2 sp.alignment hr hc b = timeCell s sp.alignment hr hc b :=
        steps_frame_pos g1 (Int.le_refl _) hr hc
      rw [this] at hcv
      have hmust := mustBe_blank sp hblank
      rw [← hcv] at hmust
      cases hn with
      | write _ _ _ _ must => rw [hmust] at must; cases must
      | blanked _ _ must => rw [hmust] at must; cases must
      | skipped _ _ may => rw [hcont, hbr] at may; simp at may
  obtain ⟨u, hu, hag⟩ := steps_sim (s2 := s2) (b := b) hagree hst hqb
  rw [scanEnd_eq sp s] at hend ⊢
  rw [scanEnd_eq sp s2]
  rw [cleanLoop_steps hst (by omega), cleanLoop_steps hu (by omega)]
  rw [intRange_cons (a := q) (b := lastPosition sp s + 1) (by omega),
    intRange_cons (a := q) (b := lastPosition sp s2 + 1) (by omega)]
  simp only [cleanLoop]
  -- the step at `q` does not go on past `b`, and reads only what agrees
  have hstep : ∃ x v w, (∀ st', x ≠ .next st') ∧ cleanStep ext sp st1 s1 q = (x, v) ∧
      cleanStep ext sp st1 u q = (x, w) ∧ ∀ pos, pos ≤ b → AgreeAt sp.alignment v w pos := by
    have hnext : ∀ x v, cleanStep ext sp st1 s1 q = (x, v) → ∀ st', x ≠ .next st' := by
      intro x v hx st' hxn
      subst hxn
      generalize (cleanLoop ext sp CState.init s none
        (intRange sp.dataStarts (lastPosition sp s + 1))) = res at hend
      obtain ⟨r1, r2⟩ := res
      simp only at hend
      cases hend with
      | done hq => have := hst.le; omega
      | stop s' hq h => rw [hx] at h; cases h
      | raise er s' hq h => rw [hx] at h; cases h
    by_cases hqb' : q = b
    · subst hqb'
      -- at the blank cell the next value is read but not used
      have hval : ∀ w : Sheet, timeCell w sp.alignment hr hc q = timeCell s sp.alignment hr hc q →
          cleanStep ext sp st1 w q =
            ((match (getTimeValue ext sp q w).1 with
              | .error e => .raise e
              | .ok _ => match (getTimeValue ext sp (q + 1) w).1 with
                | .error e => .raise e
                | .ok _ => .stop), (cleanStep ext sp st1 w q).2) := by
        intro w hw
        have h1 := getTimeValue_cells ext sp q w
        unfold cleanStep
        generalize hg : getTimeValue ext sp q w = x1 at *
        obtain ⟨v1, t1⟩ := x1
        cases v1 with
        | error e => rfl
        | ok curr =>
          simp only at h1 ⊢
          have h2 := getTimeValue_congr ext sp (q + 1) (s := t1) (s' := w) h1
          generalize getTimeValue ext sp (q + 1) w = x2 at *
          generalize getTimeValue ext sp (q + 1) t1 = x3 at *
          obtain ⟨v2, t2⟩ := x2
          obtain ⟨v3, t3⟩ := x3
          simp only at h2
          subst h2
          cases v3 with
          | error e => rfl
          | ok next =>
            simp only [hh]
            have hcv := getTimeValue_single hsing hh (by rw [hg])
            rw [hw] at hcv
            unfold cleanValue
            rw [hcv, mustBe_blank sp hblank]
            simp [hcont, hbr]
      have ge : ∀ w : Sheet, ∃ x, (∀ st', x ≠ StepEnd.next st') ∧
          (match (getTimeValue ext sp q w).1 with
              | .error e => StepEnd.raise e
              | .ok _ => match (getTimeValue ext sp (q + 1) w).1 with
                | .error e => .raise e
                | .ok _ => .stop) = x := by
        intro w
        refine ⟨_, ?_, rfl⟩
        intro st'
        split
        · simp
        · split <;> simp
      -- whether a read fails depends only on the position
      have hsucc : ∀ (p : Int) (w w' : Sheet), (∃ e, (getTimeValue ext sp p w).1 = .error e) ∧
          (getTimeValue ext sp p w).1 = (getTimeValue ext sp p w').1 ∨
          (∃ v v', (getTimeValue ext sp p w).1 = .ok v ∧ (getTimeValue ext sp p w').1 = .ok v') := by
        intro p w w'
        unfold getTimeValue
        rw [hsing]
        cases sp.timeHeader with
        | multi cs => left; exact ⟨⟨_, rfl⟩, rfl⟩
        | single coord =>
          simp only
          cases coordOf coord with
          | error e => left; exact ⟨⟨_, rfl⟩, rfl⟩
          | ok rc =>
            obtain ⟨r, c⟩ := rc
            simp only
            split
            · right; exact ⟨_, _, rfl, rfl⟩
            · left; exact ⟨⟨_, rfl⟩, rfl⟩
      have hs1 : timeCell s1 sp.alignment hr hc q = timeCell s sp.alignment hr hc q :=
        steps_frame_pos hst (Int.le_refl _) hr hc
      have hu1 : timeCell u sp.alignment hr hc q = timeCell s sp.alignment hr hc q := by
        rw [← hag q (Int.le_refl _) hr hc]; exact hs1
      obtain ⟨x, hx1, hx2⟩ := ge s1
      refine ⟨x, (cleanStep ext sp st1 s1 q).2, (cleanStep ext sp st1 u q).2, hx1,
        by rw [hval s1 hs1, hx2], ?_, ?_⟩
      · rw [hval u hu1, ← hx2]
        congr 1
        rcases hsucc q s1 u with ⟨⟨e, he⟩, heq⟩ | ⟨v, v', hv, hv'⟩
        · rw [← heq, he]
        · rw [hv, hv']
          simp only
          rcases hsucc (q + 1) s1 u with ⟨⟨e, he⟩, heq⟩ | ⟨v, v', hv, hv'⟩
          · rw [← heq, he]
          · rw [hv, hv']
      · intro pos hp
        refine AgreeAt.of_cells (hag pos hp) ?_ ?_
        · exact cleanStep_end (x := x) (by rw [hval s1 hs1, hx2]) hx1
        · obtain ⟨y, hy1, hy2⟩ := ge u
          exact cleanStep_end (x := y) (by rw [hval u hu1, hy2]) hy1
    · obtain ⟨x, v, hxv⟩ : ∃ x v, cleanStep ext sp st1 s1 q = (x, v) := ⟨_, _, rfl⟩
      obtain ⟨w, hw1, hw2⟩ := cleanStep_sim (hag q (by omega)) (hag (q + 1) (by omega)) hxv
      exact ⟨x, v, w, hnext x v hxv, hxv, hw1, fun pos hp => hw2 pos (hag pos hp)⟩
  obtain ⟨x, v, w, hx, h1, h2, h3⟩ := hstep
  rw [h1, h2]
  cases x with
  | next st' => exact absurd rfl (hx st')
  | raise e => rfl
  | stop =>
    simp only [hh]
    exact estimateEnd_congr hal fun pos hp => h3 pos (by omega)

example :
    let s := Sample.column [.str c!"fecha", Sample.day 2012 1 1, Sample.day 2012 2 1, .none,
      Sample.day 2012 7 1]
    (cleanTimeIndex Sample.ext0 Sample.monthly s).1 = .ok 3 ∧ BlankCell (timeCell s .vertical 1 1 4) :=
  ⟨by decide, trivial⟩

/-- C16. When gaps are allowed, a vertical column of dates one period apart with at most 40 blanks
in a row anywhere is scanned to its end: no cell changes and the detected end is the row of the last
date (shifted by the time alignment). -/
theorem C16_gaps_up_to_40_skipped {ext : Ext} {sp : SParams} {hr hc : Int}
    (h : TimeColumn sp hr hc) {s : Sheet} (hsv : SheetValid s) {b : Int}
    (hal : sp.alignment = .vertical) (hgaps : sp.continuity = false ∨ sp.blankRows = true)
    (hb : sp.dataStarts < b - sp.timeAlignment) (hb' : sp.dataStarts ≤ b)
    (hlast : b ≤ lastPosition sp s)
    (hcells : ∀ p, sp.dataStarts ≤ p → p ≤ lastPosition sp s →
      (∃ t, timeCell s sp.alignment hr hc p = .dt t) ∨ BlankCell (timeCell s sp.alignment hr hc p))
    (hdate : ∃ t, timeCell s sp.alignment hr hc b = .dt t)
    (hafter : ∀ p, b < p → p ≤ lastPosition sp s → BlankCell (timeCell s sp.alignment hr hc p))
    (hcons : Consecutive sp.frequency
      (indexTimes s sp.alignment hr hc sp.dataStarts (lastPosition sp s + 1)))
    (hrun : ∀ p, sp.dataStarts ≤ p → p + 40 ≤ lastPosition sp s →
      ∃ x, p ≤ x ∧ x ≤ p + 40 ∧ ∃ t, timeCell s sp.alignment hr hc x = .dt t) :
    (cleanTimeIndex ext sp s).1 = .ok (b - sp.timeAlignment) ∧
    (cleanTimeIndex ext sp s).2.cells = s.cells := by
  obtain ⟨st, s1, hst, hcell, _⟩ := steps_run (ext := ext) h hsv
    (lastPosition sp s + 1 - sp.dataStarts).toNat (q := lastPosition sp s + 1) (by omega)
    (fun p a c => (hcells p a (by omega)).imp id fun x => ⟨x, hgaps⟩) hcons
    (fun p a c => by
      obtain ⟨x, h1, h2, h3⟩ := hrun p a (by omega)
      exact ⟨x, h1, by omega, h3⟩)
  have htc : ∀ p, timeCell s1 sp.alignment hr hc p = timeCell s sp.alignment hr hc p := by
    intro p; unfold timeCell; rw [hcell]
  obtain ⟨t, ht⟩ := hdate
  have hpos := h.starts
  rw [cleanTimeIndex_done h hst rfl (by omega)]
  refine ⟨?_, hcell⟩
  rw [show lastPosition sp s + 1 - 1 = lastPosition sp s by omega]
  refine estimateEnd_eq hal hb' hlast (by rw [htc]; exact ht) ?_ hb (by omega)
  intro x h1 h2 t' ht'
  rw [htc] at ht'
  have := hafter x h1 h2
  rw [ht'] at this
  exact this

/-- C16. The 41st blank in a row ends the index: after a run of dates one period apart up to row `b`,
41 blanks hide everything below. -/
theorem C16_gap_of_41_ends_index {ext : Ext} {sp : SParams} {hr hc : Int}
    (h : TimeColumn sp hr hc) {s : Sheet} (hsv : SheetValid s) {b : Int}
    (hal : sp.alignment = .vertical)
    (hb : sp.dataStarts < b - sp.timeAlignment) (hb' : sp.dataStarts ≤ b)
    (hlast : b + 41 ≤ lastPosition sp s)
    (hcells : ∀ p, sp.dataStarts ≤ p → p ≤ b → ∃ t, timeCell s sp.alignment hr hc p = .dt t)
    (hcons : Consecutive sp.frequency (indexTimes s sp.alignment hr hc sp.dataStarts (b + 1)))
    (hblank : ∀ p, b < p → p ≤ b + 41 → BlankCell (timeCell s sp.alignment hr hc p)) :
    (cleanTimeIndex ext sp s).1 = .ok (b - sp.timeAlignment) ∧
    (cleanTimeIndex ext sp s).2.cells = s.cells := by
  by_cases hgaps : sp.continuity = false ∨ sp.blankRows = true
  · have hext : ∀ n : Nat, indexTimes s sp.alignment hr hc sp.dataStarts (b + 1 + n) =
        indexTimes s sp.alignment hr hc sp.dataStarts (b + 1) ∨ 41 < n := by
      intro n
      induction n with
      | zero => left; simp
      | succ n ih =>
        by_cases hn : 41 < n + 1
        · exact .inr hn
        · left
          rcases ih with ih | ih
          · have := indexTimes_snoc s sp.alignment hr hc (lo := sp.dataStarts) (hi := b + 1 + n)
              (by omega)
            rw [show b + 1 + ((n + 1 : Nat) : Int) = b + 1 + n + 1 by omega, this, ih]
            have hbl := hblank (b + 1 + n) (by omega) (by omega)
            cases hcc : timeCell s sp.alignment hr hc (b + 1 + n) with
            | dt t => rw [hcc] at hbl; exact absurd hbl (by simp [BlankCell])
            | _ => simp
          · omega
    obtain ⟨st, s1, hst, hcell, _, ⟨hbl1, hbl2⟩, hbl3⟩ := steps_run (ext := ext) h hsv
      (b + 41 - sp.dataStarts).toNat (q := b + 41) (by omega)
      (fun p a c => by
        by_cases hp : p ≤ b
        · exact .inl (hcells p a hp)
        · exact .inr ⟨hblank p (by omega) (by omega), hgaps⟩)
      (by
        rcases hext 40 with h' | h'
        · rw [show b + 1 + ((40 : Nat) : Int) = b + 41 by omega] at h'
          rw [h']; exact hcons
        · omega)
      (fun p a c => ⟨p, Int.le_refl _, by omega, hcells p a (by omega)⟩)
    have htc : ∀ s2 : Sheet, s2.cells = s1.cells → ∀ p, timeCell s2 sp.alignment hr hc p =
        timeCell s sp.alignment hr hc p := by
      intro s2 h2 p; unfold timeCell; rw [h2, hcell]
    have hcount : st.blanks = 40 := by
      have hgt : ¬ (40 < st.blanks) := by
        intro hx
        have hbb := hbl2 b (by omega) (by omega)
        obtain ⟨t, ht⟩ := hcells b hb' (Int.le_refl _)
        rw [ht] at hbb; exact hbb
      have hlt : ¬ (st.blanks < 40) := by
        intro hx
        obtain ⟨t, ht⟩ := hbl3 (b + 41 - st.blanks - 1) rfl (by omega)
        have := hblank (b + 41 - st.blanks - 1) (by omega) (by omega)
        rw [ht] at this; exact this
      omega
    obtain ⟨s0, hs0, hstep⟩ := cleanStep_blank (ext := ext) h (by omega : sp.dataStarts ≤ b + 41)
      st s1 (by rw [htc s1 rfl]; exact hblank _ (by omega) (by omega))
    rw [if_neg (by rw [hcount]; simp [noTimeValueLimit])] at hstep
    rw [cleanTimeIndex_stop h hst hlast hstep]
    obtain ⟨t, ht⟩ := hcells b hb' (Int.le_refl _)
    have hpos := h.starts
    refine ⟨?_, hs0.trans hcell⟩
    refine estimateEnd_eq hal hb' (by omega) (by rw [htc s0 hs0]; exact ht) ?_ hb (by omega)
    intro x h1 h2 t' ht'
    rw [htc s0 hs0] at ht'
    have := hblank x h1 (by omega)
    rw [ht'] at this
    exact this
  · refine C15_clean_index_unchanged h hsv hal hb hb' hcells hcons (.inr ⟨by omega, ?_, ?_, ?_⟩)
    · cases hx : sp.continuity
      · exact absurd (.inl hx) hgaps
      · rfl
    · cases hx : sp.blankRows
      · rfl
      · exact absurd (.inr hx) hgaps
    · exact hblank _ (by omega) (by omega)

example : (cleanTimeIndex Sample.ext0 { Sample.monthly with blankRows := true }
      (Sample.column ([.str c!"fecha", Sample.day 2012 1 1, Sample.day 2012 2 1] ++
        List.replicate 40 .none ++ [Sample.day 2012 3 1]))).1 = .ok 44 ∧
    (cleanTimeIndex Sample.ext0 { Sample.monthly with blankRows := true }
      (Sample.column ([.str c!"fecha", Sample.day 2012 1 1, Sample.day 2012 2 1] ++
        List.replicate 41 .none ++ [Sample.day 2012 3 1]))).1 = .ok 3 := by
  constructor <;> decide

end Xls
