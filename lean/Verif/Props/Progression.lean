/-
C05, C08-C10: which dates a cleaning accepts, repairs or refuses after a previous date.
-/
import Verif.Lemmas.CleanMisc
import Verif.Spec.Samples

set_option autoImplicit false

namespace Xls
open Spec

/-! ### C05: semesters -/

/-- C05 (violation). The step the package takes for the semester frequency `S` is one second for
every date: it never is six months. -/
theorem C05_semester_step_violated {t t' : Time} (hv : ValidTime t)
    (h : incrementTime t 1 c!"S" = .ok t') :
    instant t' = instant t + 1000000 ∧ monthCount t' ≠ monthCount t + 6 := by
  obtain ⟨sh, hs, hv', hsh⟩ := incrementTime_ok hv h
  simp only [shiftOf, Option.some.injEq] at hs
  subst hs
  simp only [IsShifted] at hsh
  refine ⟨by omega, ?_⟩
  intro hm
  have := instant_of_months hv hv' (by omega)
  omega

/-- C05 (violation, seen from the sheet). In a semester index without missings, 1 January is
followed by 1 July: the cleaning replaces the July date by one second after the January one. -/
theorem C05_semester_index_violated (y : Nat) (h1 : 1 ≤ y) (h2 : y ≤ 9999) (mv : PVal) :
    correctProgression (some ⟨y, 1, 1, 0⟩) ⟨y, 7, 1, 0⟩ c!"S" false mv =
      .ok (some ⟨y, 1, 1, 1000000⟩) := by
  have hv : ValidTime ⟨y, 1, 1, 0⟩ := ⟨h1, h2, by simp, by simp, by simp, by simp [monthLength], by simp⟩
  have hinc : incrementTime ⟨y, 1, 1, 0⟩ 1 c!"S" = .ok ⟨y, 1, 1, 1000000⟩ := by
    have hv' : ValidTime ⟨y, 1, 1, 1000000⟩ :=
      ⟨h1, h2, by simp, by simp, by simp, by simp [monthLength], by simp⟩
    rw [← nextPeriod_iff hv]
    exact ⟨hv', _, rfl, by simp [IsShifted, instant, dayNumber]⟩
  unfold correctProgression
  simp only [hinc]
  rw [if_neg (by simp), if_neg, if_pos, if_pos]
  · rw [timeValueTypo_iff]; simp [agreeing]
  · exact ⟨lt_of_monthCount hv ⟨h1, h2, by simp, by simp, by simp, by simp [monthLength], by simp⟩
      (by simp [monthCount]), trivial⟩
  · rw [Time.not_lt_iff]; right
    exact lt_of_monthCount hv ⟨h1, h2, by simp, by simp, by simp, by simp [monthLength], by simp⟩
      (by simp [monthCount])

example : incrementTime ⟨2012, 1, 1, 0⟩ 1 c!"S" = .ok ⟨2012, 1, 1, 1000000⟩ := by decide

/-- The same, running the cleaning on a sheet: the July date is lost. -/
example :
    let s := Sample.column [.str c!"fecha", Sample.day 2012 1 1, Sample.day 2012 7 1]
    let s' := (cleanTimeIndex Sample.ext0 { Sample.monthly with frequency := c!"S" } s).2
    s'.cells 3 1 = .dt ⟨2012, 1, 1, 1000000⟩ := by decide

/-! ### C08: typos are repaired -/

/-- C08. After the date `last`, with `exp` the next period: the expected date is kept, and a date
that differs from it in exactly one of day, month and year is replaced by it when it goes backwards,
or forward although no period may be missing. -/
theorem C08_typo_repaired {last curr exp : Time} {freq : Str} {m : Bool} {mv : PVal}
    (hv : ValidTime last) (hn : NextPeriod freq last exp) :
    (curr = exp → correctProgression (some last) curr freq m mv = .ok (some curr)) ∧
    (curr ≠ exp → agreeing curr exp = 2 → (curr < last ∨ (last < curr ∧ m = false)) →
      correctProgression (some last) curr freq m mv = .ok (some exp)) := by
  rw [nextPeriod_iff hv] at hn
  unfold correctProgression
  simp only [hn]
  refine ⟨fun h => by rw [if_pos h.symm], fun h1 h2 h3 => ?_⟩
  have ht := (timeValueTypo_iff curr exp).mpr h2
  rw [if_neg (fun h => h1 h.symm)]
  by_cases hb : curr < last
  · rw [if_pos hb, if_pos ht]
  · rw [if_neg hb]
    rcases h3 with h3 | h3
    · exact absurd h3 hb
    · rw [if_pos h3, if_pos ht]

/-- C08, seen from the sheet: after a run of consecutive dates, a date that agrees with the expected
one in exactly two components and goes backwards (or forward without missings) is replaced by the
expected date. -/
theorem C08_typo_repaired_on_sheet {ext : Ext} {sp : SParams} {hr hc : Int}
    (h : TimeColumn sp hr hc) {s : Sheet} (hsv : SheetValid s) {q : Int} {last curr exp : Time}
    (hq : sp.dataStarts < q) (hend : q ≤ lastPosition sp s)
    (hcells : ∀ p, sp.dataStarts ≤ p → p < q → ∃ t, timeCell s sp.alignment hr hc p = .dt t)
    (hcons : Consecutive sp.frequency (indexTimes s sp.alignment hr hc sp.dataStarts q))
    (hlast : timeCell s sp.alignment hr hc (q - 1) = .dt last)
    (hcurr : timeCell s sp.alignment hr hc q = .dt curr)
    (hn : NextPeriod sp.frequency last exp) (ha : agreeing curr exp = 2)
    (hor : curr < last ∨ (last < curr ∧ sp.missings = false)) :
    timeCell (cleanTimeIndex ext sp s).2 sp.alignment hr hc q = .dt exp := by
  have hvl : ValidTime last := hsv _ _ _ hlast
  obtain ⟨st, s1, hst, hcell, hl, _⟩ := steps_run (ext := ext) h hsv (q - sp.dataStarts).toNat
    (q := q) (by omega) (fun p a b => .inl (hcells p a b)) hcons
    (fun p a b => ⟨p, Int.le_refl _, by omega, hcells p a (by omega)⟩)
  have hl' : st.last = some last := by
    rw [hl]
    have := indexTimes_snoc s sp.alignment hr hc (lo := sp.dataStarts) (hi := q - 1) (by omega)
    rw [show q - 1 + 1 = q by omega] at this
    rw [this, hlast]; simp
  have hlt : last < exp := incrementTime_lt hvl (Nat.le_refl 1) ((nextPeriod_iff hvl).mp hn)
  obtain ⟨s0, p, hs0, hstep⟩ := cleanStep_dt (ext := ext) h (by omega : sp.dataStarts ≤ q) st s1
    (t := curr) (by rw [← hcurr]; unfold timeCell; rw [hcell])
  have hcp : correctProgression st.last curr sp.frequency sp.missings sp.missingValue =
      .ok (some exp) := by
    rw [hl']
    by_cases hce : curr = exp
    · rw [(C08_typo_repaired hvl hn).1 hce, hce]
    · exact (C08_typo_repaired hvl hn).2 hce ha hor
  rw [hcp] at hstep
  simp only at hstep
  rw [if_neg (by rw [hl']; intro hx; injection hx with hx; subst hx; exact Time.lt_irrefl _ hlt)]
    at hstep
  rw [cleanTimeIndex_through h (.tail hst hstep) (by omega) q (by omega) (by omega)]
  unfold timeCell
  rw [set_cells, if_pos ⟨rfl, rfl⟩]

/-- 1/12/2012 typed for 1/3/2012. -/
example : ValidTime ⟨2012, 2, 1, 0⟩ ∧ agreeing ⟨2012, 12, 1, 0⟩ ⟨2012, 3, 1, 0⟩ = 2 ∧
    (⟨2012, 2, 1, 0⟩ : Time) < ⟨2012, 12, 1, 0⟩ ∧
    incrementTime ⟨2012, 2, 1, 0⟩ 1 c!"M" = .ok ⟨2012, 3, 1, 0⟩ ∧
    correctProgression (some ⟨2012, 2, 1, 0⟩) ⟨2012, 12, 1, 0⟩ c!"M" false (.list []) =
      .ok (some ⟨2012, 3, 1, 0⟩) := by decide

example :
    let s := Sample.column [.str c!"fecha", Sample.day 2012 1 1, Sample.day 2012 2 1,
      Sample.day 2102 3 1, Sample.day 2012 4 1]
    let r := cleanTimeIndex Sample.ext0 Sample.monthly s
    r.2.cells 4 1 = Sample.day 2012 3 1 ∧ r.1 = .ok 5 := by decide

/-! ### C09: unexplainable jumps are reported -/

/-- C09. After `last`, with `exp` the next period, the check of a date raises
`TimeValueGoingBackwards` exactly if it is earlier and no typo, and `TimeValueGoingForth` exactly if
it is later than `last`, no period may be missing, it is not the expected date and no typo. -/
theorem C09_jump_reported {last curr exp : Time} {freq : Str} {m : Bool} {mv : PVal}
    (hv : ValidTime last) (hn : NextPeriod freq last exp) :
    (correctProgression (some last) curr freq m mv = .error .timeValueGoingBackwards ↔
      curr < last ∧ agreeing curr exp ≠ 2) ∧
    (correctProgression (some last) curr freq m mv = .error .timeValueGoingForth ↔
      last < curr ∧ m = false ∧ curr ≠ exp ∧ agreeing curr exp ≠ 2) := by
  rw [nextPeriod_iff hv] at hn
  have hlt := incrementTime_lt hv (Nat.le_refl 1) hn
  unfold correctProgression
  simp only [hn]
  have hrest : ∀ e, (match incrementTime last (maxForthUnits freq) freq with
        | .error e => (.error e : Except Err (Option Time))
        | .ok mx =>
          if mx < curr ∧ m = true ∧ isImplicitStr mv = true then forthTimeValueTypo curr mx
          else .ok (some curr)) = .error e →
      e ≠ .timeValueGoingBackwards ∧ e ≠ .timeValueGoingForth := by
    intro e he
    split at he
    · next hx =>
      injection he with he; subst he
      cases hs : shiftOf freq with
      | none => rw [shiftOf_none.mp hs] at hn; cases hn
      | some sh => rcases (incrementTime_error hv hs hx).1 with h | h <;> subst h <;> simp
    · split at he
      · unfold forthTimeValueTypo at he
        split at he
        · next hx => injection he with he; subst he; rw [mkDate_error hx]; simp
        · split at he
          · next hx => injection he with he; subst he; rw [mkDate_error hx]; simp
          · split at he
            · next hx => injection he with he; subst he; rw [mkDate_error hx]; simp
            · cases he
      · cases he
  by_cases h1 : exp = curr
  · subst h1
    simp only [if_true]
    refine ⟨⟨fun h => (by cases h), fun h => absurd h.1 (Time.lt_asymm hlt)⟩,
      ⟨fun h => (by cases h), fun h => absurd rfl h.2.2.1⟩⟩
  · rw [if_neg h1]
    by_cases h2 : curr < last
    · rw [if_pos h2]
      by_cases h3 : timeValueTypo curr exp = true
      · rw [if_pos h3]
        have := (timeValueTypo_iff _ _).mp h3
        refine ⟨⟨fun h => (by cases h), fun h => absurd this h.2⟩, ⟨fun h => (by cases h), fun h => absurd this h.2.2.2⟩⟩
      · rw [if_neg h3]
        rw [timeValueTypo_iff] at h3
        refine ⟨⟨fun _ => ⟨h2, h3⟩, fun _ => rfl⟩, ⟨fun h => (by cases h), fun h => absurd h.1 (Time.lt_asymm h2)⟩⟩
    · rw [if_neg h2]
      by_cases h4 : last < curr ∧ m = false
      · rw [if_pos h4]
        by_cases h3 : timeValueTypo curr exp = true
        · rw [if_pos h3]
          have := (timeValueTypo_iff _ _).mp h3
          refine ⟨⟨fun h => (by cases h), fun h => absurd h.1 h2⟩, ⟨fun h => (by cases h), fun h => absurd this h.2.2.2⟩⟩
        · rw [if_neg h3]
          rw [timeValueTypo_iff] at h3
          refine ⟨⟨fun h => (by cases h), fun h => absurd h.1 h2⟩,
            ⟨fun _ => ⟨h4.1, h4.2, fun h => h1 h.symm, h3⟩, fun _ => rfl⟩⟩
      · rw [if_neg h4]
        refine ⟨⟨fun h => absurd rfl (hrest _ h).1, fun h => absurd h.1 h2⟩,
          ⟨fun h => absurd rfl (hrest _ h).2, fun h => absurd ⟨h.1, h.2.1⟩ h4⟩⟩

/-- C09, seen from the sheet: after a run of consecutive dates such a date makes the cleaning fail
and stays as it was. -/
theorem C09_jump_reported_on_sheet {ext : Ext} {sp : SParams} {hr hc : Int}
    (h : TimeColumn sp hr hc) {s : Sheet} (hsv : SheetValid s) {q : Int} {last curr exp : Time}
    (hq : sp.dataStarts < q) (hend : q ≤ lastPosition sp s)
    (hcells : ∀ p, sp.dataStarts ≤ p → p < q → ∃ t, timeCell s sp.alignment hr hc p = .dt t)
    (hcons : Consecutive sp.frequency (indexTimes s sp.alignment hr hc sp.dataStarts q))
    (hlast : timeCell s sp.alignment hr hc (q - 1) = .dt last)
    (hcurr : timeCell s sp.alignment hr hc q = .dt curr)
    (hn : NextPeriod sp.frequency last exp) (ha : agreeing curr exp ≠ 2) (hne : curr ≠ exp) :
    (curr < last → (cleanTimeIndex ext sp s).1 = .error .timeValueGoingBackwards ∧
      (cleanTimeIndex ext sp s).2.cells = s.cells) ∧
    (last < curr → sp.missings = false →
      (cleanTimeIndex ext sp s).1 = .error .timeValueGoingForth ∧
      (cleanTimeIndex ext sp s).2.cells = s.cells) := by
  have hvl : ValidTime last := hsv _ _ _ hlast
  obtain ⟨st, s1, hst, hcell, hl, _⟩ := steps_run (ext := ext) h hsv (q - sp.dataStarts).toNat
    (q := q) (by omega) (fun p a b => .inl (hcells p a b)) hcons
    (fun p a b => ⟨p, Int.le_refl _, by omega, hcells p a (by omega)⟩)
  have hl' : st.last = some last := by
    rw [hl]
    have := indexTimes_snoc s sp.alignment hr hc (lo := sp.dataStarts) (hi := q - 1) (by omega)
    rw [show q - 1 + 1 = q by omega] at this
    rw [this, hlast]; simp
  obtain ⟨s0, p, hs0, hstep⟩ := cleanStep_dt (ext := ext) h (by omega : sp.dataStarts ≤ q) st s1
    (t := curr) (by rw [← hcurr]; unfold timeCell; rw [hcell])
  rw [hl'] at hstep
  have T := C09_jump_reported (curr := curr) (m := sp.missings) (mv := sp.missingValue) hvl hn
  constructor
  · intro hb
    rw [T.1.mpr ⟨hb, ha⟩] at hstep
    simp only [handleError, endsIndex] at hstep
    simp at hstep
    rw [cleanTimeIndex_raise h hst hend hstep]
    exact ⟨rfl, hs0.trans hcell⟩
  · intro hb hm
    rw [T.2.mpr ⟨hb, hm, hne, ha⟩] at hstep
    simp only [handleError, endsIndex] at hstep
    simp at hstep
    rw [cleanTimeIndex_raise h hst hend hstep]
    exact ⟨rfl, hs0.trans hcell⟩

example : NextPeriod c!"M" ⟨2012, 2, 1, 0⟩ ⟨2012, 3, 1, 0⟩ ∧
    correctProgression (some ⟨2012, 2, 1, 0⟩) ⟨2011, 5, 1, 0⟩ c!"M" true (.list []) =
      .error .timeValueGoingBackwards ∧
    correctProgression (some ⟨2012, 2, 1, 0⟩) ⟨2013, 5, 1, 0⟩ c!"M" false (.list []) =
      .error .timeValueGoingForth :=
  ⟨⟨by decide, _, rfl, by decide, by decide, by decide⟩, by decide, by decide⟩

/-! ### C10: far jumps -/

/-- C10 (true part). With the bare string `Implicit` as `missing_value`, a date that is more than the
tolerated number of periods after the previous one is never accepted as it is: the result, if any, is
a date before the limit that differs from it in exactly one component. This value never reaches the
check through a parameters object (see the violation). -/
theorem C10_far_jump_partial {last curr mx t : Time} {freq : Str}
    (hv : ValidTime last)
    (hmx : incrementTime last (maxForthUnits freq) freq = .ok mx) (hfar : mx < curr)
    (hlt : last < curr) (hne : ∀ exp, NextPeriod freq last exp → exp ≠ curr)
    (h : correctProgression (some last) curr freq true (.str c!"Implicit") = .ok (some t)) :
    t < mx ∧ t.us = 0 ∧ ((t.year = curr.year ∧ t.month = curr.month ∧ t.day = mx.day) ∨
      (t.year = curr.year ∧ t.month = mx.month ∧ t.day = curr.day) ∨
      (t.year = mx.year ∧ t.month = curr.month ∧ t.day = curr.day)) := by
  unfold correctProgression at h
  simp only at h
  split at h
  · cases h
  · next exp hexp =>
    rw [if_neg (hne exp ((nextPeriod_iff hv).mpr hexp)), if_neg (Time.lt_asymm hlt),
      if_neg (by simp), hmx] at h
    simp only at h
    rw [if_pos ⟨hfar, by simp, by decide⟩] at h
    unfold forthTimeValueTypo at h
    split at h
    · cases h
    · next hd =>
      split at h
      · cases h
      · next hm =>
        split at h
        · cases h
        · next hy =>
          injection h with h
          have hmem := List.mem_of_find?_eq_some h
          have hprop := List.find?_some h
          simp only [List.mem_cons, List.not_mem_nil, or_false] at hmem
          simp only [decide_eq_true_eq] at hprop
          refine ⟨hprop, ?_⟩
          rcases hmem with h' | h' | h' <;> subst h'
          · obtain ⟨_, a, b, c, d⟩ := mkDate_ok hd
            exact ⟨d, .inl ⟨by omega, by omega, by omega⟩⟩
          · obtain ⟨_, a, b, c, d⟩ := mkDate_ok hm
            exact ⟨d, .inr (.inl ⟨by omega, by omega, by omega⟩)⟩
          · obtain ⟨_, a, b, c, d⟩ := mkDate_ok hy
            exact ⟨d, .inr (.inr ⟨by omega, by omega, by omega⟩)⟩

example : correctProgression (some ⟨2012, 2, 1, 0⟩) ⟨2021, 3, 1, 0⟩ c!"D" true
    (.str c!"Implicit") = .ok none := by decide

example : correctProgression (some ⟨2012, 2, 1, 0⟩) ⟨2021, 2, 3, 0⟩ c!"D" true
    (.str c!"Implicit") = .ok (some ⟨2012, 2, 3, 0⟩) := by decide

/-- C10 (violation). Whenever `missing_value` is a list, as in every parameters object, any later
date is accepted unchanged when missings are allowed, however far it is. -/
theorem C10_far_jump_violated {last curr mx : Time} {freq : Str} {vs : List PVal}
    (hv : ValidTime last)
    (hmx : incrementTime last (maxForthUnits freq) freq = .ok mx) (hlt : last < curr) :
    correctProgression (some last) curr freq true (.list vs) = .ok (some curr) := by
  have hone : ∃ exp, incrementTime last 1 freq = .ok exp := by
    cases hs : shiftOf freq with
    | none => rw [shiftOf_none.mp hs] at hmx; cases hmx
    | some sh =>
      cases hr : incrementTime last 1 freq with
      | ok x => exact ⟨x, rfl⟩
      | error e =>
        exfalso
        have hb := (incrementTime_error hv hs hr).2
        obtain ⟨sh', hs', hvm, hsh⟩ := incrementTime_ok hv hmx
        rw [hs] at hs'; cases hs'
        refine beyond_no_result hvm hsh ?_
        have hge : 1 ≤ maxForthUnits freq := by
          unfold maxForthUnits; repeat' split
          all_goals decide
        cases sh with
        | months k =>
          simp only [BeyondCalendar] at hb ⊢
          have : 1 * k ≤ maxForthUnits freq * k := Nat.mul_le_mul_right k hge
          omega
        | micros k =>
          simp only [BeyondCalendar] at hb ⊢
          have : 1 * k ≤ maxForthUnits freq * k := Nat.mul_le_mul_right k hge
          omega
  obtain ⟨exp, hexp⟩ := hone
  unfold correctProgression
  simp only [hexp, hmx]
  split
  · rfl
  · rw [if_neg (Time.lt_asymm hlt), if_neg (by simp), if_neg (by simp [isImplicitStr])]

example : correctProgression (some ⟨2012, 2, 1, 0⟩) ⟨9012, 2, 3, 0⟩ c!"M" true
    (.list [.str c!"Implicit"]) = .ok (some ⟨9012, 2, 3, 0⟩) := by decide

end Xls
