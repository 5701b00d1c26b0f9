/-
C17, C18: series that mix several frequencies.
-/
import Verif.Lemmas.Frequency
import Verif.Props.Cleaning

set_option autoImplicit false

namespace Xls
open Spec

/-! ### C17 -/

/-- What the code remembers of the cycle after treating `k` periods, starting from nothing. -/
def cycleAfter (pattern : Str) : Nat → Except Err Str
  | 0 => .ok []
  | k + 1 =>
    match cycleAfter pattern k with
    | .error e => .error e
    | .ok last =>
      match nextFrequency pattern last with
      | .error e => .error e
      | .ok (_, last') => .ok last'

/-- C17. The `k`-th period is treated as having the letter of `pattern` at `k` modulo its length. -/
theorem C17_frequency_cycle {pattern : Str} (hp : 2 ≤ pattern.length) (k : Nat) :
    ∃ last last' c, cycleAfter pattern k = .ok last ∧ nextFrequency pattern last = .ok (c, last') ∧
      pattern[k % pattern.length]? = some c := by
  have hne : pattern ≠ [] := by intro h; rw [h] at hp; simp at hp
  have hc : ∀ k, cycleAfter pattern k = .ok (consumed pattern k) := by
    intro k
    induction k with
    | zero => rfl
    | succ k ih =>
      obtain ⟨c, _, h⟩ := nextFrequency_consumed hne k
      simp only [cycleAfter, ih, h]
  obtain ⟨c, h1, h2⟩ := nextFrequency_consumed hne k
  exact ⟨_, _, c, hc k, h2, h1⟩

example : ((List.range 12).filterMap fun k =>
    match cycleAfter c!"AQQQQ" k with
    | .ok last => match nextFrequency c!"AQQQQ" last with
      | .ok (c, _) => some c
      | .error _ => none
    | .error _ => none) = c!"AQQQQAQQQQAQ" := by decide

/-! ### C18 -/

/-- C18 (partial: a date may also repeat the one before it, see `C18_repeated_date_violated`). Without
missings, for each frequency letter of the pattern, the date-times of that letter before the position
where cleaning stopped advance one period of that frequency at a time, or repeat. -/
theorem C18_each_frequency_progresses_partial {ext : Ext} {sp : SParams} {s : Sheet} {hr hc : Int}
    (he : ExtValid ext) (hs : SheetValid s) (hf : 2 ≤ sp.frequency.length)
    (hi : NotImplicitString sp.missingValue) (hh : HeaderAt sp hr hc) (hm : sp.missings = false) :
    ∃ stop, sp.dataStarts ≤ stop ∧ stop ≤ max sp.dataStarts (lastPosition sp s + 1) ∧
      (∀ r c, (cleanTimeIndex ext sp s).2.cells r c ≠ s.cells r c →
        ∃ pos, sp.dataStarts ≤ pos ∧ pos < stop ∧ IsAt sp.alignment hr hc pos r c) ∧
      ∀ c, ConsecutiveOrSame [c] (ofLetter sp.frequency c
        (indexTimes (cleanTimeIndex ext sp s).2 sp.alignment hr hc sp.dataStarts stop)) := by
  rw [headerAt_iff] at hh
  rw [notImplicit_iff] at hi
  obtain ⟨st1, s1, q, hst, hend⟩ := cleanTimeIndex_end ext sp s
  refine ⟨q, hst.le, by have := hend.bound; rw [scanEnd_eq] at this; exact this, ?_, ?_⟩
  · intro r c hne
    rw [hend.cells] at hne
    rcases steps_frame hh hst r c with h | ⟨h, _⟩
    · exact absurd h hne
    · exact h
  · have := (steps_multi he hs hf hi hh hst).2.2.2 hm
    rwa [indexTimes_congr (s := (cleanTimeIndex ext sp s).2) (s' := s1)]
    intro p _ _; unfold timeCell; rw [hend.cells]

theorem Spec.ConsecutiveOrSame.of_nodup {f : Str} : ∀ {ts : List Time}, ConsecutiveOrSame f ts →
    ts.Nodup → Consecutive f ts
  | [], _, _ => trivial
  | [_], _, _ => trivial
  | a :: b :: rest, h, hn => by
    refine ⟨?_, Spec.ConsecutiveOrSame.of_nodup h.2 (List.nodup_cons.mp hn).2⟩
    rcases h.1 with h | h
    · exact h.2
    · subst h; simp at hn

/-- C18. Where no date of a letter is repeated, the dates of that letter are one period apart. -/
theorem C18_each_frequency_without_repeats {ext : Ext} {sp : SParams} {s : Sheet} {hr hc : Int}
    (he : ExtValid ext) (hs : SheetValid s) (hf : 2 ≤ sp.frequency.length)
    (hi : NotImplicitString sp.missingValue) (hh : HeaderAt sp hr hc) (hm : sp.missings = false) :
    ∃ stop, sp.dataStarts ≤ stop ∧ stop ≤ max sp.dataStarts (lastPosition sp s + 1) ∧
      (∀ r c, (cleanTimeIndex ext sp s).2.cells r c ≠ s.cells r c →
        ∃ pos, sp.dataStarts ≤ pos ∧ pos < stop ∧ IsAt sp.alignment hr hc pos r c) ∧
      ∀ c, (ofLetter sp.frequency c (indexTimes (cleanTimeIndex ext sp s).2 sp.alignment hr hc
          sp.dataStarts stop)).Nodup →
        Consecutive [c] (ofLetter sp.frequency c
          (indexTimes (cleanTimeIndex ext sp s).2 sp.alignment hr hc sp.dataStarts stop)) := by
  obtain ⟨q, h1, h2, h3, h4⟩ := C18_each_frequency_progresses_partial he hs hf hi hh hm
  exact ⟨q, h1, h2, h3, fun c hn => (h4 c).of_nodup hn⟩

/-- C18. With missings allowed, the dates of each letter never go back. -/
theorem C18_each_frequency_never_goes_back {ext : Ext} {sp : SParams} {s : Sheet} {hr hc : Int}
    (he : ExtValid ext) (hs : SheetValid s) (hf : 2 ≤ sp.frequency.length)
    (hi : NotImplicitString sp.missingValue) (hh : HeaderAt sp hr hc) :
    ∃ stop, sp.dataStarts ≤ stop ∧ stop ≤ max sp.dataStarts (lastPosition sp s + 1) ∧
      (∀ r c, (cleanTimeIndex ext sp s).2.cells r c ≠ s.cells r c →
        ∃ pos, sp.dataStarts ≤ pos ∧ pos < stop ∧ IsAt sp.alignment hr hc pos r c) ∧
      ∀ c, (ofLetter sp.frequency c (indexTimes (cleanTimeIndex ext sp s).2 sp.alignment hr hc
          sp.dataStarts stop)).Pairwise fun a b => ¬ b < a := by
  rw [headerAt_iff] at hh
  rw [notImplicit_iff] at hi
  obtain ⟨st1, s1, q, hst, hend⟩ := cleanTimeIndex_end ext sp s
  refine ⟨q, hst.le, by have := hend.bound; rw [scanEnd_eq] at this; exact this, ?_, ?_⟩
  · intro r c hne
    rw [hend.cells] at hne
    rcases steps_frame hh hst r c with h | ⟨h, _⟩
    · exact absurd h hne
    · exact h
  · have := (steps_multi he hs hf hi hh hst).2.2.1
    rwa [indexTimes_congr (s := (cleanTimeIndex ext sp s).2) (s' := s1)]
    intro p _ _; unfold timeCell; rw [hend.cells]

/-- A quarterly index with a yearly date at the head of each year, one quarter mistyped. -/
def Sample.yearAndQuarters : Sheet := Sample.column [.str c!"fecha",
    Sample.day 2012 1 1, Sample.day 2012 1 1, Sample.day 2012 4 1, Sample.day 2012 9 1,
    Sample.day 2012 10 1, Sample.day 2013 1 1, Sample.day 2013 1 1]

set_option maxRecDepth 4000 in
example :
    let sp := { Sample.monthly with frequency := c!"AQQQQ" }
    (cleanTimeIndex Sample.ext0 sp Sample.yearAndQuarters).1 = .ok 8 ∧
    indexTimes (cleanTimeIndex Sample.ext0 sp Sample.yearAndQuarters).2 .vertical 1 1 2 9 =
      [⟨2012, 1, 1, 0⟩, ⟨2012, 1, 1, 0⟩, ⟨2012, 4, 1, 0⟩, ⟨2012, 7, 1, 0⟩, ⟨2012, 10, 1, 0⟩,
        ⟨2013, 1, 1, 0⟩, ⟨2013, 1, 1, 0⟩] ∧
    ofLetter c!"AQQQQ" 'A' (indexTimes (cleanTimeIndex Sample.ext0 sp Sample.yearAndQuarters).2
      .vertical 1 1 2 9) = [⟨2012, 1, 1, 0⟩, ⟨2013, 1, 1, 0⟩] := by
  refine ⟨by decide, by decide, by decide⟩

/-- C18 (violation). A repeated date of the same frequency is accepted without any error. -/
theorem C18_repeated_date_violated :
    let sp := { Sample.monthly with frequency := c!"AQ" }
    let s := Sample.column [.str c!"fecha", Sample.day 2012 1 1, Sample.day 2012 1 1,
      Sample.day 2013 1 1, Sample.day 2012 1 1]
    sp.missings = false ∧ (cleanTimeIndex Sample.ext0 sp s).1 = .ok 5 ∧
    ofLetter sp.frequency 'Q' (indexTimes (cleanTimeIndex Sample.ext0 sp s).2 .vertical 1 1 2 6) =
      [⟨2012, 1, 1, 0⟩, ⟨2012, 1, 1, 0⟩] := by
  refine ⟨rfl, by decide, by decide⟩

end Xls
