/-
C01-C04: stepping through the calendar with `increment_time`.
-/
import Verif.Lemmas.Increment

set_option autoImplicit false

namespace Xls
open Spec

/-- C01. A successful increment by at least one period is a real date-time, strictly later. -/
theorem C01_increment_moves_forward {t t' : Time} {n : Nat} {freq : Str} (hv : ValidTime t)
    (hn : 1 ≤ n) (h : incrementTime t n freq = .ok t') :
    ValidTime t' ∧ t < t' ∧ instant t < instant t' := by
  obtain ⟨s, hs, hv', hsh⟩ := incrementTime_ok hv h
  have hlt := isShifted_lt hs hv hv' hn hsh
  exact ⟨hv', hlt, instant_lt_of_lt hv hv' hlt⟩

/-- C01. For a supported frequency an increment fails only if the result would be after the year
9999. -/
theorem C01_increment_fails_only_beyond_calendar {t : Time} {n : Nat} {freq : Str} {s : Shift}
    (hv : ValidTime t) (hs : shiftOf freq = some s) :
    ((∃ e, incrementTime t n freq = .error e) ↔ BeyondCalendar t n s) ∧
    (∀ e, incrementTime t n freq = .error e → e = .valueError ∨ e = .overflowError) := by
  refine ⟨⟨fun ⟨e, h⟩ => (incrementTime_error hv hs h).2, fun hb => ?_⟩,
    fun e h => (incrementTime_error hv hs h).1⟩
  cases h : incrementTime t n freq with
  | error e => exact ⟨e, rfl⟩
  | ok t' =>
    obtain ⟨s', hs', hv', hsh⟩ := incrementTime_ok hv h
    rw [hs] at hs'; cases hs'
    exact absurd hb (beyond_no_result hv' hsh)

example : ValidTime ⟨2015, 1, 31, 5⟩ ∧
    incrementTime ⟨2015, 1, 31, 5⟩ 1 ['M'] = .ok ⟨2015, 2, 28, 5⟩ := by decide

example : incrementTime ⟨9999, 12, 1, 0⟩ 1 ['M'] = .error .valueError := by decide

/-- C02. A successful increment by `n` periods lands exactly `n` periods later. -/
theorem C02_increment_exact {t t' : Time} {n : Nat} {freq : Str} (hv : ValidTime t)
    (h : incrementTime t n freq = .ok t') :
    ∃ s, shiftOf freq = some s ∧ IsShifted t n t' s := by
  obtain ⟨s, hs, _, hsh⟩ := incrementTime_ok hv h
  exact ⟨s, hs, hsh⟩

/-- C02. Conversely the date-time `n` periods later, when there is one, is what is returned. -/
theorem C02_increment_complete {t t' : Time} {n : Nat} {freq : Str} {s : Shift} (hv : ValidTime t)
    (hv' : ValidTime t') (hs : shiftOf freq = some s) (h : IsShifted t n t' s) :
    incrementTime t n freq = .ok t' := by
  cases hr : incrementTime t n freq with
  | error e => exact absurd (incrementTime_error hv hs hr).2 (beyond_no_result hv' h)
  | ok x =>
    obtain ⟨s', hs', hvx, hsh⟩ := incrementTime_ok hv hr
    rw [hs] at hs'; cases hs'
    rw [isShifted_unique hvx hv' hsh h]

example : ValidTime ⟨2016, 2, 28, 0⟩ ∧ ValidTime ⟨2016, 3, 6, 0⟩ ∧
    shiftOf ['W'] = some (.micros 604800000000) ∧
    incrementTime ⟨2016, 2, 28, 0⟩ 1 ['W'] = .ok ⟨2016, 3, 6, 0⟩ := by decide

/-- C03 (true part). `k` single steps are one step of `k`, for every frequency when the day of the
month is at most 28, and for every day when the frequency is not counted in months; errors
included. -/
theorem C03_steps_compose_partial {t : Time} {k : Nat} {freq : Str} {s : Shift} (hv : ValidTime t)
    (hs : shiftOf freq = some s) (hd : t.day ≤ 28 ∨ ∃ m, s = .micros m) :
    steps (fun x => incrementTime x 1 freq) k t = incrementTime t k freq :=
  steps_eq hv hs hd

example : steps (fun x => incrementTime x 1 ['Q']) 5 ⟨2015, 10, 28, 0⟩ =
    .ok ⟨2017, 1, 28, 0⟩ := by decide

/-- C03 (violation). For each of the three calendar frequencies some date at the end of a month
drifts. -/
theorem C03_steps_compose_violated :
    (∃ t k, ValidTime t ∧ steps (fun x => incrementTime x 1 ['M']) k t ≠ incrementTime t k ['M'])
    ∧ (∃ t k, ValidTime t ∧ steps (fun x => incrementTime x 1 ['Q']) k t ≠ incrementTime t k ['Q'])
    ∧ (∃ t k, ValidTime t ∧ steps (fun x => incrementTime x 1 ['A']) k t ≠ incrementTime t k ['A'])
    :=
  ⟨⟨⟨2015, 1, 31, 0⟩, 2, by decide, by decide⟩, ⟨⟨2014, 11, 30, 0⟩, 2, by decide, by decide⟩,
    ⟨⟨2012, 2, 29, 0⟩, 4, by decide, by decide⟩⟩

/-- C03 (extent of the violation). After a step of months that had to shorten the day, the day stays
shortened: whatever is added afterwards, the day is at most the length of the month passed. -/
theorem C03_drift_is_permanent {t t1 t2 : Time} {a b : Nat} {freq : Str} {k : Nat}
    (hv : ValidTime t) (hs : shiftOf freq = some (.months k))
    (h1 : incrementTime t a freq = .ok t1) (h2 : incrementTime t1 b freq = .ok t2) :
    t2.day ≤ monthLength t1.year t1.month := by
  obtain ⟨s, hs', hv1, hsh1⟩ := incrementTime_ok hv h1
  rw [hs] at hs'; cases hs'
  obtain ⟨s, hs', hv2, hsh2⟩ := incrementTime_ok hv1 h2
  rw [hs] at hs'; cases hs'
  have e1 := hsh1.2.1
  have e2 := hsh2.2.1
  omega

/-- C04. Exactly the eight one-letter codes are supported: for every other string the answer is
`InvalidTimeFrequency`, whatever the time and the number. -/
theorem C04_unsupported_refused (t : Time) (n : Nat) (freq : Str) :
    incrementTime t n freq = .error .invalidTimeFrequency ↔
      freq ∉ [['S'], ['T'], ['H'], ['D'], ['W'], ['M'], ['Q'], ['A']] := by
  rw [← shiftOf_none]
  constructor
  · intro h hm
    simp only [List.mem_cons, List.not_mem_nil, or_false] at hm
    rcases hm with hm | hm | hm | hm | hm | hm | hm | hm <;> subst hm <;> simp [shiftOf] at h
  · intro h
    cases hs : shiftOf freq with
    | none => rfl
    | some s =>
      exfalso
      apply h
      rcases shiftOf_cases hs with h' | h' | h' | h' | h' | h' | h' | h' <;> rw [h'.1] <;> simp

/-- C04. In particular codes of several frequencies are never incremented. -/
theorem C04_multifrequency_refused (t : Time) (n : Nat) (freq : Str) (h : 1 < freq.length) :
    incrementTime t n freq = .error .invalidTimeFrequency := by
  rw [C04_unsupported_refused]
  intro hm
  simp only [List.mem_cons, List.not_mem_nil, or_false] at hm
  rcases hm with hm | hm | hm | hm | hm | hm | hm | hm <;> subst hm <;> simp at h

example : incrementTime ⟨2015, 1, 1, 0⟩ 1 c!"AQQQQ" = .error .invalidTimeFrequency := by decide

end Xls
