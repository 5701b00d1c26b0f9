/-
Lemmas on `increment_time`.
-/
import Verif.Lemmas.Calendar

set_option autoImplicit false

namespace Xls
open Spec

theorem shiftOf_cases {f : Str} {s : Shift} (h : shiftOf f = some s) :
    (f = ['S'] ∧ s = .micros 1000000) ∨ (f = ['T'] ∧ s = .micros 60000000) ∨
    (f = ['H'] ∧ s = .micros 3600000000) ∨ (f = ['D'] ∧ s = .micros 86400000000) ∨
    (f = ['W'] ∧ s = .micros 604800000000) ∨ (f = ['M'] ∧ s = .months 1) ∨
    (f = ['Q'] ∧ s = .months 3) ∨ (f = ['A'] ∧ s = .months 12) := by
  unfold shiftOf at h
  split at h <;> first | (injection h with h; subst h; simp) | cases h

theorem incrementTime_months {t : Time} {n : Nat} {f : Str} {k : Nat}
    (h : shiftOf f = some (.months k)) : incrementTime t n f = addMonths t (n * k) := by
  rcases shiftOf_cases h with h | h | h | h | h | h | h | h <;> obtain ⟨h1, h2⟩ := h <;>
    cases h2 <;> subst h1 <;> simp [incrementTime]

/-- days, weeks -/
theorem addMicros_days (t : Time) (hv : ValidTime t) (n : Nat) :
    addMicros t (n * 86400000000) = addDays t n := by
  have := hv.us_lt
  unfold addMicros usPerDay
  have e1 : (t.us + n * 86400000000) % 86400000000 = t.us := by omega
  have e2 : (t.us + n * 86400000000) / 86400000000 = n := by omega
  rw [e1, e2]

theorem incrementTime_micros {t : Time} (hv : ValidTime t) {n : Nat} {f : Str} {k : Nat}
    (h : shiftOf f = some (.micros k)) : incrementTime t n f = addMicros t (n * k) := by
  rcases shiftOf_cases h with h | h | h | h | h | h | h | h <;> obtain ⟨h1, h2⟩ := h <;>
    cases h2 <;> subst h1
  · simp [incrementTime]
  · simp [incrementTime]
  · simp [incrementTime]
  · rw [addMicros_days t hv]; simp [incrementTime]
  · have : n * 604800000000 = (n * 7) * 86400000000 := by omega
    rw [this, addMicros_days t hv]; simp [incrementTime]

theorem nextDay_error' {t : Time} {e : Err} (h : nextDay t = .error e) : e = .overflowError := by
  unfold nextDay at h
  repeat' split at h
  all_goals cases h
  rfl

theorem addDays_error' {t : Time} {n : Nat} {e : Err} (h : addDays t n = .error e) :
    e = .overflowError := by
  induction n generalizing t with
  | zero => cases h
  | succ n ih =>
    simp only [addDays] at h
    cases h1 : nextDay t with
    | error e' => rw [h1] at h; injection h with h; subst h; exact nextDay_error' h1
    | ok t1 => rw [h1] at h; exact ih h

theorem shiftOf_none {t : Time} {n : Nat} {f : Str} :
    shiftOf f = none ↔ incrementTime t n f = .error .invalidTimeFrequency := by
  constructor
  · intro h
    unfold incrementTime
    repeat' split
    all_goals first | rfl | (subst_vars; simp [shiftOf] at h)
  · intro h
    unfold incrementTime addMicros at h
    repeat' split at h
    all_goals
      first
      | (cases (addMonths_error h).1)
      | (cases addDays_error' h)
      | (unfold shiftOf; split <;> simp_all)

/-- success, described by the specification -/
theorem incrementTime_ok {t t' : Time} {n : Nat} {f : Str} (hv : ValidTime t)
    (h : incrementTime t n f = .ok t') :
    ∃ s, shiftOf f = some s ∧ ValidTime t' ∧ IsShifted t n t' s := by
  cases hs : shiftOf f with
  | none => rw [(shiftOf_none (t := t) (n := n)).1 hs] at h; cases h
  | some s =>
    refine ⟨s, rfl, ?_⟩
    cases s with
    | months k =>
      rw [incrementTime_months hs] at h
      exact addMonths_ok hv h
    | micros k =>
      rw [incrementTime_micros hv hs] at h
      exact addMicros_ok hv h

theorem shift_pos {f : Str} {s : Shift} (h : shiftOf f = some s) :
    match s with | .months k => 1 ≤ k | .micros k => 1 ≤ k := by
  rcases shiftOf_cases h with h | h | h | h | h | h | h | h <;> obtain ⟨h1, h2⟩ := h <;>
    subst h2 <;> simp

theorem isShifted_lt {t t' : Time} {n : Nat} {f : Str} {s : Shift} (hs : shiftOf f = some s)
    (hv : ValidTime t) (hv' : ValidTime t') (hn : 1 ≤ n) (h : IsShifted t n t' s) : t < t' := by
  have hp := shift_pos hs
  cases s with
  | months k =>
    have : 1 ≤ n * k := Nat.mul_pos hn hp
    exact lt_of_monthCount hv hv' (by have := h.1; omega)
  | micros k =>
    have : 1 ≤ n * k := Nat.mul_pos hn hp
    rw [lt_iff_instant hv hv']
    have h : instant t' = instant t + n * k := h
    omega

theorem incrementTime_lt {t t' : Time} {n : Nat} {f : Str} (hv : ValidTime t) (hn : 1 ≤ n)
    (h : incrementTime t n f = .ok t') : t < t' := by
  obtain ⟨s, hs, hv', hsh⟩ := incrementTime_ok hv h
  exact isShifted_lt hs hv hv' hn hsh

theorem incrementTime_valid {t t' : Time} {n : Nat} {f : Str} (hv : ValidTime t)
    (h : incrementTime t n f = .ok t') : ValidTime t' := by
  obtain ⟨s, hs, hv', hsh⟩ := incrementTime_ok hv h
  exact hv'

theorem monthCount_injective {a b : Time} (ha : ValidTime a) (hb : ValidTime b)
    (h : monthCount a = monthCount b) : a.year = b.year ∧ a.month = b.month := by
  have := ha.month_pos; have := ha.month_le; have := hb.month_pos; have := hb.month_le
  unfold monthCount at h
  omega

/-- the specification determines the result -/
theorem isShifted_unique {t a b : Time} {n : Nat} {s : Shift} (ha : ValidTime a)
    (hb : ValidTime b) (h1 : IsShifted t n a s) (h2 : IsShifted t n b s) : a = b := by
  cases s with
  | months k =>
    obtain ⟨m1, d1, u1⟩ := h1
    obtain ⟨m2, d2, u2⟩ := h2
    obtain ⟨hy, hm⟩ := monthCount_injective ha hb (by rw [m1, m2])
    cases a; cases b
    simp only at *
    subst hy; subst hm
    simp [d1, d2, u1, u2]
  | micros k =>
    have h1 : instant a = instant t + n * k := h1
    have h2 : instant b = instant t + n * k := h2
    exact instant_injective ha hb (by omega)

theorem dayNumber_last {z u : Nat} (hz : z = 9999) : dayNumber ⟨z, 12, 31, u⟩ = lastDayNumber := by
  have h1 := daysBeforeYear_closed z
  have e : daysBeforeMonth z 12 = 334 := by subst hz; decide
  unfold dayNumber lastDayNumber
  simp only [e]
  omega

theorem instant_last :
    instant ⟨9999, 12, 31, 86399999999⟩ = lastDayNumber * 86400000000 + 86399999999 := by
  have h : dayNumber ⟨9999, 12, 31, 86399999999⟩ = lastDayNumber := dayNumber_last rfl
  unfold instant
  rw [h]

theorem incrementTime_error {t : Time} {n : Nat} {f : Str} {s : Shift} {e : Err}
    (hv : ValidTime t) (hs : shiftOf f = some s) (h : incrementTime t n f = .error e) :
    (e = .valueError ∨ e = .overflowError) ∧ BeyondCalendar t n s := by
  cases s with
  | months k =>
    rw [incrementTime_months hs] at h
    obtain ⟨h1, h2⟩ := addMonths_error h
    exact ⟨.inl h1, by unfold BeyondCalendar; omega⟩
  | micros k =>
    rw [incrementTime_micros hv hs] at h
    obtain ⟨h1, h2⟩ := addMicros_error hv h
    refine ⟨.inr h1, ?_⟩
    unfold BeyondCalendar
    simp only [instant_last]
    omega

theorem beyond_no_result {t t' : Time} {n : Nat} {s : Shift} (hv' : ValidTime t')
    (h : IsShifted t n t' s) : ¬ BeyondCalendar t n s := by
  cases s with
  | months k =>
    have h := h.1
    have := hv'.year_le; have := hv'.month_le
    unfold BeyondCalendar; unfold monthCount at *
    omega
  | micros k =>
    have h : instant t' = instant t + n * k := h
    have h1 := dayNumber_le_last hv'
    have h2 := hv'.us_lt
    unfold BeyondCalendar
    simp only [instant_last]
    rw [← h, instant]
    omega

/-! ### composition -/

theorem addMonths_add {t t' : Time} {a b : Nat} (hv : ValidTime t) (hd : t.day ≤ 28)
    (h : addMonths t a = .ok t') : addMonths t' b = addMonths t (a + b) := by
  obtain ⟨hv', hm, hday, hus⟩ := addMonths_ok hv h
  have hge := monthLength_ge t'.year hv'.month_pos hv'.month_le
  have hdd : t'.day = t.day := by omega
  unfold monthCount at hm
  unfold addMonths
  have e : t'.year * 12 + (t'.month - 1) + b = t.year * 12 + (t.month - 1) + (a + b) := by omega
  simp only [e, hdd, hus]

theorem addMicros_add {t t' : Time} {a b : Nat} (hv : ValidTime t)
    (h : addMicros t a = .ok t') : addMicros t' b = addMicros t (a + b) := by
  obtain ⟨hv', hi⟩ := addMicros_ok hv h
  cases h1 : addMicros t' b with
  | ok x =>
    obtain ⟨hvx, hix⟩ := addMicros_ok hv' h1
    cases h2 : addMicros t (a + b) with
    | ok y =>
      obtain ⟨hvy, hiy⟩ := addMicros_ok hv h2
      exact congrArg _ (instant_injective hvx hvy (by omega))
    | error e =>
      obtain ⟨_, hl⟩ := addMicros_error hv h2
      have := dayNumber_le_last hvx
      have := hvx.us_lt
      unfold instant at hix hi hl
      omega
  | error e =>
    obtain ⟨he, hl⟩ := addMicros_error hv' h1
    cases h2 : addMicros t (a + b) with
    | ok y =>
      obtain ⟨hvy, hiy⟩ := addMicros_ok hv h2
      have := dayNumber_le_last hvy
      have := hvy.us_lt
      unfold instant at hiy hi hl
      omega
    | error e' =>
      obtain ⟨he', _⟩ := addMicros_error hv h2
      rw [he, he']

theorem addMonths_zero {t : Time} (hv : ValidTime t) : addMonths t 0 = .ok t := by
  have := hv.month_pos; have := hv.month_le; have := hv.year_le; have := hv.day_le
  have e1 : (t.year * 12 + (t.month - 1) + 0) / 12 = t.year := by omega
  have e2 : (t.year * 12 + (t.month - 1) + 0) % 12 + 1 = t.month := by omega
  unfold addMonths maxYear
  simp only [e1, e2]
  rw [if_pos (by omega), daysInMonth_eq (by omega) (by omega)]
  rw [Nat.min_eq_left (by omega)]

theorem addMicros_zero {t : Time} (hv : ValidTime t) : addMicros t 0 = .ok t := by
  have := addMicros_days t hv 0
  simpa [addDays] using this

theorem addMonths_error_mono {t : Time} {a b : Nat} {e : Err} (h : addMonths t a = .error e) :
    addMonths t (a + b) = .error e := by
  obtain ⟨he, hl⟩ := addMonths_error h
  cases h2 : addMonths t (a + b) with
  | ok y => have := (addMonths_ok_iff (t := t) (n := a + b)).1 ⟨y, h2⟩; omega
  | error e' => rw [he, (addMonths_error h2).1]

theorem addMicros_error_mono {t : Time} (hv : ValidTime t) {a b : Nat} {e : Err}
    (h : addMicros t a = .error e) : addMicros t (a + b) = .error e := by
  obtain ⟨he, hl⟩ := addMicros_error hv h
  cases h2 : addMicros t (a + b) with
  | ok y =>
    obtain ⟨hvy, hiy⟩ := addMicros_ok hv h2
    have := dayNumber_le_last hvy
    have := hvy.us_lt
    unfold instant at hiy hl
    omega
  | error e' => rw [he, (addMicros_error hv h2).1]

theorem steps_eq {t : Time} {k : Nat} {f : Str} {s : Shift} (hv : ValidTime t)
    (hs : shiftOf f = some s) (hd : t.day ≤ 28 ∨ ∃ m, s = .micros m) :
    steps (fun x => incrementTime x 1 f) k t = incrementTime t k f := by
  cases s with
  | months m =>
    have hd : t.day ≤ 28 := by
      rcases hd with hd | ⟨m', hm⟩
      · exact hd
      · cases hm
    induction k generalizing t with
    | zero =>
      rw [incrementTime_months hs, Nat.zero_mul, addMonths_zero hv]; rfl
    | succ k ih =>
      have e : (k + 1) * m = 1 * m + k * m := by rw [Nat.succ_mul, Nat.one_mul, Nat.add_comm]
      rw [steps, incrementTime_months hs, incrementTime_months hs, e]
      cases h : addMonths t (1 * m) with
      | ok t' =>
        simp only
        obtain ⟨hv', _, hday, _⟩ := addMonths_ok hv h
        have hd' : t'.day ≤ 28 := by omega
        rw [ih hv' (.inl hd') hd', incrementTime_months hs, addMonths_add hv hd h]
      | error e => simp only; rw [addMonths_error_mono h]
  | micros m =>
    induction k generalizing t with
    | zero =>
      rw [incrementTime_micros hv hs, Nat.zero_mul, addMicros_zero hv]; rfl
    | succ k ih =>
      have e : (k + 1) * m = 1 * m + k * m := by rw [Nat.succ_mul, Nat.one_mul, Nat.add_comm]
      rw [steps, incrementTime_micros hv hs, incrementTime_micros hv hs, e]
      cases h : addMicros t (1 * m) with
      | ok t' =>
        simp only
        obtain ⟨hv', _⟩ := addMicros_ok hv h
        rw [ih hv' (.inr ⟨m, rfl⟩), incrementTime_micros hv' hs, addMicros_add hv h]
      | error e => simp only; rw [addMicros_error_mono hv h]

end Xls
