/-
Lemmas on the calendar.
-/
import Verif.Spec.Calendar
import Mathlib.Tactic.IntervalCases

set_option autoImplicit false

namespace Xls
open Spec

theorem isLeap_iff (y : Nat) : isLeap y = true ↔ LeapYear y := by
  unfold isLeap LeapYear
  simp only [Bool.and_eq_true, beq_iff_eq, Bool.or_eq_true, bne_iff_ne, ne_eq]
  omega

theorem daysInMonth_eq {y m : Nat} (h1 : 1 ≤ m) (h2 : m ≤ 12) :
    daysInMonth y m = monthLength y m := by
  interval_cases m <;> simp [daysInMonth, monthLength, isLeap_iff]

theorem monthLength_le (y m : Nat) : monthLength y m ≤ 31 := by
  unfold monthLength
  split <;> (try split) <;> omega

theorem monthLength_ge (y : Nat) {m : Nat} (h1 : 1 ≤ m) (h2 : m ≤ 12) :
    28 ≤ monthLength y m := by
  interval_cases m <;> simp only [monthLength] <;> (try split) <;> omega

theorem daysBeforeMonth_13 (y : Nat) : daysBeforeMonth y 13 = yearLength y := by
  simp only [daysBeforeMonth, monthLength, yearLength]
  split <;> rfl

theorem daysBeforeMonth_mono (y : Nat) {m m' : Nat} (h : m ≤ m') :
    daysBeforeMonth y m ≤ daysBeforeMonth y m' := by
  induction h with
  | refl => exact Nat.le_refl _
  | step _ ih => exact Nat.le_trans ih (Nat.le_add_right _ _)

theorem daysBeforeYear_mono {y y' : Nat} (h : y ≤ y') :
    daysBeforeYear y ≤ daysBeforeYear y' := by
  induction h with
  | refl => exact Nat.le_refl _
  | step _ ih => exact Nat.le_trans ih (Nat.le_add_right _ _)

/-- day of year is at most the length of the year -/
theorem dayOfYear_le {t : Time} (h : ValidTime t) :
    daysBeforeMonth t.year t.month + t.day ≤ yearLength t.year := by
  have h1 : daysBeforeMonth t.year (t.month + 1) ≤ daysBeforeMonth t.year 13 :=
    daysBeforeMonth_mono _ (by have := h.month_le; omega)
  rw [daysBeforeMonth_13] at h1
  have h2 : daysBeforeMonth t.year (t.month + 1) =
      daysBeforeMonth t.year t.month + monthLength t.year t.month := rfl
  have := h.day_le
  omega

theorem dayNumber_lt_of_year {a b : Time} (ha : ValidTime a) (hb : ValidTime b)
    (h : a.year < b.year) : dayNumber a < dayNumber b := by
  have h1 := dayOfYear_le ha
  have h2 : daysBeforeYear (a.year + 1) ≤ daysBeforeYear b.year := daysBeforeYear_mono h
  have h3 : daysBeforeYear (a.year + 1) = daysBeforeYear a.year + yearLength a.year := rfl
  have := hb.day_pos
  unfold dayNumber
  omega

theorem dayNumber_lt_of_month {a b : Time} (ha : ValidTime a) (hb : ValidTime b)
    (hy : a.year = b.year) (h : a.month < b.month) : dayNumber a < dayNumber b := by
  have h2 : daysBeforeMonth a.year (a.month + 1) ≤ daysBeforeMonth a.year b.month :=
    daysBeforeMonth_mono _ h
  have h3 : daysBeforeMonth a.year (a.month + 1) =
      daysBeforeMonth a.year a.month + monthLength a.year a.month := rfl
  have := hb.day_pos
  have := ha.day_le
  unfold dayNumber
  rw [← hy]
  omega

theorem instant_lt_of_lt {a b : Time} (ha : ValidTime a) (hb : ValidTime b) (h : a < b) :
    instant a < instant b := by
  have h : Time.lt a b := h
  unfold Time.lt at h
  have hua := ha.us_lt
  have key : dayNumber a < dayNumber b → instant a < instant b := by
    intro h; unfold instant; omega
  rcases h with h | ⟨hy, h⟩
  · exact key (dayNumber_lt_of_year ha hb h)
  rcases h with h | ⟨hm, h⟩
  · exact key (dayNumber_lt_of_month ha hb hy h)
  rcases h with h | ⟨hd, h⟩
  · apply key; unfold dayNumber; rw [hy, hm]; omega
  · unfold instant dayNumber; rw [hy, hm, hd]; omega

theorem Time.lt_trichotomy (a b : Time) : a < b ∨ a = b ∨ b < a := by
  have e : ∀ x y : Time, (x < y) = Time.lt x y := fun _ _ => rfl
  rw [e, e]; unfold Time.lt
  by_cases hy : a.year = b.year
  · by_cases hm : a.month = b.month
    · by_cases hd : a.day = b.day
      · by_cases hu : a.us = b.us
        · right; left; cases a; cases b; simp_all
        · omega
      · omega
    · omega
  · omega

theorem Time.lt_irrefl (a : Time) : ¬ a < a := by
  intro h; have h : Time.lt a a := h; unfold Time.lt at h; omega

theorem Time.lt_trans {a b c : Time} (h1 : a < b) (h2 : b < c) : a < c := by
  have h1 : Time.lt a b := h1
  have h2 : Time.lt b c := h2
  change Time.lt a c
  unfold Time.lt at *; omega

theorem Time.lt_asymm {a b : Time} (h1 : a < b) : ¬ b < a := fun h2 =>
  Time.lt_irrefl a (Time.lt_trans h1 h2)

/-- The field-wise comparison of date-times is the comparison of instants. -/
theorem lt_iff_instant {a b : Time} (ha : ValidTime a) (hb : ValidTime b) :
    a < b ↔ instant a < instant b := by
  refine ⟨instant_lt_of_lt ha hb, fun h => ?_⟩
  rcases Time.lt_trichotomy a b with h' | h' | h'
  · exact h'
  · subst h'; omega
  · have := instant_lt_of_lt hb ha h'; omega

theorem instant_injective {a b : Time} (ha : ValidTime a) (hb : ValidTime b)
    (h : instant a = instant b) : a = b := by
  rcases Time.lt_trichotomy a b with h' | h' | h'
  · have := instant_lt_of_lt ha hb h'; omega
  · exact h'
  · have := instant_lt_of_lt hb ha h'; omega

/-! ### months -/

theorem monthCount_eq {y m d u : Nat} : monthCount ⟨y, m, d, u⟩ = y * 12 + (m - 1) := rfl

theorem addMonths_ok {t t' : Time} {n : Nat} (hv : ValidTime t) (h : addMonths t n = .ok t') :
    ValidTime t' ∧ monthCount t' = monthCount t + n ∧
    t'.day = min t.day (monthLength t'.year t'.month) ∧ t'.us = t.us := by
  obtain ⟨y1, y2, m1, m2, d1, d2, u⟩ := hv
  unfold addMonths at h
  simp only at h
  split at h
  case isFalse => cases h
  case isTrue hy =>
    injection h with h
    subst h
    unfold maxYear at hy
    have hm1 : 1 ≤ (t.year * 12 + (t.month - 1) + n) % 12 + 1 := by omega
    have hm2 : (t.year * 12 + (t.month - 1) + n) % 12 + 1 ≤ 12 := by omega
    have hge := monthLength_ge ((t.year * 12 + (t.month - 1) + n) / 12) hm1 hm2
    have hd := daysInMonth_eq (y := (t.year * 12 + (t.month - 1) + n) / 12) hm1 hm2
    refine ⟨⟨?_, hy, hm1, hm2, ?_, ?_, u⟩, ?_, ?_, rfl⟩
    · simp only; omega
    · simp only [hd]; omega
    · simp only [hd]; omega
    · unfold monthCount; simp only; omega
    · simp only [hd]

theorem addMonths_error {t : Time} {n : Nat} {e : Err} (h : addMonths t n = .error e) :
    e = .valueError ∧ 12 * 10000 ≤ monthCount t + n := by
  unfold addMonths maxYear at h
  simp only at h
  split at h
  · cases h
  · injection h with h
    unfold monthCount
    exact ⟨h.symm, by omega⟩

theorem addMonths_ok_iff {t : Time} {n : Nat} :
    (∃ t', addMonths t n = .ok t') ↔ monthCount t + n < 12 * 10000 := by
  unfold addMonths maxYear monthCount
  simp only
  split
  · simp; omega
  · simp; omega

/-! ### days -/

theorem nextDay_ok {t t' : Time} (hv : ValidTime t) (h : nextDay t = .ok t') :
    ValidTime t' ∧ dayNumber t' = dayNumber t + 1 ∧ t'.us = t.us := by
  obtain ⟨y1, y2, m1, m2, d1, d2, u⟩ := hv
  have hd := daysInMonth_eq (y := t.year) m1 m2
  unfold nextDay at h
  rw [hd] at h
  split at h
  case isTrue h1 =>
    injection h with h; subst h
    refine ⟨⟨y1, y2, m1, m2, ?_, ?_, u⟩, ?_, rfl⟩ <;> simp only [dayNumber] <;> omega
  case isFalse h1 =>
    split at h
    case isTrue h2 =>
      injection h with h; subst h
      have hge := monthLength_ge t.year (m := t.month + 1) (by omega) (by omega)
      refine ⟨⟨y1, y2, ?_, ?_, ?_, ?_, u⟩, ?_, rfl⟩ <;>
        simp only [dayNumber, daysBeforeMonth] <;> omega
    case isFalse h2 =>
      split at h
      case isTrue h3 =>
        injection h with h; subst h
        unfold maxYear at h3
        have hm : t.month = 12 := by omega
        have h13 := daysBeforeMonth_13 t.year
        have e12 : daysBeforeMonth t.year 13 = daysBeforeMonth t.year 12 + monthLength t.year 12 :=
          rfl
        have e1 : daysBeforeMonth (t.year + 1) 1 = 0 := rfl
        refine ⟨⟨?_, ?_, ?_, ?_, ?_, ?_, u⟩, ?_, rfl⟩
        · simp only; omega
        · simp only; omega
        · simp only; omega
        · simp only; omega
        · simp only; omega
        · simp [monthLength]
        · have hle : t.day = monthLength t.year 12 := by rw [hm] at d2 h1; omega
          simp only [dayNumber, daysBeforeYear, e1, hm, hle]
          omega
      case isFalse h3 => cases h

theorem daysBeforeYear_succ (y : Nat) :
    daysBeforeYear (y + 1) = daysBeforeYear y + yearLength y := rfl

theorem daysBeforeYear_closed (y : Nat) :
    daysBeforeYear y + (y + 99) / 100 = 365 * y + (y + 3) / 4 + (y + 399) / 400 := by
  induction y with
  | zero => rfl
  | succ y ih =>
    rw [daysBeforeYear_succ, yearLength]
    have e : LeapYear y ↔ (y % 4 = 0 ∧ (¬ y % 100 = 0 ∨ y % 400 = 0)) := by
      unfold LeapYear; omega
    by_cases h : LeapYear y
    · rw [if_pos h]; rw [e] at h; omega
    · rw [if_neg h]; rw [e] at h; omega

/-- Number of the last representable day, 31 December 9999. -/
def lastDayNumber : Nat := 3652425

theorem lastDayNumber_eq {z : Nat} (hz : z = 9999) :
    lastDayNumber = daysBeforeYear (z + 1) := by
  have := daysBeforeYear_closed (z + 1)
  subst hz
  unfold lastDayNumber
  omega

theorem dayNumber_le_last {t : Time} (hv : ValidTime t) : dayNumber t ≤ lastDayNumber := by
  have h1 := dayOfYear_le hv
  obtain ⟨z, hz⟩ : ∃ z, z = 9999 := ⟨_, rfl⟩
  have h2 : daysBeforeYear (t.year + 1) ≤ daysBeforeYear (z + 1) :=
    daysBeforeYear_mono (by have := hv.year_le; omega)
  rw [← lastDayNumber_eq hz] at h2
  have h3 : daysBeforeYear (t.year + 1) = daysBeforeYear t.year + yearLength t.year := rfl
  unfold dayNumber
  omega

theorem nextDay_error {t : Time} {e : Err} (hv : ValidTime t) (h : nextDay t = .error e) :
    e = .overflowError ∧ dayNumber t = lastDayNumber := by
  obtain ⟨y1, y2, m1, m2, d1, d2, u⟩ := hv
  have hd := daysInMonth_eq (y := t.year) m1 m2
  unfold nextDay at h
  rw [hd] at h
  split at h
  · cases h
  · split at h
    · cases h
    · split at h
      · cases h
      · next h1 h2 h3 =>
        injection h with h
        refine ⟨h.symm, ?_⟩
        unfold maxYear at h3
        have hm : t.month = 12 := by omega
        have hy : t.year = 9999 := by omega
        have h13 := daysBeforeMonth_13 t.year
        have e12 : daysBeforeMonth t.year 13 =
          daysBeforeMonth t.year 12 + monthLength t.year 12 := rfl
        have hle : t.day = monthLength t.year 12 := by rw [hm] at d2 h1; omega
        have hlast := lastDayNumber_eq hy
        rw [daysBeforeYear_succ] at hlast
        unfold dayNumber
        rw [hle, hm]
        omega

theorem addDays_ok {n : Nat} {t t' : Time} (hv : ValidTime t) (h : addDays t n = .ok t') :
    ValidTime t' ∧ dayNumber t' = dayNumber t + n ∧ t'.us = t.us := by
  induction n generalizing t with
  | zero => simp only [addDays] at h; injection h with h; subst h; exact ⟨hv, rfl, rfl⟩
  | succ n ih =>
    simp only [addDays] at h
    cases h1 : nextDay t with
    | error e => rw [h1] at h; cases h
    | ok t1 =>
      rw [h1] at h
      obtain ⟨hv1, hn1, hu1⟩ := nextDay_ok hv h1
      obtain ⟨hv2, hn2, hu2⟩ := ih hv1 h
      exact ⟨hv2, by omega, by rw [hu2, hu1]⟩

theorem addDays_error {n : Nat} {t : Time} {e : Err} (hv : ValidTime t)
    (h : addDays t n = .error e) : e = .overflowError ∧ lastDayNumber < dayNumber t + n := by
  induction n generalizing t with
  | zero => cases h
  | succ n ih =>
    simp only [addDays] at h
    cases h1 : nextDay t with
    | error e' =>
      rw [h1] at h
      injection h with h; subst h
      obtain ⟨he, hn⟩ := nextDay_error hv h1
      exact ⟨he, by omega⟩
    | ok t1 =>
      rw [h1] at h
      obtain ⟨hv1, hn1, _⟩ := nextDay_ok hv h1
      obtain ⟨he, hl⟩ := ih hv1 h
      exact ⟨he, by omega⟩

theorem addDays_add (t : Time) (a b : Nat) :
    addDays t (a + b) =
      match addDays t a with
      | .ok t' => addDays t' b
      | .error e => .error e := by
  induction a generalizing t with
  | zero => simp [addDays]
  | succ a ih =>
    rw [Nat.succ_add]
    simp only [addDays]
    cases nextDay t with
    | ok t1 => simp only [ih]
    | error e => rfl

theorem validTime_us {t : Time} (hv : ValidTime t) {u : Nat} (hu : u < 86400000000) :
    ValidTime { t with us := u } := by
  obtain ⟨y1, y2, m1, m2, d1, d2, _⟩ := hv
  exact ⟨y1, y2, m1, m2, d1, d2, hu⟩

theorem addMicros_ok {n : Nat} {t t' : Time} (hv : ValidTime t) (h : addMicros t n = .ok t') :
    ValidTime t' ∧ instant t' = instant t + n := by
  unfold addMicros usPerDay at h
  have hv' : ValidTime { t with us := (t.us + n) % 86400000000 } := validTime_us hv (by omega)
  obtain ⟨hv2, hn, hu⟩ := addDays_ok hv' h
  refine ⟨hv2, ?_⟩
  unfold instant
  rw [hn, hu]
  have e : dayNumber { t with us := (t.us + n) % 86400000000 } = dayNumber t := rfl
  rw [e]
  simp only
  omega

theorem addMicros_error {n : Nat} {t : Time} {e : Err} (hv : ValidTime t)
    (h : addMicros t n = .error e) :
    e = .overflowError ∧ (lastDayNumber + 1) * 86400000000 ≤ instant t + n := by
  unfold addMicros usPerDay at h
  have hv' : ValidTime { t with us := (t.us + n) % 86400000000 } := validTime_us hv (by omega)
  obtain ⟨he, hl⟩ := addDays_error hv' h
  refine ⟨he, ?_⟩
  have e : dayNumber { t with us := (t.us + n) % 86400000000 } = dayNumber t := rfl
  rw [e] at hl
  unfold instant
  omega

theorem lt_of_monthCount {a b : Time} (ha : ValidTime a) (hb : ValidTime b)
    (h : monthCount a < monthCount b) : a < b := by
  have h1 := ha.month_pos
  have h2 := ha.month_le
  have h3 := hb.month_pos
  have h4 := hb.month_le
  change Time.lt a b
  unfold Time.lt
  unfold monthCount at h
  omega

end Xls
