/-
Lemmas about stored data frames.
-/
import Verif.Model.Stored
import Verif.Lemmas.PeriodRange
import Verif.Props.Compare
import Verif.Spec.Result

set_option autoImplicit false

namespace Xls

open Spec

/-! ### Division of time differences -/

theorem le_divTimedelta {us b : Int} {n : Nat} (hn : 0 < n) (h : b * n ≤ us) : b ≤ divTimedelta us n := by
  have h1 : b ≤ us / n := (Int.le_ediv_iff_mul_le (by omega)).2 h
  unfold divTimedelta
  dsimp only
  split <;> omega

theorem divTimedelta_le {us b : Int} {n : Nat} (hn : 0 < n) (h : us ≤ b * n) : divTimedelta us n ≤ b := by
  have hd := Int.mul_ediv_add_emod us n
  have h0 := Int.emod_nonneg us (show (n : Int) ≠ 0 by omega)
  unfold divTimedelta
  dsimp only
  have hb : us / n ≤ b := by
    have := Int.ediv_le_ediv (show (0 : Int) < n by omega) h
    rwa [Int.mul_ediv_cancel b (show (n : Int) ≠ 0 by omega)] at this
  split
  next hs =>
    by_contra hc
    have hq : us / (n : Int) = b := by omega
    rw [hq] at hd
    have : us % (n : Int) ≤ 0 := by
      have e : (n : Int) * b = b * n := Int.mul_comm _ _
      omega
    omega
  next => exact hb

/-! ### Length of months -/

/-- One more day from March on in a leap year. -/
def leapDay (y : Nat) : Nat := if LeapYear y then 1 else 0

theorem leapDay_le (y : Nat) : leapDay y ≤ 1 := by unfold leapDay; split <;> omega

/-- Days before a month in an ordinary year. -/
def monthTable (m : Nat) : Nat := [0, 0, 31, 59, 90, 120, 151, 181, 212, 243, 273, 304, 334].getD m 0

theorem daysBeforeMonth_table (y : Nat) {m : Nat} (h1 : 1 ≤ m) (h2 : m ≤ 12) :
    daysBeforeMonth y m = monthTable m + if 2 < m then leapDay y else 0 := by
  unfold leapDay
  interval_cases m <;> simp [daysBeforeMonth, monthLength, monthTable]
  all_goals (split <;> rfl)

theorem daysBeforeYear_next (y : Nat) : daysBeforeYear (y + 1) = daysBeforeYear y + 365 + leapDay y := by
  rw [daysBeforeYear_succ]
  unfold yearLength leapDay
  split <;> omega

theorem daysBeforeYear_add (y n : Nat) : daysBeforeYear y + 365 * n ≤ daysBeforeYear (y + n) := by
  have h1 := daysBeforeYear_closed y
  have h2 := daysBeforeYear_closed (y + n)
  omega

theorem daysBeforeYear_ge (y n m : Nat) (h : m = y + n + 1) :
    daysBeforeYear y + 365 * (n + 1) + leapDay y ≤ daysBeforeYear m := by
  have h1 := daysBeforeYear_next y
  have h2 := daysBeforeYear_add (y + 1) n
  have e : y + 1 + n = m := by omega
  rw [e, h1] at h2
  omega

theorem daysBeforeYear_upper (y n : Nat) : daysBeforeYear (y + n) ≤ daysBeforeYear y + 365 * n + n / 4 + 1 := by
  have h1 := daysBeforeYear_closed y
  have h2 := daysBeforeYear_closed (y + n)
  omega

/-- What is needed about two first days of months: the years, the months and the number of days between. -/
theorem days_between {a z : Time} {k : Nat} (va : ValidTime a) (vz : ValidTime z) (da : a.day = 1)
    (dz : z.day = 1) (h : monthCount z = monthCount a + k) :
    ∃ Y L la lz : Nat, 12 * Y + z.month = a.month + k ∧ la ≤ 1 ∧ lz ≤ 1 ∧
      (Y = 0 → L = 0 ∧ la = lz) ∧ (1 ≤ Y → la ≤ L) ∧ L ≤ Y / 4 + 1 ∧
      dayNumber z + monthTable a.month + (if 2 < a.month then la else 0) =
        dayNumber a + 365 * Y + L + monthTable z.month + (if 2 < z.month then lz else 0) := by
  have hm := va.month_pos
  have hm' := va.month_le
  have hz := vz.month_pos
  have hz' := vz.month_le
  unfold monthCount at h
  obtain ⟨Y, hY⟩ : ∃ Y, z.year = a.year + Y := ⟨z.year - a.year, by omega⟩
  have e1 := daysBeforeMonth_table a.year hm hm'
  have e2 := daysBeforeMonth_table z.year hz hz'
  have hu := daysBeforeYear_upper a.year Y
  have hge : daysBeforeYear a.year + 365 * Y ≤ daysBeforeYear z.year ∧
      (1 ≤ Y → daysBeforeYear a.year + 365 * Y + leapDay a.year ≤ daysBeforeYear z.year) := by
    cases Y with
    | zero =>
      have e : z.year = a.year := by omega
      rw [e]
      omega
    | succ n =>
      have := daysBeforeYear_ge a.year n z.year (by omega)
      omega
  refine ⟨Y, daysBeforeYear z.year - (daysBeforeYear a.year + 365 * Y), leapDay a.year, leapDay z.year,
    by omega, leapDay_le _, leapDay_le _, ?_, ?_, ?_, ?_⟩
  · rintro rfl
    rw [Nat.add_zero] at hY
    rw [hY]
    omega
  · intro h1
    have := hge.2 h1
    omega
  · rw [hY]; omega
  · unfold dayNumber
    rw [e1, e2, da, dz]
    omega

/-- From 7 months on the average is near enough to 28 days. -/
theorem months_average {a z : Time} {k : Nat} (va : ValidTime a) (vz : ValidTime z) (da : a.day = 1)
    (dz : z.day = 1) (h : monthCount z = monthCount a + k) (hk : 6 ≤ k) :
    252 * (k + 1) + 10 * dayNumber a ≤ 10 * dayNumber z ∧
      10 * dayNumber z ≤ 308 * (k + 1) + 10 * dayNumber a := by
  obtain ⟨Y, L, la, lz, h1, h2, h3, h4, h5, h6, h7⟩ := days_between va vz da dz h
  have m1 := va.month_pos
  have m2 := va.month_le
  have m3 := vz.month_pos
  have m4 := vz.month_le
  generalize a.month = ma at *
  generalize z.month = mz at *
  interval_cases ma <;> interval_cases mz <;> simp [monthTable] at h7 <;> omega

/-- From 9 quarters on the average is near enough to 90 days. -/
theorem quarters_average {a z : Time} {j : Nat} (va : ValidTime a) (vz : ValidTime z)
    (qa : (a.month = 1 ∨ a.month = 4 ∨ a.month = 7 ∨ a.month = 10) ∧ a.day = 1)
    (qz : (z.month = 1 ∨ z.month = 4 ∨ z.month = 7 ∨ z.month = 10) ∧ z.day = 1)
    (h : monthCount z = monthCount a + j * 3) (hj : 8 ≤ j) :
    81 * (j + 1) + dayNumber a ≤ dayNumber z ∧ dayNumber z ≤ 99 * (j + 1) + dayNumber a := by
  obtain ⟨Y, L, la, lz, h1, h2, h3, h4, h5, h6, h7⟩ := days_between va vz qa.2 qz.2 h
  rcases qa.1 with e | e | e | e <;> rcases qz.1 with e' | e' | e' | e' <;> rw [e, e'] at h7 h1 <;>
    simp [monthTable] at h7 <;> omega

/-- From 10 years on the average is near enough to 365 days. -/
theorem years_average {a z : Time} {j : Nat} (va : ValidTime a) (vz : ValidTime z)
    (qa : a.month = 1 ∧ a.day = 1) (qz : z.month = 1 ∧ z.day = 1)
    (h : monthCount z = monthCount a + j * 12) (hj : 9 ≤ j) :
    3285 * (j + 1) + 10 * dayNumber a ≤ 10 * dayNumber z ∧
      10 * dayNumber z ≤ 4015 * (j + 1) + 10 * dayNumber a := by
  obtain ⟨Y, L, la, lz, h1, h2, h3, h4, h5, h6, h7⟩ := days_between va vz qa.2 qz.2 h
  rw [qa.1, qz.1] at h7 h1
  simp [monthTable] at h7
  omega

/-! ### Runs of periods -/

theorem run_months {f : Str} {k : Nat} (hf : periodShift f = some (.months k)) :
    ∀ {t : Time} {ts : List Time} {z : Time}, PeriodRun f (t :: ts) → (t :: ts).getLast? = some z →
      monthCount z = monthCount t + ts.length * k ∧ z.us = t.us
  | t, [], z, _, h => by
    simp only [List.getLast?_singleton, Option.some.injEq] at h
    subst h
    simp
  | t, u :: us, z, hr, h => by
    obtain ⟨⟨sh, h1, h2⟩, h3⟩ := hr
    have hl : (u :: us).getLast? = some z := by rw [← h, List.getLast?_cons_cons]
    obtain ⟨e1, e2⟩ := run_months hf h3 hl
    rw [hf] at h1
    cases h1
    obtain ⟨i1, _, i3⟩ := h2
    refine ⟨?_, e2.trans i3⟩
    rw [e1, i1, List.length_cons, Nat.add_mul]
    omega

theorem run_micros {f : Str} {k : Nat} (hf : periodShift f = some (.micros k)) :
    ∀ {t : Time} {ts : List Time} {z : Time}, PeriodRun f (t :: ts) → (t :: ts).getLast? = some z →
      instant z = instant t + ts.length * k
  | t, [], z, _, h => by
    simp only [List.getLast?_singleton, Option.some.injEq] at h
    subst h
    simp
  | t, u :: us, z, hr, h => by
    obtain ⟨⟨sh, h1, h2⟩, h3⟩ := hr
    have hl : (u :: us).getLast? = some z := by rw [← h, List.getLast?_cons_cons]
    have e1 := run_micros hf h3 hl
    rw [hf] at h1
    cases h1
    have h2 : instant u = instant t + 1 * k := h2
    rw [e1, h2, List.length_cons, Nat.add_mul]
    omega

theorem elapsed_instant {a z : Time} (va : ValidTime a) (vz : ValidTime z) :
    elapsed a z = (instant z : Int) - (instant a : Int) := by
  have h1 := toOrdinal_eq va
  have h2 := toOrdinal_eq vz
  unfold elapsed instant
  push_cast
  omega

/-- The frequency that is inferred from an average near enough to a nominal one. -/
theorem inferFreq_near {us : Int} {n : Nat} {freq : Str} {s : Nat} (hn : 0 < n) (hs : 0 < s)
    (hf : (freq, (s : Rat)) ∈ namedSpacings) (h1 : 900000 * (s : Int) * n ≤ us)
    (h2 : us ≤ 1100000 * (s : Int) * n) :
    inferFreq (.float (.fin ((divTimedelta us n : Rat) / 1000000))) = .ok freq := by
  have k1 := le_divTimedelta hn h1
  have k2 := divTimedelta_le hn h2
  have k1' : (900000 * (s : Rat)) ≤ (divTimedelta us n : Rat) := by exact_mod_cast k1
  have k2' : (divTimedelta us n : Rat) ≤ (1100000 * (s : Rat)) := by exact_mod_cast k2
  have hs' : (0 : Rat) < s := by exact_mod_cast hs
  refine (C73_classified (x := (divTimedelta us n : Rat) / 1000000) ?_ ?_ freq).2 ⟨s, hf, ?_⟩
  · exact .float _
  · intro h
    have : (divTimedelta us n : Rat) = 0 := by
      field_simp at h
      simpa using h
    rw [this] at k1'
    linarith
  · rw [abs_le]
    constructor
    · have : (divTimedelta us n : Rat) / 1000000 ≤ 11 / 10 * s := by
        rw [div_le_iff₀ (by norm_num)]; linarith
      linarith
    · have : 9 / 10 * (s : Rat) ≤ (divTimedelta us n : Rat) / 1000000 := by
        rw [le_div_iff₀ (by norm_num)]; linarith
      linarith

end Xls
