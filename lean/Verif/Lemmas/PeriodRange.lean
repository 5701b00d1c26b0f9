/-
Lemmas about `pandas.date_range`.
-/
import Verif.Model.PeriodRange
import Verif.Spec.Periods
import Verif.Lemmas.Increment

set_option autoImplicit false

namespace Xls

open Spec

theorem dayOfYearBefore_eq (y : Nat) {m : Nat} (h1 : 1 ≤ m) (h2 : m ≤ 12) :
    dayOfYearBefore y m = daysBeforeMonth y m := by
  interval_cases m <;>
    simp [dayOfYearBefore, daysBeforeMonth, daysInMonth, monthLength, isLeap_iff]

theorem toOrdinal_eq {t : Time} (hv : ValidTime t) : toOrdinal t + 366 = dayNumber t := by
  have h := dayOfYearBefore_eq t.year hv.month_pos hv.month_le
  obtain ⟨y, hy⟩ : ∃ y, t.year = y + 1 := ⟨t.year - 1, by have := hv.year_pos; omega⟩
  have hc := daysBeforeYear_closed (y + 1)
  unfold toOrdinal dayNumber
  rw [h, hy]
  rw [hy] at h
  simp only [Nat.add_sub_cancel]
  omega

theorem sunday_eq : dayNumber ⟨1, 1, 7, 0⟩ = 373 := rfl

/-- The offset of the periods of a frequency. -/
def offsetFor : Str → Offset
  | ['A'] | ['Y'] => .months 12 12
  | ['S'] => .months 1 6
  | ['Q'] => .months 3 3
  | ['M'] => .months 1 1
  | ['W'] => .week
  | _ => .day

theorem periodShift_cases {f : Str} {sh : Shift} (h : periodShift f = some sh) :
    (f = ['A'] ∧ sh = .months 12) ∨ (f = ['Y'] ∧ sh = .months 12) ∨ (f = ['S'] ∧ sh = .months 6) ∨
    (f = ['Q'] ∧ sh = .months 3) ∨ (f = ['M'] ∧ sh = .months 1) ∨
    (f = ['W'] ∧ sh = .micros 604800000000) ∨ (f = ['D'] ∧ sh = .micros 86400000000) := by
  unfold periodShift at h
  split at h <;> simp_all

theorem toOffset_convert {f : Str} {sh : Shift} (h : periodShift f = some sh) :
    toOffset (convertFreq f) = .ok (indexFreq f, offsetFor f) := by
  rcases periodShift_cases h with h | h | h | h | h | h | h <;> obtain ⟨rfl, _⟩ := h <;> rfl

theorem addMonths_of_shifted {a b : Time} {k : Nat} (ha : ValidTime a) (hb : ValidTime b)
    (h : IsShifted a 1 b (.months k)) : addMonths a k = .ok b := by
  obtain ⟨h1, h2, h3⟩ := h
  have hlt : monthCount a + k < 12 * 10000 := by
    have := hb.year_le
    have := hb.month_le
    unfold monthCount at h1 ⊢
    omega
  obtain ⟨c, hc⟩ := addMonths_ok_iff.2 hlt
  obtain ⟨v, e1, e2, e3⟩ := addMonths_ok ha hc
  have e4 : monthCount c = monthCount b := by omega
  have hy : c.year = b.year ∧ c.month = b.month := by
    have := v.month_pos
    have := v.month_le
    have := hb.month_pos
    have := hb.month_le
    unfold monthCount at e4
    omega
  have hd : c.day = b.day := by rw [e2, h2, hy.1, hy.2]
  have hu : c.us = b.us := by rw [e3, h3]
  rw [hc]
  congr 1
  cases c; cases b; simp_all

theorem addDays_of_shifted {a b : Time} {n : Nat} (ha : ValidTime a) (hb : ValidTime b)
    (h : instant b = instant a + n * 86400000000) : addDays a n = .ok b := by
  cases hc : addDays a n with
  | error e =>
    have := (addDays_error ha hc).2
    have h2 := dayNumber_le_last hb
    have h3 := hb.us_lt
    unfold instant at h
    omega
  | ok c =>
    obtain ⟨v, e1, e2⟩ := addDays_ok ha hc
    have he : instant c = instant b := by
      simp only [instant] at h ⊢
      rw [e1, e2, Nat.add_mul, h, Nat.add_right_comm]
    rw [instant_injective v hb he]

/-- One period later is one step of the offset later. -/
theorem next_of_shifted {f : Str} {sh : Shift} {a b : Time} (hf : periodShift f = some sh)
    (ha : ValidTime a) (hb : ValidTime b) (h : IsShifted a 1 b sh) :
    (offsetFor f).next a = .ok b := by
  rcases periodShift_cases hf with hc | hc | hc | hc | hc | hc | hc <;> obtain ⟨rfl, rfl⟩ := hc
  · exact addMonths_of_shifted ha hb h
  · exact addMonths_of_shifted ha hb h
  · exact addMonths_of_shifted ha hb h
  · exact addMonths_of_shifted ha hb h
  · exact addMonths_of_shifted ha hb h
  · simp only [IsShifted] at h
    exact addDays_of_shifted ha hb (n := 7) (by omega)
  · simp only [IsShifted] at h
    exact addDays_of_shifted ha hb (n := 1) h

theorem on_of_start {f : Str} {t : Time} (hv : ValidTime t) (h : PeriodStart f t) :
    (offsetFor f).on t = true := by
  unfold PeriodStart at h
  split at h
  · simp [offsetFor, Offset.on, h.1, h.2]
  · simp [offsetFor, Offset.on, h.1, h.2]
  · simp [offsetFor, Offset.on, h, Nat.mod_one]
  · obtain ⟨h1, h2⟩ := h
    rcases h1 with h1 | h1 | h1 | h1 <;> simp [offsetFor, Offset.on, h1, h2]
  · simp [offsetFor, Offset.on, h, Nat.mod_one]
  · have := toOrdinal_eq hv
    rw [sunday_eq] at h
    simp only [offsetFor, Offset.on, beq_iff_eq]
    omega
  · rfl
  · exact h.elim

theorem start_of_shifted {f : Str} {sh : Shift} {a b : Time} (hf : periodShift f = some sh)
    (ha : ValidTime a) (hb : ValidTime b) (h : IsShifted a 1 b sh) (hs : PeriodStart f a) :
    PeriodStart f b := by
  have m1 := ha.month_pos
  have m2 := ha.month_le
  have m3 := hb.month_pos
  have m4 := hb.month_le
  have ml := monthLength_ge b.year m3 m4
  rcases periodShift_cases hf with hc | hc | hc | hc | hc | hc | hc <;> obtain ⟨rfl, rfl⟩ := hc <;>
    simp only [PeriodStart, IsShifted, monthCount] at hs h ⊢
  · omega
  · omega
  · omega
  · omega
  · omega
  · have := ha.us_lt
    have := hb.us_lt
    rw [sunday_eq] at hs ⊢
    unfold instant at h
    omega

theorem lt_of_shifted {f : Str} {sh : Shift} {a b : Time} (hf : periodShift f = some sh)
    (ha : ValidTime a) (hb : ValidTime b) (h : IsShifted a 1 b sh) : a < b ∧ a.us = b.us := by
  have hmon : ∀ k, 0 < k → IsShifted a 1 b (.months k) → a < b ∧ a.us = b.us := by
    intro k hk h
    simp only [IsShifted] at h
    exact ⟨lt_of_monthCount ha hb (by omega), h.2.2.symm⟩
  have hday : ∀ n, 0 < n → instant b = instant a + n * 86400000000 → a < b ∧ a.us = b.us := by
    intro n hn h
    refine ⟨(lt_iff_instant ha hb).2 (by omega), ?_⟩
    have := ha.us_lt
    have := hb.us_lt
    unfold instant at h
    omega
  rcases periodShift_cases hf with hc | hc | hc | hc | hc | hc | hc <;> obtain ⟨rfl, rfl⟩ := hc
  · exact hmon _ (by omega) h
  · exact hmon _ (by omega) h
  · exact hmon _ (by omega) h
  · exact hmon _ (by omega) h
  · exact hmon _ (by omega) h
  · simp only [IsShifted] at h
    exact hday 7 (by omega) (by omega)
  · simp only [IsShifted] at h
    exact hday 1 (by omega) h

theorem dayIndex_lt {a b : Time} (ha : ValidTime a) (hb : ValidTime b) (h : a < b)
    (hu : a.us = b.us) : dayIndex a < dayIndex b := by
  have h : Time.lt a b := h
  unfold Time.lt at h
  unfold dayIndex
  have := ha.day_le
  have := monthLength_le a.year a.month
  have := ha.month_le
  have := hb.day_pos
  have := hb.month_pos
  omega

theorem le_of_lt {a b : Time} (h : a < b) : a ≤ b := Time.lt_asymm h

/-- A run of periods is strictly increasing: its last element is the largest. -/
theorem run_le_last {f : Str} : ∀ {t : Time} {ts : List Time} {z : Time},
    (∀ u ∈ t :: ts, ValidTime u) → PeriodRun f (t :: ts) → (t :: ts).getLast? = some z →
    (t = z ∨ t < z) ∧ t.us = z.us
  | t, [], z, _, _, h => by
    simp only [List.getLast?_singleton, Option.some.injEq] at h
    exact ⟨.inl h, by rw [h]⟩
  | t, u :: us, z, hv, hr, h => by
    obtain ⟨⟨sh, h1, h2⟩, h3⟩ := hr
    have hl : (u :: us).getLast? = some z := by rw [← h, List.getLast?_cons_cons]
    have ih := run_le_last (fun x hx => hv x (List.mem_cons_of_mem _ hx)) h3 hl
    obtain ⟨h4, h5⟩ := lt_of_shifted h1 (hv t (by simp)) (hv u (by simp)) h2
    refine ⟨.inr ?_, h5.trans ih.2⟩
    rcases ih.1 with e | e
    · rw [← e]; exact h4
    · exact Time.lt_trans h4 e

theorem getLast?_mem' {α : Type} {l : List α} {z : α} (h : l.getLast? = some z) : z ∈ l :=
  List.mem_of_getLast? h

/-- From the start of a run of periods to its last one, `generate_range` gives the run. -/
theorem rangeFrom_run {f : Str} {z z' : Time} (hz : (offsetFor f).next z = .ok z') (hzz : z < z') :
    ∀ {ts : List Time} {t : Time} {fuel : Nat}, (∀ u ∈ t :: ts, ValidTime u) →
    PeriodRun f (t :: ts) → (t :: ts).getLast? = some z → dayIndex z + 1 - dayIndex t ≤ fuel →
    rangeFrom (offsetFor f) z fuel t = .ok (t :: ts)
  | [], t, fuel, hv, _, hl, hfuel => by
    simp only [List.getLast?_singleton, Option.some.injEq] at hl
    subst hl
    obtain ⟨k, rfl⟩ : ∃ k, fuel = k + 1 := ⟨fuel - 1, by omega⟩
    have hn : ¬ z' ≤ t := fun h => h hzz
    have h0 : rangeFrom (offsetFor f) t k z' = .ok [] := by
      cases k with
      | zero => rfl
      | succ k => rw [rangeFrom, if_neg hn]
    rw [rangeFrom, if_pos (show t ≤ t from Time.lt_irrefl t), hz]
    dsimp only
    rw [h0]
  | u :: us, t, fuel, hv, hr, hl, hfuel => by
    have hle := run_le_last hv hr hl
    obtain ⟨⟨sh, h1, h2⟩, h3⟩ := hr
    have hl' : (u :: us).getLast? = some z := by rw [← hl, List.getLast?_cons_cons]
    have hv' : ∀ x ∈ u :: us, ValidTime x := fun x hx => hv x (List.mem_cons_of_mem _ hx)
    have hlt := lt_of_shifted h1 (hv t (by simp)) (hv u (by simp)) h2
    have hle' := run_le_last hv' h3 hl'
    have hd := dayIndex_lt (hv t (by simp)) (hv u (by simp)) hlt.1 hlt.2
    have hdz : dayIndex u ≤ dayIndex z := by
      rcases hle'.1 with e | e
      · rw [e]
      · exact Nat.le_of_lt (dayIndex_lt (hv' u (by simp)) (hv' z (getLast?_mem' hl')) e hle'.2)
    obtain ⟨k, rfl⟩ : ∃ k, fuel = k + 1 := ⟨fuel - 1, by omega⟩
    have ht : t ≤ z := by
      rcases hle.1 with e | e
      · rw [e]; exact Time.lt_irrefl z
      · exact le_of_lt e
    rw [rangeFrom, if_pos ht, next_of_shifted h1 (hv t (by simp)) (hv u (by simp)) h2]
    dsimp only
    rw [rangeFrom_run hz hzz hv' h3 hl' (by omega)]

theorem next_exists {f : Str} {sh : Shift} {z : Time} (hf : periodShift f = some sh)
    (hv : ValidTime z) (hr : Representable z) : ∃ z', (offsetFor f).next z = .ok z' ∧ z < z' := by
  have hmon : ∀ k, 0 < k → k ≤ 12 → ∃ z', addMonths z k = .ok z' ∧ z < z' := by
    intro k h0 hk
    have h1 : monthCount z + k < 12 * 10000 := by
      have := hr.2
      have := hv.month_le
      unfold monthCount
      omega
    obtain ⟨z', hz'⟩ := addMonths_ok_iff.2 h1
    obtain ⟨v, e, _, _⟩ := addMonths_ok hv hz'
    exact ⟨z', hz', lt_of_monthCount hv v (by omega)⟩
  have hday : ∀ n, 0 < n → n ≤ 7 → ∃ z', addDays z n = .ok z' ∧ z < z' := by
    intro n h0 hn
    cases hz' : addDays z n with
    | error e =>
      have h1 := (addDays_error hv hz').2
      obtain ⟨y, hy⟩ : ∃ y, y = 9999 := ⟨_, rfl⟩
      have h2 := lastDayNumber_eq hy
      have h3 := dayOfYear_le hv
      have h4 : daysBeforeYear (z.year + 1) ≤ daysBeforeYear y :=
        daysBeforeYear_mono (by have := hr.2; omega)
      have h5 : daysBeforeYear (z.year + 1) = daysBeforeYear z.year + yearLength z.year := rfl
      have h6 : daysBeforeYear (y + 1) = daysBeforeYear y + yearLength y := rfl
      have h7 : 365 ≤ yearLength y := by unfold yearLength; split <;> omega
      unfold dayNumber at h1
      omega
    | ok z' =>
      obtain ⟨v, e, e2⟩ := addDays_ok hv hz'
      exact ⟨z', rfl, (lt_iff_instant hv v).2 (by unfold instant; omega)⟩
  rcases periodShift_cases hf with hc | hc | hc | hc | hc | hc | hc <;> obtain ⟨rfl, rfl⟩ := hc
  · exact hmon 12 (by omega) (by omega)
  · exact hmon 12 (by omega) (by omega)
  · exact hmon 6 (by omega) (by omega)
  · exact hmon 3 (by omega) (by omega)
  · exact hmon 1 (by omega) (by omega)
  · exact hday 7 (by omega) (by omega)
  · exact hday 1 (by omega) (by omega)

theorem start_of_last {f : Str} : ∀ {t : Time} {ts : List Time} {z : Time},
    (∀ u ∈ t :: ts, ValidTime u) → PeriodRun f (t :: ts) → PeriodStart f t →
    (t :: ts).getLast? = some z → PeriodStart f z
  | t, [], z, _, _, hs, h => by
    simp only [List.getLast?_singleton, Option.some.injEq] at h
    rw [← h]; exact hs
  | t, u :: us, z, hv, hr, hs, h => by
    obtain ⟨⟨sh, h1, h2⟩, h3⟩ := hr
    have hl : (u :: us).getLast? = some z := by rw [← h, List.getLast?_cons_cons]
    exact start_of_last (fun x hx => hv x (List.mem_cons_of_mem _ hx)) h3
      (start_of_shifted h1 (hv t (by simp)) (hv u (by simp)) h2 hs) hl

theorem toTimestamp_dt (ext : Ext) {t : Time} (h : Representable t) :
    toTimestamp ext (.dt t) = .ok t := by
  have : inPandasRange t = true := by
    unfold inPandasRange
    simp [h.1, h.2]
  simp [toTimestamp, this]

theorem periodShift_of_start {f : Str} {t : Time} (h : PeriodStart f t) :
    ∃ sh, periodShift f = some sh := by
  unfold PeriodStart at h
  split at h <;> first | exact ⟨_, rfl⟩ | exact h.elim

/-- `date_range` from the first to the last element of a run of periods is that run. -/
theorem dateRange_run (ext : Ext) {f : Str} {ts : List Time} {a z : Time}
    (hv : ∀ u ∈ ts, ValidTime u) (hr : PeriodRun f ts) (ha : ts.head? = some a)
    (hz : ts.getLast? = some z) (hs : PeriodStart f a) (ra : Representable a)
    (rz : Representable z) :
    dateRange ext (.dt a) (.dt z) (convertFreq f) = .ok ⟨indexFreq f, ts⟩ := by
  cases ts with
  | nil => cases ha
  | cons t ts =>
  simp only [List.head?_cons, Option.some.injEq] at ha
  subst ha
  obtain ⟨sh, hf⟩ := periodShift_of_start hs
  have hvz := hv z (getLast?_mem' hz)
  obtain ⟨z', hn, hlt⟩ := next_exists hf hvz rz
  have hon := on_of_start (hv t (by simp)) hs
  have honz := on_of_start hvz (start_of_last hv hr hs hz)
  unfold dateRange
  rw [toOffset_convert hf]
  dsimp only
  rw [toTimestamp_dt ext ra, toTimestamp_dt ext rz]
  dsimp only
  have e1 : (offsetFor f).rollForward t = .ok t := by unfold Offset.rollForward; rw [if_pos hon]
  have e2 : (offsetFor f).rollBack z = z := by unfold Offset.rollBack; rw [if_pos honz]
  rw [e1]
  dsimp only
  rw [if_pos hon, e2, rangeFrom_run hn hlt hv hr hz (Nat.le_refl _)]

end Xls
