/-
`pandas.date_range` between dates that need not be period starts.
-/
import Verif.Lemmas.PeriodRange

set_option autoImplicit false

namespace Xls

open Spec

theorem start_of_on {f : Str} {sh : Shift} {t : Time} (hf : periodShift f = some sh) (hv : ValidTime t)
    (h : (offsetFor f).on t = true) : PeriodStart f t := by
  have m1 := hv.month_pos
  have m2 := hv.month_le
  rcases periodShift_cases hf with hc | hc | hc | hc | hc | hc | hc <;> obtain ⟨rfl, _⟩ := hc <;>
    simp only [offsetFor, Offset.on, Bool.and_eq_true, beq_iff_eq] at h <;> simp only [PeriodStart]
  · omega
  · omega
  · omega
  · omega
  · omega
  · have := toOrdinal_eq hv
    rw [sunday_eq]
    omega

theorem shifted_of_next {f : Str} {sh : Shift} {a b : Time} (hf : periodShift f = some sh)
    (ha : ValidTime a) (h : (offsetFor f).next a = .ok b) : ValidTime b ∧ IsShifted a 1 b sh := by
  have hmon : ∀ k, addMonths a k = .ok b → ValidTime b ∧ IsShifted a 1 b (.months k) := by
    intro k hk
    obtain ⟨v, e1, e2, e3⟩ := addMonths_ok ha hk
    exact ⟨v, by simp only [IsShifted]; exact ⟨by omega, e2, e3⟩⟩
  have hday : ∀ n, addDays a n = .ok b → ValidTime b ∧ instant b = instant a + n * 86400000000 := by
    intro n hn
    obtain ⟨v, e1, e2⟩ := addDays_ok ha hn
    refine ⟨v, ?_⟩
    unfold instant
    rw [e1, e2, Nat.add_mul]
    omega
  rcases periodShift_cases hf with hc | hc | hc | hc | hc | hc | hc <;> obtain ⟨rfl, rfl⟩ := hc
  · exact hmon 12 h
  · exact hmon 12 h
  · exact hmon 6 h
  · exact hmon 3 h
  · exact hmon 1 h
  · obtain ⟨v, e⟩ := hday 7 h
    exact ⟨v, by simp only [IsShifted]; omega⟩
  · obtain ⟨v, e⟩ := hday 1 h
    exact ⟨v, by simp only [IsShifted]; omega⟩

/-- What `generate_range` gives from a time on the offset. -/
theorem rangeFrom_between {f : Str} {sh : Shift} (hf : periodShift f = some sh) {z : Time} (hz : ValidTime z)
    (rz : z.year ≤ 2261) : ∀ {fuel : Nat} {t : Time}, ValidTime t → t.us = z.us →
    dayIndex z + 1 - dayIndex t ≤ fuel →
    ∃ ts, rangeFrom (offsetFor f) z fuel t = .ok ts ∧ PeriodRun f ts ∧ (∀ u ∈ ts, ValidTime u) ∧
      (ts = [] → z < t) ∧ (∀ u, ts.head? = some u → u = t) ∧
      (∀ u, ts.getLast? = some u → u ≤ z ∧ ∀ v, ValidTime v → IsShifted u 1 v sh → z < v)
  | 0, t, ht, hu, hfuel => by
    refine ⟨[], rfl, trivial, by simp, fun _ => ?_, by simp, by simp⟩
    by_contra hc
    have : dayIndex t ≤ dayIndex z := by
      rcases Time.lt_trichotomy t z with h | h | h
      · exact Nat.le_of_lt (dayIndex_lt ht hz h hu)
      · rw [h]
      · exact absurd h hc
    omega
  | fuel + 1, t, ht, hu, hfuel => by
    by_cases hle : t ≤ z
    · have rt : Representable t ∨ t.year < 1678 := by
        rcases Nat.lt_or_ge t.year 1678 with h | h
        · exact .inr h
        · refine .inl ⟨h, ?_⟩
          have h2 : ¬ Time.lt z t := hle
          unfold Time.lt at h2
          omega
      have hnext : ∃ t', (offsetFor f).next t = .ok t' ∧ t < t' := by
        have hmon : ∀ k, 0 < k → k ≤ 12 → ∃ z', addMonths t k = .ok z' ∧ t < z' := by
          intro k h0 hk
          have h1 : monthCount t + k < 12 * 10000 := by
            have := ht.month_le
            unfold monthCount
            rcases rt with rt | rt
            · have := rt.2
              omega
            · omega
          obtain ⟨z', hz'⟩ := addMonths_ok_iff.2 h1
          obtain ⟨v, e, _, _⟩ := addMonths_ok ht hz'
          exact ⟨z', hz', lt_of_monthCount ht v (by omega)⟩
        have hday : ∀ n, 0 < n → n ≤ 7 → ∃ z', addDays t n = .ok z' ∧ t < z' := by
          intro n h0 hn
          cases hz' : addDays t n with
          | error e =>
            have h1 := (addDays_error ht hz').2
            obtain ⟨y, hy⟩ : ∃ y, y = 9999 := ⟨_, rfl⟩
            have h2 := lastDayNumber_eq hy
            have h3 := dayOfYear_le ht
            have h4 : daysBeforeYear (t.year + 1) ≤ daysBeforeYear y :=
              daysBeforeYear_mono (by
                rcases rt with rt | rt
                · have := rt.2
                  omega
                · omega)
            have h5 : daysBeforeYear (t.year + 1) = daysBeforeYear t.year + yearLength t.year := rfl
            have h6 : daysBeforeYear (y + 1) = daysBeforeYear y + yearLength y := rfl
            have h7 : 365 ≤ yearLength y := by unfold yearLength; split <;> omega
            unfold dayNumber at h1
            omega
          | ok z' =>
            obtain ⟨v, e, e2⟩ := addDays_ok ht hz'
            exact ⟨z', rfl, (lt_iff_instant ht v).2 (by unfold instant; omega)⟩
        rcases periodShift_cases hf with hc | hc | hc | hc | hc | hc | hc <;> obtain ⟨rfl, rfl⟩ := hc
        · exact hmon 12 (by omega) (by omega)
        · exact hmon 12 (by omega) (by omega)
        · exact hmon 6 (by omega) (by omega)
        · exact hmon 3 (by omega) (by omega)
        · exact hmon 1 (by omega) (by omega)
        · exact hday 7 (by omega) (by omega)
        · exact hday 1 (by omega) (by omega)
      obtain ⟨t', hn, hlt⟩ := hnext
      obtain ⟨vt', hsh⟩ := shifted_of_next hf ht hn
      obtain ⟨_, hus⟩ := lt_of_shifted hf ht vt' hsh
      have hd := dayIndex_lt ht vt' hlt hus
      obtain ⟨ts, h1, h2, h3, h4, h5, h6⟩ := rangeFrom_between hf hz rz (fuel := fuel) vt' (hus.symm.trans hu)
        (by omega)
      refine ⟨t :: ts, ?_, ?_, ?_, ?_, ?_, ?_⟩
      · rw [rangeFrom, if_pos hle, hn]
        dsimp only
        rw [h1]
      · cases ts with
        | nil => trivial
        | cons u us =>
          have := h5 u rfl
          subst this
          exact ⟨⟨sh, hf, hsh⟩, h2⟩
      · intro u hu'
        rcases List.mem_cons.1 hu' with e | e
        · rw [e]; exact ht
        · exact h3 u e
      · intro h; cases h
      · intro u hu'
        simp only [List.head?_cons, Option.some.injEq] at hu'
        exact hu'.symm
      · intro u hu'
        cases ts with
        | nil =>
          simp only [List.getLast?_singleton, Option.some.injEq] at hu'
          subst hu'
          refine ⟨hle, fun v hv hv2 => ?_⟩
          have e := next_of_shifted hf ht hv hv2
          rw [hn] at e
          injection e with e
          rw [← e]
          exact h4 rfl
        | cons w ws =>
          rw [List.getLast?_cons_cons] at hu'
          exact h6 u hu'
    · refine ⟨[], ?_, trivial, by simp, fun _ => Classical.not_not.1 hle, by simp, by simp⟩
      rw [rangeFrom, if_neg hle]

theorem le_iff_instant {a b : Time} (ha : ValidTime a) (hb : ValidTime b) :
    a ≤ b ↔ instant a ≤ instant b := by
  have : a ≤ b ↔ ¬ b < a := Iff.rfl
  rw [this, lt_iff_instant hb ha]
  omega

theorem instant_le_same {a b : Time} (hu : b.us = a.us) (h : instant a ≤ instant b) :
    dayNumber a ≤ dayNumber b := by
  unfold instant at h
  rw [hu] at h
  omega

theorem instant_lt_same {a b : Time} (hu : b.us = a.us) (h : instant a < instant b) :
    dayNumber a < dayNumber b := by
  unfold instant at h
  rw [hu] at h
  omega

theorem instant_add_same {a b : Time} {n : Nat} (hu : b.us = a.us)
    (h : instant b = instant a + n * 86400000000) : dayNumber b = dayNumber a + n := by
  unfold instant at h
  rw [hu] at h
  omega

theorem valid_monthStart {n us : Nat} (h1 : 12 ≤ n) (h2 : n < 120000) (hu : us < 86400000000) :
    ValidTime (monthStart n us) := by
  have := monthLength_ge (n / 12) (m := n % 12 + 1) (by omega) (by omega)
  refine ⟨?_, ?_, ?_, ?_, ?_, ?_, ?_⟩ <;> simp only [monthStart] <;> omega

theorem rollForward_months {f : Str} {k st : Nat} {a : Time} (ho : offsetFor f = .months k st)
    (hk : k = 1 ∨ k = 3 ∨ k = 12) (hv : ValidTime a) (ra : Representable a)
    (hstart : ∀ t, ValidTime t → (PeriodStart f t ↔ (t.month - 1) % k = 0 ∧ t.day = 1)) :
    ∃ t, (offsetFor f).rollForward a = .ok t ∧ FirstPeriodStart f a t := by
  have m1 := hv.month_pos
  have m2 := hv.month_le
  have d1 := hv.day_pos
  have hus := hv.us_lt
  by_cases hon : (offsetFor f).on a = true
  · refine ⟨a, by unfold Offset.rollForward; rw [if_pos hon], hv, ?_, rfl, Time.lt_irrefl a, fun u _ _ _ h => h⟩
    rw [hstart a hv]
    rw [ho] at hon
    simp only [Offset.on, Bool.and_eq_true, beq_iff_eq] at hon
    exact ⟨hon.2, hon.1⟩
  · have hon2 := hon
    rw [ho] at hon2
    simp only [Offset.on, Bool.and_eq_true, beq_iff_eq] at hon2
    refine ⟨monthStart ((monthIndex a / k + 1) * k) a.us, ?_, ?_⟩
    · unfold Offset.rollForward
      rw [if_neg hon, ho]
    · have hy := ra.1
      have hy2 := ra.2
      have hvs : ValidTime (monthStart ((monthIndex a / k + 1) * k) a.us) := by
        apply valid_monthStart _ _ hus <;> unfold monthIndex <;> rcases hk with h | h | h <;> subst h <;> omega
      have hlt : a < monthStart ((monthIndex a / k + 1) * k) a.us := by
        show Time.lt _ _
        unfold Time.lt monthStart monthIndex
        simp only
        rcases hk with h | h | h <;> subst h <;> omega
      refine ⟨hvs, ?_, rfl, le_of_lt hlt, ?_⟩
      · rw [hstart _ hvs]
        refine ⟨?_, rfl⟩
        unfold monthStart monthIndex
        simp only
        rcases hk with h | h | h <;> subst h <;> omega
      · intro u hvu hsu hu hle
        rw [hstart u hvu] at hsu
        have u1 := hvu.month_pos
        have u2 := hvu.month_le
        have hne : ¬ Time.lt u a := hle
        show ¬ Time.lt _ _
        unfold Time.lt at hne ⊢
        unfold monthStart monthIndex
        simp only
        rcases hk with h | h | h <;> subst h <;> omega

theorem rollForward_first {f : Str} {sh : Shift} {a : Time} (hf : periodShift f = some sh) (hv : ValidTime a)
    (ra : Representable a) : ∃ t, (offsetFor f).rollForward a = .ok t ∧ FirstPeriodStart f a t := by
  have m : ∀ t : Time, ValidTime t → 1 ≤ t.month ∧ t.month ≤ 12 := fun t h => ⟨h.month_pos, h.month_le⟩
  have hf' := hf
  rcases periodShift_cases hf with hc | hc | hc | hc | hc | hc | hc <;> obtain ⟨rfl, rfl⟩ := hc
  · exact rollForward_months rfl (by simp) hv ra fun t h => by
      have := m t h; simp only [PeriodStart]; omega
  · exact rollForward_months rfl (by simp) hv ra fun t h => by
      have := m t h; simp only [PeriodStart]; omega
  · exact rollForward_months rfl (by simp) hv ra fun t h => by
      have := m t h; simp only [PeriodStart]; omega
  · exact rollForward_months rfl (by simp) hv ra fun t h => by
      have := m t h; simp only [PeriodStart]; omega
  · exact rollForward_months rfl (by simp) hv ra fun t h => by
      have := m t h; simp only [PeriodStart]; omega
  · by_cases hon : (offsetFor ['W']).on a = true
    · exact ⟨a, by unfold Offset.rollForward; rw [if_pos hon], hv, start_of_on hf' hv hon, rfl,
        Time.lt_irrefl a, fun u _ _ _ h => h⟩
    · have hord := toOrdinal_eq hv
      have hon2 : ¬ toOrdinal a % 7 = 0 := by
        simpa [offsetFor, Offset.on] using hon
      cases hz : addDays a (7 - toOrdinal a % 7) with
      | error e =>
        have h1 := (addDays_error hv hz).2
        obtain ⟨y, hy⟩ : ∃ y, y = 9999 := ⟨_, rfl⟩
        have h2 := lastDayNumber_eq hy
        have h3 := dayOfYear_le hv
        have h4 : daysBeforeYear (a.year + 1) ≤ daysBeforeYear y :=
          daysBeforeYear_mono (by have := ra.2; omega)
        have h5 : daysBeforeYear (a.year + 1) = daysBeforeYear a.year + yearLength a.year := rfl
        have h6 : daysBeforeYear (y + 1) = daysBeforeYear y + yearLength y := rfl
        have h7 : 365 ≤ yearLength y := by unfold yearLength; split <;> omega
        unfold dayNumber at h1
        omega
      | ok t =>
        obtain ⟨v, e1, e2⟩ := addDays_ok hv hz
        refine ⟨t, ?_, v, ?_, e2, ?_, ?_⟩
        · unfold Offset.rollForward
          rw [if_neg hon]
          exact hz
        · simp only [PeriodStart]
          rw [sunday_eq, e1]
          omega
        · rw [le_iff_instant hv v]
          unfold instant
          omega
        · intro u hvu hsu hu hle
          rw [le_iff_instant hv hvu] at hle
          rw [le_iff_instant v hvu]
          simp only [PeriodStart] at hsu
          rw [sunday_eq] at hsu
          have hd := instant_le_same hu hle
          unfold instant
          have : dayNumber t ≤ dayNumber u := by omega
          omega
  · exact ⟨a, rfl, hv, trivial, rfl, Time.lt_irrefl a, fun u _ _ _ h => h⟩

theorem prevDay_valid {t : Time} (hv : ValidTime t) (hy : 1 < t.year) :
    ValidTime (prevDay t) ∧ dayNumber (prevDay t) + 1 = dayNumber t ∧ (prevDay t).us = t.us := by
  have m1 := hv.month_pos
  have m2 := hv.month_le
  have d1 := hv.day_pos
  have d2 := hv.day_le
  have y2 := hv.year_le
  have u1 := hv.us_lt
  unfold prevDay
  split
  · next h =>
    refine ⟨⟨by simp only; omega, by simp only; omega, m1, m2, by simp only; omega, by simp only; omega, u1⟩, ?_, rfl⟩
    unfold dayNumber
    simp only
    omega
  · split
    · next h h' =>
      have hd := monthLength_ge t.year (m := t.month - 1) (by omega) (by omega)
      have he : daysInMonth t.year (t.month - 1) = monthLength t.year (t.month - 1) := daysInMonth_eq (by omega) (by omega)
      refine ⟨⟨by simp only; omega, by simp only; omega, by simp only; omega, by simp only; omega,
        by simp only; omega, by simp only; omega, u1⟩, ?_, rfl⟩
      obtain ⟨k, hk⟩ : ∃ k, t.month = k + 2 := ⟨t.month - 2, by omega⟩
      unfold dayNumber
      have h1 : k + 2 - 1 = k + 1 := by omega
      have h2 : daysBeforeMonth t.year (k + 2) = daysBeforeMonth t.year (k + 1) + monthLength t.year (k + 1) := rfl
      simp only [hk, h1] at he ⊢
      simp only [h2, he]
      omega
    · next h h' =>
      have hml : monthLength (t.year - 1) 12 = 31 := rfl
      refine ⟨⟨by simp only; omega, by simp only; omega, by simp only; omega, by simp only; omega,
        by simp only; omega, by simp only; omega, u1⟩, ?_, rfl⟩
      obtain ⟨y, hy'⟩ : ∃ y, t.year = y + 1 := ⟨t.year - 1, by omega⟩
      have hm : t.month = 1 := by omega
      have hyl : daysBeforeMonth y 12 + 31 = yearLength y := by
        unfold yearLength
        simp [daysBeforeMonth, monthLength]
        split <;> rfl
      unfold dayNumber
      simp only [hy', hm, Nat.add_sub_cancel]
      have h5 : daysBeforeYear (y + 1) = daysBeforeYear y + yearLength y := rfl
      have h6 : daysBeforeMonth (y + 1) 1 = 0 := rfl
      omega

theorem subDays_valid : ∀ {n : Nat} {t : Time}, ValidTime t → n < t.year → n ≤ 6 →
    ValidTime (subDays t n) ∧ dayNumber (subDays t n) + n = dayNumber t ∧ (subDays t n).us = t.us
  | 0, t, hv, _, _ => ⟨hv, by simp [subDays], rfl⟩
  | n + 1, t, hv, hy, hn => by
    obtain ⟨h1, h2, h3⟩ := prevDay_valid hv (by omega)
    have hyear : t.year ≤ (prevDay t).year + 1 := by
      unfold prevDay
      split
      · simp
      · split
        · simp
        · simp only; omega
    obtain ⟨e1, e2, e3⟩ := subDays_valid (n := n) h1 (by omega) (by omega)
    exact ⟨e1, by simp only [subDays]; omega, by simp only [subDays]; rw [e3, h3]⟩

theorem prevDay_year {t : Time} : (prevDay t).year ≤ t.year := by
  unfold prevDay
  split
  · exact Nat.le_refl _
  · split
    · exact Nat.le_refl _
    · simp

theorem subDays_year : ∀ {n : Nat} {t : Time}, (subDays t n).year ≤ t.year
  | 0, _ => Nat.le_refl _
  | n + 1, t => by
    rw [subDays]
    exact Nat.le_trans (subDays_year (n := n) (t := prevDay t)) (prevDay_year (t := t))

theorem rollBack_months {f : Str} {k st : Nat} {z : Time} (ho : offsetFor f = .months k st)
    (hk : k = 1 ∨ k = 3 ∨ k = 12) (hv : ValidTime z)
    (hstart : ∀ t, ValidTime t → (PeriodStart f t ↔ (t.month - 1) % k = 0 ∧ t.day = 1)) :
    ValidTime ((offsetFor f).rollBack z) ∧ ((offsetFor f).rollBack z).us = z.us ∧
      ((offsetFor f).rollBack z).year ≤ z.year ∧
      ∀ t, ValidTime t → PeriodStart f t → t.us = z.us → (t ≤ (offsetFor f).rollBack z ↔ t ≤ z) := by
  have m1 := hv.month_pos
  have m2 := hv.month_le
  have d1 := hv.day_pos
  have y1 := hv.year_pos
  have y2 := hv.year_le
  have hus := hv.us_lt
  by_cases hon : (offsetFor f).on z = true
  · have e : (offsetFor f).rollBack z = z := by unfold Offset.rollBack; rw [if_pos hon]
    rw [e]
    exact ⟨hv, rfl, Nat.le_refl _, fun t _ _ _ => Iff.rfl⟩
  · have e : (offsetFor f).rollBack z = monthStart (monthIndex z / k * k) z.us := by
      unfold Offset.rollBack
      rw [if_neg hon, ho]
    rw [e]
    refine ⟨?_, rfl, ?_, ?_⟩
    · apply valid_monthStart _ _ hus <;> unfold monthIndex <;> rcases hk with h | h | h <;> subst h <;> omega
    · unfold monthStart monthIndex
      simp only
      rcases hk with h | h | h <;> subst h <;> omega
    · intro t hvt hst hu
      rw [hstart t hvt] at hst
      have u1 := hvt.month_pos
      have u2 := hvt.month_le
      show (¬ Time.lt _ _) ↔ ¬ Time.lt _ _
      unfold Time.lt
      unfold monthStart monthIndex
      simp only
      rcases hk with h | h | h <;> subst h <;> omega

/-- Rolling back the end leaves out no period start and adds none. -/
theorem rollBack_spec {f : Str} {sh : Shift} {z : Time} (hf : periodShift f = some sh) (hv : ValidTime z)
    (rz : Representable z) : ValidTime ((offsetFor f).rollBack z) ∧ ((offsetFor f).rollBack z).us = z.us ∧
      ((offsetFor f).rollBack z).year ≤ z.year ∧
      ∀ t, ValidTime t → PeriodStart f t → t.us = z.us → (t ≤ (offsetFor f).rollBack z ↔ t ≤ z) := by
  have m : ∀ t : Time, ValidTime t → 1 ≤ t.month ∧ t.month ≤ 12 := fun t h => ⟨h.month_pos, h.month_le⟩
  rcases periodShift_cases hf with hc | hc | hc | hc | hc | hc | hc <;> obtain ⟨rfl, rfl⟩ := hc
  · exact rollBack_months rfl (by simp) hv fun t h => by
      have := m t h; simp only [PeriodStart]; omega
  · exact rollBack_months rfl (by simp) hv fun t h => by
      have := m t h; simp only [PeriodStart]; omega
  · exact rollBack_months rfl (by simp) hv fun t h => by
      have := m t h; simp only [PeriodStart]; omega
  · exact rollBack_months rfl (by simp) hv fun t h => by
      have := m t h; simp only [PeriodStart]; omega
  · exact rollBack_months rfl (by simp) hv fun t h => by
      have := m t h; simp only [PeriodStart]; omega
  · by_cases hon : (offsetFor ['W']).on z = true
    · have e : (offsetFor ['W']).rollBack z = z := by unfold Offset.rollBack; rw [if_pos hon]
      rw [e]
      exact ⟨hv, rfl, Nat.le_refl _, fun t _ _ _ => Iff.rfl⟩
    · have e : (offsetFor ['W']).rollBack z = subDays z (toOrdinal z % 7) := by
        unfold Offset.rollBack
        rw [if_neg hon]
        rfl
      rw [e]
      have hord := toOrdinal_eq hv
      obtain ⟨v, e1, e2⟩ := subDays_valid (n := toOrdinal z % 7) hv (by have := rz.1; omega) (by omega)
      refine ⟨v, e2, subDays_year, ?_⟩
      intro t hvt hst hu
      rw [le_iff_instant hvt v, le_iff_instant hvt hv]
      simp only [PeriodStart] at hst
      rw [sunday_eq] at hst
      have key : dayNumber t ≤ dayNumber (subDays z (toOrdinal z % 7)) ↔ dayNumber t ≤ dayNumber z := by omega
      constructor
      · intro h
        have := key.1 (instant_le_same (e2.trans hu.symm) h)
        unfold instant
        omega
      · intro h
        have := key.2 (instant_le_same hu.symm h)
        unfold instant
        omega
  · exact ⟨hv, rfl, Nat.le_refl _, fun t _ _ _ => Iff.rfl⟩

/-- `date_range` between two dates with the same time of day. -/
theorem dateRange_between (ext : Ext) {f : Str} {sh : Shift} {a z : Time} (hf : periodShift f = some sh)
    (va : ValidTime a) (vz : ValidTime z) (hu : a.us = z.us) (ra : Representable a) (rz : Representable z) :
    ∃ ts, dateRange ext (.dt a) (.dt z) (convertFreq f) = .ok ⟨indexFreq f, ts⟩ ∧ PeriodRun f ts ∧
      (∀ t ∈ ts, ValidTime t) ∧ (∀ t, ts.head? = some t → FirstPeriodStart f a t) ∧
      (∀ t, ts.getLast? = some t → t ≤ z ∧ ∀ u, ValidTime u → IsShifted t 1 u sh → z < u) ∧
      (ts = [] → ∀ u, ValidTime u → PeriodStart f u → u.us = a.us → a ≤ u → z < u) := by
  obtain ⟨t, h1, h2⟩ := rollForward_first hf va ra
  obtain ⟨b1, b2, b3, b4⟩ := rollBack_spec hf vz rz
  obtain ⟨w, hw, vw, uw, yw, kw⟩ : ∃ w, w = (if (offsetFor f).on a then (offsetFor f).rollBack z else z) ∧
      ValidTime w ∧ w.us = z.us ∧ w.year ≤ z.year ∧
      ∀ t, ValidTime t → PeriodStart f t → t.us = z.us → (t ≤ w ↔ t ≤ z) := by
    by_cases hon : (offsetFor f).on a = true
    · exact ⟨_, by rw [if_pos hon], b1, b2, b3, b4⟩
    · exact ⟨z, by rw [if_neg hon], vz, rfl, Nat.le_refl _, fun _ _ _ _ => Iff.rfl⟩
  have htu : t.us = z.us := h2.hour.trans hu
  obtain ⟨ts, r1, r2, r3, r4, r5, r6⟩ := rangeFrom_between hf vw (by have := rz.2; omega)
    (fuel := dayIndex w + 1 - dayIndex t) h2.valid (htu.trans uw.symm) (Nat.le_refl _)
  have flip : ∀ u : Time, ValidTime u → PeriodStart f u → u.us = z.us → (w < u ↔ z < u) := by
    intro u h3 h4 h5
    have := kw u h3 h4 h5
    have e1 : u ≤ w ↔ ¬ w < u := Iff.rfl
    have e2 : u ≤ z ↔ ¬ z < u := Iff.rfl
    rw [e1, e2] at this
    exact not_iff_not.1 this
  refine ⟨ts, ?_, r2, r3, ?_, ?_, ?_⟩
  · unfold dateRange
    rw [toOffset_convert hf]
    dsimp only
    rw [toTimestamp_dt ext ra, toTimestamp_dt ext rz]
    dsimp only
    rw [h1]
    dsimp only
    rw [← hw, r1]
  · intro u hh
    rw [r5 u hh]; exact h2
  · intro u hl
    obtain ⟨q1, q2⟩ := r6 u hl
    cases ts with
    | nil => cases hl
    | cons v vs =>
      have hv := r5 v rfl
      subst hv
      have hsu := start_of_last r3 r2 h2.start hl
      have huu := (run_le_last r3 r2 hl).2
      have hvu := r3 u (getLast?_mem' hl)
      refine ⟨(kw u hvu hsu (huu.symm.trans htu)).1 q1, fun x hx hxs => ?_⟩
      have hsx := start_of_shifted hf hvu hx hxs hsu
      have hxu := (lt_of_shifted hf hvu hx hxs).2
      exact (flip x hx hsx (by rw [← hxu, ← huu, htu])).1 (q2 x hx hxs)
  · intro hnil u hvu hsu huu hle
    have hlt := r4 hnil
    have h3 := h2.least u hvu hsu huu hle
    rw [← flip u hvu hsu (huu.trans hu), lt_iff_instant vw hvu]
    rw [lt_iff_instant vw h2.valid] at hlt
    rw [le_iff_instant h2.valid hvu] at h3
    omega

/-- Except for semesters there is no period start between a period start and the next one. -/
theorem start_unique {f : Str} {sh : Shift} {t n u : Time} (hf : periodShift f = some sh) (hS : f ≠ ['S'])
    (ht : ValidTime t) (hn : ValidTime n) (hu : ValidTime u) (h : IsShifted t 1 n sh) (st : PeriodStart f t)
    (su : PeriodStart f u) (us : u.us = t.us) (h1 : t ≤ u) (h2 : u < n) : u = t := by
  have hsn := start_of_shifted hf ht hn h st
  have hnu := (lt_of_shifted hf ht hn h).2
  have a1 := ht.month_pos
  have a2 := ht.month_le
  have b1 := hn.month_pos
  have b2 := hn.month_le
  have c1 := hu.month_pos
  have c2 := hu.month_le
  have e1 : ¬ Time.lt u t := h1
  have e2 : Time.lt u n := h2
  have key : u.year = t.year → u.month = t.month → u.day = t.day → u = t := by
    intro k1 k2 k3
    cases u; cases t; simp_all
  rcases periodShift_cases hf with hc | hc | hc | hc | hc | hc | hc <;> obtain ⟨rfl, rfl⟩ := hc <;>
    simp only [PeriodStart, IsShifted, monthCount] at hsn st su h
  · unfold Time.lt at e1 e2; apply key <;> omega
  · unfold Time.lt at e1 e2; apply key <;> omega
  · exact absurd rfl hS
  · unfold Time.lt at e1 e2; apply key <;> omega
  · unfold Time.lt at e1 e2; apply key <;> omega
  · rw [le_iff_instant ht hu] at h1
    rw [lt_iff_instant hu hn] at h2
    rw [sunday_eq] at st su hsn
    have k1 := instant_le_same us h1
    have k2 := instant_lt_same (hnu.symm.trans us.symm) h2
    have k3 := instant_add_same (n := 7) hnu.symm (by omega)
    have k4 : dayNumber u = dayNumber t := by clear h h1 h2; omega
    refine instant_injective hu ht ?_
    unfold instant
    rw [k4, us]
  · rw [le_iff_instant ht hu] at h1
    rw [lt_iff_instant hu hn] at h2
    have k1 := instant_le_same us h1
    have k2 := instant_lt_same (hnu.symm.trans us.symm) h2
    have k3 := instant_add_same (n := 1) hnu.symm h
    have k4 : dayNumber u = dayNumber t := by clear h h1 h2; omega
    refine instant_injective hu ht ?_
    unfold instant
    rw [k4, us]

/-- Every period start from the first element of a run to the last is in the run. -/
theorem mem_of_between {f : Str} {sh : Shift} (hf : periodShift f = some sh) (hS : f ≠ ['S']) {z : Time} :
    ∀ {ts : List Time} {t : Time}, (∀ u ∈ t :: ts, ValidTime u) → PeriodRun f (t :: ts) → PeriodStart f t →
    (t :: ts).getLast? = some z → ∀ {n : Time}, ValidTime n → IsShifted z 1 n sh →
    ∀ {u : Time}, ValidTime u → PeriodStart f u → u.us = t.us → t ≤ u → u < n → u ∈ t :: ts
  | [], t, hv, _, hs, hl, n, vn, hn, u, vu, su, us, h1, h2 => by
    simp only [List.getLast?_singleton, Option.some.injEq] at hl
    subst hl
    rw [start_unique hf hS (hv t (by simp)) vn vu hn hs su us h1 h2]
    simp
  | w :: ws, t, hv, hr, hs, hl, n, vn, hn, u, vu, su, us, h1, h2 => by
    obtain ⟨⟨sh', e1, e2⟩, e3⟩ := hr
    rw [hf] at e1
    injection e1 with e1
    subst e1
    have vw := hv w (by simp)
    have vt := hv t (by simp)
    by_cases hc : u < w
    · rw [start_unique hf hS vt vw vu e2 hs su us h1 hc]
      simp
    · refine List.mem_cons_of_mem _ ?_
      have hl' : (w :: ws).getLast? = some z := by rw [← hl, List.getLast?_cons_cons]
      exact mem_of_between hf hS (fun x hx => hv x (List.mem_cons_of_mem _ hx)) e3
        (start_of_shifted hf vt vw e2 hs) hl' vn hn vu su
        (us.trans (lt_of_shifted hf vt vw e2).2) hc h2

theorem starts_of_run {f : Str} : ∀ {ts : List Time} {t : Time},
    (∀ u ∈ t :: ts, ValidTime u) → PeriodRun f (t :: ts) → PeriodStart f t →
    ∀ u ∈ t :: ts, PeriodStart f u ∧ u.us = t.us ∧ t ≤ u
  | [], t, _, _, hs, u, hu => by
    rw [List.mem_singleton.1 hu]
    exact ⟨hs, rfl, Time.lt_irrefl t⟩
  | w :: ws, t, hv, hr, hs, u, hu => by
    obtain ⟨⟨sh, e1, e2⟩, e3⟩ := hr
    have vw := hv w (by simp)
    have vt := hv t (by simp)
    rcases List.mem_cons.1 hu with e | e
    · rw [e]; exact ⟨hs, rfl, Time.lt_irrefl t⟩
    · obtain ⟨k1, k2, k3⟩ := starts_of_run (fun x hx => hv x (List.mem_cons_of_mem _ hx)) e3
        (start_of_shifted e1 vt vw e2 hs) u e
      obtain ⟨q1, q2⟩ := lt_of_shifted e1 vt vw e2
      refine ⟨k1, k2.trans q2.symm, ?_⟩
      have vu := hv u (List.mem_cons_of_mem _ e)
      rw [le_iff_instant vw vu] at k3
      rw [lt_iff_instant vt vw] at q1
      rw [le_iff_instant vt vu]
      omega

theorem le_last_of_run {f : Str} {z : Time} : ∀ {ts : List Time} {t : Time},
    (∀ u ∈ t :: ts, ValidTime u) → PeriodRun f (t :: ts) → (t :: ts).getLast? = some z →
    ∀ u ∈ t :: ts, u ≤ z
  | [], t, _, _, hl, u, hu => by
    simp only [List.getLast?_singleton, Option.some.injEq] at hl
    rw [List.mem_singleton.1 hu, hl]
    exact Time.lt_irrefl z
  | w :: ws, t, hv, hr, hl, u, hu => by
    rcases List.mem_cons.1 hu with e | e
    · rw [e]
      rcases (run_le_last hv hr hl).1 with e | e
      · rw [e]; exact Time.lt_irrefl z
      · exact le_of_lt e
    · have hl' : (w :: ws).getLast? = some z := by rw [← hl, List.getLast?_cons_cons]
      exact le_last_of_run (fun x hx => hv x (List.mem_cons_of_mem _ hx)) hr.2 hl' u e

end Xls
