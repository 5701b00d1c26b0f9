/-
More lemmas on cleaning: estimated end, stop cell, repair table, simulation.
-/
import Verif.Lemmas.CleanRun

set_option autoImplicit false

namespace Xls
open Spec

theorem headerAt_iff {sp : SParams} {hr hc : Int} :
    HeaderAt sp hr hc ↔ timeHeaderCell sp.timeHeader = .ok (hr, hc) := by
  unfold HeaderAt timeHeaderCell
  cases sp.timeHeader with
  | single c => exact Iff.rfl
  | multi cs => cases cs <;> simp

theorem notImplicit_iff {v : PVal} : NotImplicitString v ↔ isImplicitStr v = false := by
  unfold NotImplicitString isImplicitStr
  cases v <;> simp

theorem nextPeriod_iff {f : Str} {l t : Time} (hv : ValidTime l) :
    NextPeriod f l t ↔ incrementTime l 1 f = .ok t := by
  constructor
  · rintro ⟨hv', sh, h1, h2⟩
    exact (correctProgression_expected true .none hv hv' h1 h2).1
  · intro h
    obtain ⟨sh, h1, h2, h3⟩ := incrementTime_ok hv h
    exact ⟨h2, sh, h1, h3⟩

/-- Dates more than two calendar months apart are more than one day apart. -/
theorem instant_of_months {t t' : Time} (hv : ValidTime t) (hv' : ValidTime t')
    (h : monthCount t + 2 < monthCount t') : instant t + 86400000000 < instant t' := by
  have first : ∀ n, monthCount t ≤ n → n ≤ monthCount t' →
      ValidTime ⟨n / 12, n % 12 + 1, 1, 0⟩ ∧
        monthCount ⟨n / 12, n % 12 + 1, 1, 0⟩ = n := by
    intro n h1 h2
    obtain ⟨y1, y2, m1, m2, d1, d2, u⟩ := hv
    obtain ⟨y1', y2', m1', m2', d1', d2', u'⟩ := hv'
    unfold monthCount at *
    refine ⟨⟨?_, ?_, ?_, ?_, ?_, ?_, ?_⟩, ?_⟩
    · simp only; omega
    · simp only; omega
    · simp
    · simp only; omega
    · simp
    · have := monthLength_ge (n / 12) (m := n % 12 + 1) (by omega) (by omega)
      simp only; omega
    · simp
    · simp only; omega
  obtain ⟨v1, c1⟩ := first (monthCount t + 1) (by omega) (by omega)
  obtain ⟨v2, c2⟩ := first (monthCount t + 2) (by omega) (by omega)
  have i1 := instant_lt_of_lt hv v1 (lt_of_monthCount hv v1 (by omega))
  have i2 := instant_lt_of_lt v1 v2 (lt_of_monthCount v1 v2 (by omega))
  have i3 := instant_lt_of_lt v2 hv' (lt_of_monthCount v2 hv' (by omega))
  have u := hv.us_lt
  unfold instant at *
  simp only at i1 i2 i3
  generalize dayNumber ⟨(monthCount t + 1) / 12, (monthCount t + 1) % 12 + 1, 1, 0⟩ = d1 at *
  generalize dayNumber ⟨(monthCount t + 2) / 12, (monthCount t + 2) % 12 + 1, 1, 0⟩ = d2 at *
  generalize dayNumber t = d at *
  generalize dayNumber t' = d' at *
  generalize t.us = u0 at *
  generalize t'.us = u1 at *
  have k1 : d < d1 := by
    apply Nat.lt_of_not_le; intro hx
    have := Nat.mul_le_mul_right 86400000000 hx
    omega
  have k2 : d1 < d2 := by
    apply Nat.lt_of_not_le; intro hx
    have := Nat.mul_le_mul_right 86400000000 hx
    omega
  have k3 : (d + 2) * 86400000000 ≤ d2 * 86400000000 := Nat.mul_le_mul_right _ (by omega)
  generalize 86400000000 = K at *
  rw [Nat.add_mul] at k3
  omega

/-! ### the estimated end -/

theorem lastDtUp_spec (s : Sheet) (col : Int) (n : Nat) (row : Int) :
    row - n ≤ lastDtUp s col n row ∧ lastDtUp s col n row ≤ row ∧
    (∀ x, lastDtUp s col n row < x → x ≤ row → (s.cells x col).isDt = false) ∧
    ((s.cells (lastDtUp s col n row) col).isDt = true ∨ lastDtUp s col n row = row - n) := by
  induction n generalizing row with
  | zero =>
    unfold lastDtUp
    refine ⟨by omega, by omega, fun x h1 h2 => by omega, .inr (by omega)⟩
  | succ n ih =>
    unfold lastDtUp
    split
    · next h => exact ⟨by omega, by omega, fun x h1 h2 => by omega, .inl h⟩
    · next h =>
      obtain ⟨h1, h2, h3, h4⟩ := ih (row - 1)
      refine ⟨by omega, by omega, ?_, ?_⟩
      · intro x hx1 hx2
        by_cases hx : x = row
        · subst hx; simpa using h
        · exact h3 x hx1 (by omega)
      · rcases h4 with h4 | h4
        · exact .inl h4
        · exact .inr (by omega)

theorem isDt_iff (c : Cell) : c.isDt = true ↔ ∃ t, c = .dt t := by
  cases c <;> simp [Cell.isDt]

theorem lastDtUp_eq {s : Sheet} {col r0 row : Int} {n : Nat} {t : Time} (h1 : row - n ≤ r0) (h2 : r0 ≤ row)
    (hd : s.cells r0 col = .dt t) (hn : ∀ x, r0 < x → x ≤ row → ¬ ∃ t, s.cells x col = .dt t) :
    lastDtUp s col n row = r0 := by
  obtain ⟨a1, a2, a3, a4⟩ := lastDtUp_spec s col n row
  rcases Int.lt_trichotomy (lastDtUp s col n row) r0 with h | h | h
  · have := a3 r0 h h2
    rw [hd] at this; cases this
  · exact h
  · exfalso
    have h5 := hn _ h a2
    rw [← isDt_iff] at h5
    rcases a4 with a4 | a4
    · exact h5 a4
    · omega

/-- What a successful end detection tells. -/
theorem estimateEnd_ok {sp : SParams} {s : Sheet} {hr hc pos e : Int} (hp : sp.dataStarts ≤ pos)
    (h : estimateEnd sp s hr hc pos = .ok e) :
    sp.dataStarts < e ∧ e ≠ 0 ∧ sp.dataStarts ≤ e + sp.timeAlignment ∧ e + sp.timeAlignment ≤ pos ∧
    (∀ x, e + sp.timeAlignment < x → x ≤ pos → ∀ t, timeCell s sp.alignment hr hc x ≠ .dt t) ∧
    ((∃ t, timeCell s sp.alignment hr hc (e + sp.timeAlignment) = .dt t) ∨
      e + sp.timeAlignment = sp.dataStarts) := by
  unfold estimateEnd at h
  split at h
  · next hal =>
    simp only at h
    split at h
    · next hc' =>
      injection h with h
      obtain ⟨a1, a2, a3, a4⟩ := lastDtUp_spec s hc (pos - sp.dataStarts).toNat pos
      have he : lastDtUp s hc (pos - sp.dataStarts).toNat pos = e + sp.timeAlignment := by omega
      rw [he] at a1 a2 a3 a4
      refine ⟨by omega, by omega, by omega, by omega, ?_, ?_⟩
      · intro x h1 h2 t ht
        unfold timeCell rowOf colOf at ht
        rw [if_pos hal, if_pos hal] at ht
        have := a3 x h1 h2
        rw [ht] at this; cases this
      · rcases a4 with a4 | a4
        · left
          obtain ⟨t, ht⟩ := (isDt_iff _).mp a4
          refine ⟨t, ?_⟩
          unfold timeCell rowOf colOf
          rw [if_pos hal, if_pos hal]; exact ht
        · right; omega
    · cases h
  · next hal =>
    split at h
    · next hd =>
      simp only at h
      split at h
      · injection h with h
        have he : e + sp.timeAlignment = pos := by omega
        rw [he]
        refine ⟨by omega, by omega, by omega, by omega, fun x h1 h2 => by omega, .inl ?_⟩
        obtain ⟨t, ht⟩ := (isDt_iff _).mp hd
        refine ⟨t, ?_⟩
        unfold timeCell rowOf colOf
        rw [if_neg, if_neg] <;> first | exact ht | exact hal
      · cases h
    · cases h

theorem estimateEnd_eq {sp : SParams} {s : Sheet} {hr hc pos r0 : Int} {t : Time}
    (hal : sp.alignment = .vertical) (h1 : sp.dataStarts ≤ r0) (h2 : r0 ≤ pos)
    (hd : timeCell s sp.alignment hr hc r0 = .dt t)
    (hn : ∀ x, r0 < x → x ≤ pos → ∀ t, timeCell s sp.alignment hr hc x ≠ .dt t)
    (hlt : sp.dataStarts < r0 - sp.timeAlignment) (h0 : r0 - sp.timeAlignment ≠ 0) :
    estimateEnd sp s hr hc pos = .ok (r0 - sp.timeAlignment) := by
  unfold timeCell rowOf colOf at hd hn
  simp only [if_pos hal] at hd hn
  unfold estimateEnd
  rw [hal]
  simp only
  rw [lastDtUp_eq (r0 := r0) (by omega) h2 hd (fun x a b ⟨t, ht⟩ => hn x a b t ht)]
  rw [if_pos ⟨h0, hlt⟩]

theorem estimateEnd_horizontal_typeError {sp : SParams} {s : Sheet} {hr hc pos : Int}
    (hal : sp.alignment = .horizontal) (h : ∀ t, timeCell s sp.alignment hr hc pos ≠ .dt t) :
    estimateEnd sp s hr hc pos = .error .typeError := by
  unfold timeCell rowOf colOf at h
  rw [hal] at h
  simp at h
  unfold estimateEnd
  rw [hal]
  simp only
  rw [if_neg]
  rw [isDt_iff]
  rintro ⟨t, ht⟩
  exact h t ht

/-! ### the stop cell -/

theorem searchParser_dt_error {ext : Ext} {sp : SParams} {t : Time} {last : Option Time}
    {next : Cell} {old q : Option Parser} {e : Err} {ps : List Parser} (hps : ps ≠ [])
    (h : searchParser ext sp (.dt t) last next old ps = (.error e, q)) :
    e = .timeIsNotComposed ∧ sp.timeComposed = true := by
  cases ps with
  | nil => exact absurd rfl hps
  | cons p ps =>
    unfold searchParser accepts at h
    cases hc : sp.timeComposed with
    | true => simp [hc] at h; exact ⟨h.1.symm, rfl⟩
    | false => simp [hc, parseWith, parseCell] at h

theorem parseTimeValue_dt_error {ext : Ext} {sp : SParams} {parser q : Option Parser} {t : Time}
    {last : Option Time} {next : Cell} {e : Err}
    (h : parseTimeValue ext sp parser (.dt t) last next = (.error e, q)) :
    e = .timeIsNotComposed ∧ sp.timeComposed = true := by
  unfold parseTimeValue at h
  split at h
  · exact searchParser_dt_error (by simp [parsers]) h
  · simp [parseWith, parseCell] at h

/-- A date-time where a single-frequency loop stops repeats the last one, and `data_ends` is not
given. -/
theorem stop_dt {ext : Ext} {sp : SParams} {st : CState} {s s' : Sheet} {q hr hc : Int} {t : Time}
    (hi : isImplicitStr sp.missingValue = false)
    (hv : ∀ x, st.last = some x → ValidTime x)
    (hh : timeHeaderCell sp.timeHeader = .ok (hr, hc))
    (ht : timeCell s sp.alignment hr hc q = .dt t)
    (h : cleanStep ext sp st s q = (.stop, s')) : st.last = some t ∧ hasEnd sp = false := by
  obtain ⟨hr', hc', curr, next, s0, hh', hcell, hcur, hnext, hn⟩ := cleanStep_stop h
  have hcd := getTimeValue_of_dt hh ht hcur
  subst hcd
  rcases cleanValue_stop hn with ⟨h1, _⟩ | ⟨_, h2, h3⟩
  · rw [mustBe_dt] at h1; cases h1
  · refine ⟨?_, h2⟩
    rcases h3 with ⟨e, p, hp, he⟩ | ⟨hf, t0, p, l, hp, hl, hcp⟩
    · rw [(parseTimeValue_dt_error hp).1] at he; cases he
    · have : t0 = t := by
        obtain ⟨p', _, hp', _⟩ := parseTimeValue_ok hp
        simp [parseWith, parseCell] at hp'; exact hp'.symm
      subst this
      have hvl := hv l hl
      obtain ⟨x, hx, _, hor⟩ := correctProgression_ok hvl hi hcp
      injection hx with hx; subst hx
      rcases hor with hinc | ⟨he, _⟩
      · exact absurd (incrementTime_lt hvl (Nat.le_refl 1) hinc) (Time.lt_irrefl _)
      · rw [hl, he]

/-! ### simulation: what the loop reads -/

theorem cleanValue_sim {ext : Ext} {sp : SParams} {st : CState} {s s' : Sheet} {r c : Int}
    {curr next : Cell} {x : StepEnd} (h : cleanValue ext sp st s r c curr next = (x, s')) :
    ∃ ch : Option Cell,
      s' = (match ch with | none => s | some v => s.set r c v) ∧
      ∀ s2, cleanValue ext sp st s2 r c curr next =
        (x, match ch with | none => s2 | some v => s2.set r c v) := by
  have herr : ∀ (st : CState) (e : Err) (s : Sheet), ∃ (x : StepEnd) (ch : Option Cell), ∀ s2,
      handleError sp st s2 r c e = (x, match ch with | none => s2 | some v => s2.set r c v) := by
    intro st e s
    unfold handleError
    by_cases h1 : e = .dayOutOfRange ∨ e = .monthOutOfRange
    · exact ⟨.next st, some .none, fun s2 => by rw [if_pos h1]⟩
    · by_cases h2 : endsIndex e = true ∧ hasEnd sp = false
      · exact ⟨.stop, none, fun s2 => by rw [if_neg h1, if_pos h2]⟩
      · exact ⟨.raise e, none, fun s2 => by rw [if_neg h1, if_neg h2]⟩
  have key : ∃ (x : StepEnd) (ch : Option Cell), ∀ s2, cleanValue ext sp st s2 r c curr next =
        (x, match ch with | none => s2 | some v => s2.set r c v) := by
    unfold cleanValue
    split
    · simp only
      split
      · exact herr _ _ s
      · split
        · exact herr _ _ s
        · exact ⟨.raise .attributeError, none, fun _ => rfl⟩
        · next t st1 _ =>
          split
          · exact herr _ _ s
          · exact ⟨.next _, some (.dt t), fun _ => rfl⟩
    · split
      · exact ⟨.next _, none, fun _ => rfl⟩
      · exact ⟨.stop, none, fun _ => rfl⟩
  obtain ⟨x', ch, hk⟩ := key
  have h1 := hk s
  rw [h] at h1
  injection h1 with h1 h2
  subst h1
  exact ⟨ch, h2, hk⟩

/-- Two sheets agree at a position, in every column (row). -/
def AgreeAt (al : Align) (s s2 : Sheet) (pos : Int) : Prop :=
  ∀ hr hc, timeCell s al hr hc pos = timeCell s2 al hr hc pos

theorem AgreeAt.of_cells {al : Align} {s s2 s' s2' : Sheet} {pos : Int} (h : AgreeAt al s s2 pos)
    (h1 : s'.cells = s.cells) (h2 : s2'.cells = s2.cells) : AgreeAt al s' s2' pos := by
  intro hr hc
  unfold timeCell
  rw [h1, h2]
  exact h hr hc

theorem AgreeAt.set {al : Align} {s s2 : Sheet} {pos : Int} (h : AgreeAt al s s2 pos) (r c : Int)
    (v : Cell) : AgreeAt al (s.set r c v) (s2.set r c v) pos := by
  intro hr hc
  unfold timeCell
  rw [set_cells, set_cells]
  split
  · rfl
  · exact h hr hc

theorem cleanStep_sim {ext : Ext} {sp : SParams} {st : CState} {s s' s2 : Sheet} {q : Int}
    {x : StepEnd} (ha : AgreeAt sp.alignment s s2 q) (hb : AgreeAt sp.alignment s s2 (q + 1))
    (h : cleanStep ext sp st s q = (x, s')) :
    ∃ s2', cleanStep ext sp st s2 q = (x, s2') ∧
      ∀ pos, AgreeAt sp.alignment s s2 pos → AgreeAt sp.alignment s' s2' pos := by
  unfold cleanStep at h ⊢
  have e1 := getTimeValue_congr_at ext sp q ha
  have f1 := getTimeValue_cells ext sp q s
  have g1 := getTimeValue_cells ext sp q s2
  generalize getTimeValue ext sp q s = x1 at *
  generalize getTimeValue ext sp q s2 = y1 at *
  obtain ⟨v1, t1⟩ := x1
  obtain ⟨w1, u1⟩ := y1
  simp only at e1 f1 g1
  subst e1
  cases v1 with
  | error e =>
    simp only at h ⊢
    injection h with h1 h2; subst h1; subst h2
    exact ⟨_, rfl, fun pos hp => hp.of_cells f1 g1⟩
  | ok curr =>
    simp only at h ⊢
    have e2 := getTimeValue_congr_at ext sp (q + 1) (hb.of_cells f1 g1)
    have f2 := getTimeValue_cells ext sp (q + 1) t1
    have g2 := getTimeValue_cells ext sp (q + 1) u1
    generalize getTimeValue ext sp (q + 1) t1 = x2 at *
    generalize getTimeValue ext sp (q + 1) u1 = y2 at *
    obtain ⟨v2, t2⟩ := x2
    obtain ⟨w2, u2⟩ := y2
    simp only at e2 f2 g2
    subst e2
    have F := f2.trans f1
    have G := g2.trans g1
    cases v2 with
    | error e =>
      simp only at h ⊢
      injection h with h1 h2; subst h1; subst h2
      exact ⟨_, rfl, fun pos hp => hp.of_cells F G⟩
    | ok next =>
      simp only at h ⊢
      split at h
      · next hh =>
        injection h with h1 h2; subst h1; subst h2
        exact ⟨_, rfl, fun pos hp => hp.of_cells F G⟩
      · next hr hc hh =>
        obtain ⟨ch, hs', hsim⟩ := cleanValue_sim h
        refine ⟨_, hsim _, ?_⟩
        intro pos hp
        rw [hs']
        have hp' : AgreeAt sp.alignment
            (t2.touch (axisCell sp.alignment hr hc q).1 (axisCell sp.alignment hr hc q).2)
            (u2.touch (axisCell sp.alignment hr hc q).1 (axisCell sp.alignment hr hc q).2) pos :=
          hp.of_cells F G
        cases ch with
        | none => exact hp'
        | some v => exact hp'.set _ _ _

theorem steps_sim {ext : Ext} {sp : SParams} {st st' : CState} {s s' s2 : Sheet} {p q b : Int}
    (ha : ∀ pos, pos ≤ b → AgreeAt sp.alignment s s2 pos) (h : Steps ext sp st s p st' s' q)
    (hq : q ≤ b) :
    ∃ s2', Steps ext sp st s2 p st' s2' q ∧ ∀ pos, pos ≤ b → AgreeAt sp.alignment s' s2' pos := by
  induction h with
  | refl => exact ⟨s2, .refl _ _ _, ha⟩
  | tail h hs ih =>
    obtain ⟨u, hu, hag⟩ := ih (by omega)
    obtain ⟨u', hu', hag'⟩ := cleanStep_sim (hag _ (by omega)) (hag _ (by omega)) hs
    exact ⟨u', .tail hu hu', fun pos hp => hag' pos (hag pos hp)⟩

theorem estimateEnd_congr {sp : SParams} {s s2 : Sheet} {hr hc pos : Int}
    (hal : sp.alignment ≠ .other)
    (ha : ∀ x, x ≤ pos → AgreeAt sp.alignment s s2 x) :
    estimateEnd sp s hr hc pos = estimateEnd sp s2 hr hc pos := by
  unfold estimateEnd
  cases hv : sp.alignment with
  | vertical =>
    simp only
    have : ∀ n row, row ≤ pos → lastDtUp s hc n row = lastDtUp s2 hc n row := by
      intro n
      induction n with
      | zero => intro row _; rfl
      | succ n ih =>
        intro row hrow
        have h1 := ha row hrow hr hc
        unfold timeCell rowOf colOf at h1
        simp only [hv, if_true] at h1
        unfold lastDtUp
        rw [h1, ih (row - 1) (by omega)]
    rw [this _ _ (Int.le_refl _)]
  | horizontal =>
    simp only
    have h1 := ha pos (Int.le_refl _) hr hc
    unfold timeCell rowOf colOf at h1
    simp only [hv] at h1
    simp at h1
    rw [h1]
  | other => exact absurd hv hal

/-- Steps through an intermediate position. -/
theorem steps_at {ext : Ext} {sp : SParams} {st st' : CState} {s s' : Sheet} {p q b : Int}
    (h : Steps ext sp st s p st' s' q) (h1 : p ≤ b) (h2 : b < q) :
    ∃ st1 s1 st2 s2, Steps ext sp st s p st1 s1 b ∧ cleanStep ext sp st1 s1 b = (.next st2, s2) ∧
      Steps ext sp st2 s2 (b + 1) st' s' q := by
  induction h with
  | refl => omega
  | @tail st1 s1 q st2 s2 h hs ih =>
    by_cases hb : b = q
    · subst hb; exact ⟨_, _, _, _, h, hs, .refl _ _ _⟩
    · obtain ⟨a1, a2, a3, a4, b1, b2, b3⟩ := ih (by omega)
      exact ⟨a1, a2, a3, a4, b1, b2, .tail b3 hs⟩

/-! ### blanked cells -/

theorem accepts_error {ext : Ext} {p : Parser} {c : Bool} {f : Str} {curr : Cell} {e : Err}
    (h : accepts ext p c f curr = .error e) :
    e = .timeIsNotComposed ∨ e = .noPossibleTimeValue ∨ e = .valueError := by
  unfold accepts at h
  split at h
  · split at h
    · injection h with h; exact .inl h.symm
    · cases h
  · injection h with h; exact .inr (.inl h.symm)
  · cases h
  · split at h
    · next hx =>
      injection h with h; subst h
      unfold floatIntStr at hx
      split at hx
      · injection hx with hx; exact .inr (.inr hx.symm)
      · cases hx
    · cases h
  · cases h

theorem searchParser_range {ext : Ext} {sp : SParams} {curr : Cell} {last : Option Time}
    {next : Cell} {old q : Option Parser} {e : Err} {ps : List Parser}
    (he : e = .dayOutOfRange ∨ e = .monthOutOfRange)
    (h : searchParser ext sp curr last next old ps = (.error e, q)) :
    ∃ p, parseWith ext p sp.frequency curr last next = .error e := by
  induction ps with
  | nil =>
    unfold searchParser at h
    injection h with h1 h2; injection h1 with h1; subst h1; simp at he
  | cons p ps ih =>
    unfold searchParser at h
    split at h
    · next hx =>
      injection h with h1 h2; injection h1 with h1; subst h1
      rcases accepts_error hx with h | h | h <;> subst h <;> simp at he
    · injection h with h1 h2; exact ⟨p, h1⟩
    · exact ih h

theorem parseTimeValue_range {ext : Ext} {sp : SParams} {curr : Cell} {last : Option Time}
    {next : Cell} {old q : Option Parser} {e : Err}
    (he : e = .dayOutOfRange ∨ e = .monthOutOfRange)
    (h : parseTimeValue ext sp old curr last next = (.error e, q)) :
    ∃ p, parseWith ext p sp.frequency curr last next = .error e := by
  unfold parseTimeValue at h
  split at h
  · exact searchParser_range he h
  · split at h
    · injection h with h1 h2; cases h1
    · next hp => injection h with h1 h2; injection h1 with h1; subst h1; exact ⟨_, hp⟩
    · next hp => injection h with h1 h2; injection h1 with h1; subst h1; exact ⟨_, hp⟩
    · exact searchParser_range he h

/-- A cell the loop emptied held a value whose day or month was out of range. -/
theorem steps_blanked {ext : Ext} {sp : SParams} {st st' : CState} {s s' : Sheet} {p q : Int}
    (h : Steps ext sp st s p st' s' q) (r c : Int) (hne : s'.cells r c ≠ s.cells r c)
    (hn : s'.cells r c = .none) :
    ∃ pos curr last next pr e, p ≤ pos ∧ pos < q ∧ (getTimeValue ext sp pos s).1 = .ok curr ∧
      parseWith ext pr sp.frequency curr last next = .error e ∧
      (e = .dayOutOfRange ∨ e = .monthOutOfRange) := by
  induction h with
  | refl => exact absurd rfl hne
  | @tail st1 s1 q st2 s2 h hs ih =>
    have hle := h.le
    obtain ⟨hr, hc, curr, next, s0, hh, hcell, hcur, hnext, hn'⟩ := cleanStep_next hs
    have old : s1.cells r c = s2.cells r c → ∃ pos curr last next pr e, p ≤ pos ∧ pos < q + 1 ∧
        (getTimeValue ext sp pos s).1 = .ok curr ∧
        parseWith ext pr sp.frequency curr last next = .error e ∧
        (e = .dayOutOfRange ∨ e = .monthOutOfRange) := by
      intro hx
      obtain ⟨pos, curr, last, next, pr, e, a, b, c⟩ := ih (by rw [hx]; exact hne) (by rw [hx]; exact hn)
      exact ⟨pos, curr, last, next, pr, e, a, by omega, c⟩
    have hget : (getTimeValue ext sp q s).1 = .ok curr := by
      rw [← hcur]
      apply getTimeValue_congr_at
      intro hr' hc'
      exact (steps_frame_pos h (Int.le_refl _) hr' hc').symm
    cases hn' with
    | write t0 t pr st1' must parsed corr fresh hst hs' =>
      apply old
      subst hs'
      rw [set_cells] at hn ⊢
      split at hn
      · cases hn
      · next hx => rw [if_neg hx, hcell]
    | blanked pr e must parsed out hst hs' =>
      obtain ⟨p', hp'⟩ := parseTimeValue_range out parsed
      exact ⟨q, curr, st1.last, next, p', e, hle, by omega, hget, hp', out⟩
    | skipped must few may hst hs' =>
      apply old
      subst hs'
      rw [hcell]

end Xls
