/-
Cleaning a worksheet again with the end that was found.
-/
import Verif.Lemmas.CleanMisc
import Verif.Lemmas.CleanRun
import Verif.Lemmas.Columns

set_option autoImplicit false

namespace Xls

open Spec

/-! ### One step with an end that is given -/

theorem handleError_given {sp : SParams} {st : CState} {s s' : Sheet} {r c : Int} {e : Err} {x : StepEnd}
    {d : Option Int} (hd : hasEnd { sp with dataEnds := d } = true) (h : handleError sp st s r c e = (x, s')) :
    handleError { sp with dataEnds := d } st s r c e = (x, s') ∨
      (x = .stop ∧ handleError { sp with dataEnds := d } st s r c e = (.raise e, s')) := by
  unfold handleError at h ⊢
  by_cases h1 : e = .dayOutOfRange ∨ e = .monthOutOfRange
  · rw [if_pos h1] at h ⊢
    exact .inl h
  · rw [if_neg h1] at h ⊢
    rw [if_neg (by rw [hd]; simp)]
    split at h
    · injection h with h2 h3
      subst h2; subst h3
      exact .inr ⟨rfl, rfl⟩
    · exact .inl h

theorem cleanValue_given {ext : Ext} {sp : SParams} {st : CState} {s s' : Sheet} {r c : Int}
    {curr next : Cell} {x : StepEnd} {d : Option Int} (hd : hasEnd { sp with dataEnds := d } = true)
    (h : cleanValue ext sp st s r c curr next = (x, s')) :
    cleanValue ext { sp with dataEnds := d } st s r c curr next = (x, s') ∨
      (x = .stop ∧ mustBeTimeValue sp curr = true ∧
        ∃ e, cleanValue ext { sp with dataEnds := d } st s r c curr next = (.raise e, s')) := by
  by_cases hm : mustBeTimeValue sp curr = true
  · have key : ∀ st e, handleError sp st s r c e = (x, s') →
        handleError { sp with dataEnds := d } st s r c e = (x, s') ∨
        (x = .stop ∧ mustBeTimeValue sp curr = true ∧
          ∃ e', handleError { sp with dataEnds := d } st s r c e = (.raise e', s')) := by
      intro st e h
      rcases handleError_given hd h with h1 | ⟨h1, h2⟩
      · exact .inl h1
      · exact .inr ⟨h1, hm, _, h2⟩
    have hm' : mustBeTimeValue { sp with dataEnds := d } curr = true := hm
    unfold cleanValue at h ⊢
    rw [if_pos hm] at h
    simp only [if_pos hm'] at h ⊢
    change _ ∨ _ at *
    rw [show parseTimeValue ext { sp with dataEnds := d } st.parser curr st.last next =
      parseTimeValue ext sp st.parser curr st.last next from by
        unfold parseTimeValue
        have : ∀ old ps, searchParser ext { sp with dataEnds := d } curr st.last next old ps =
            searchParser ext sp curr st.last next old ps := by
          intro old ps
          induction ps with
          | nil => rfl
          | cons p ps ih => unfold searchParser; rw [ih]
        simp only [this]]
    generalize parseTimeValue ext sp st.parser curr st.last next = y at *
    obtain ⟨y, p⟩ := y
    cases y with
    | error e => exact key _ _ h
    | ok t =>
      dsimp only at h ⊢
      rw [show correctStep { sp with dataEnds := d } _ t = correctStep sp _ t from rfl]
      generalize correctStep sp _ t = z at *
      match z with
      | .error e => exact key _ _ h
      | .ok (none, _) => exact .inl h
      | .ok (some t, st') =>
        dsimp only at h ⊢
        split at h
        · next hc => rw [if_pos hc]; exact key _ _ h
        · next hc => rw [if_neg hc]; exact .inl h
  · left
    have hm' : ¬ mustBeTimeValue { sp with dataEnds := d } curr = true := hm
    unfold cleanValue at h ⊢
    rw [if_neg hm] at h
    rw [if_neg hm']
    exact h

theorem cleanStep_given {ext : Ext} {sp : SParams} {st : CState} {s s' : Sheet} {pos : Int} {x : StepEnd}
    {d : Option Int} (hd : hasEnd { sp with dataEnds := d } = true) (h : cleanStep ext sp st s pos = (x, s')) :
    cleanStep ext { sp with dataEnds := d } st s pos = (x, s') ∨
      (x = .stop ∧ ∃ curr e, (getTimeValue ext sp pos s).1 = .ok curr ∧ mustBeTimeValue sp curr = true ∧
        cleanStep ext { sp with dataEnds := d } st s pos = (.raise e, s')) := by
  unfold cleanStep at h ⊢
  rw [show getTimeValue ext { sp with dataEnds := d } pos s = getTimeValue ext sp pos s from rfl]
  generalize hg : getTimeValue ext sp pos s = y at *
  obtain ⟨y, s1⟩ := y
  cases y with
  | error e => exact .inl h
  | ok curr =>
    dsimp only at h ⊢
    rw [show getTimeValue ext { sp with dataEnds := d } (pos + 1) s1 = getTimeValue ext sp (pos + 1) s1 from rfl]
    generalize getTimeValue ext sp (pos + 1) s1 = y at *
    obtain ⟨y, s2⟩ := y
    cases y with
    | error e => exact .inl h
    | ok next =>
      dsimp only at h ⊢
      generalize timeHeaderCell sp.timeHeader = y at *
      match y with
      | .error e => exact .inl h
      | .ok (hr, hc) =>
        dsimp only at h ⊢
        rcases cleanValue_given hd h with h1 | ⟨h1, h2, e, h3⟩
        · exact .inl h1
        · exact .inr ⟨h1, curr, e, rfl, h2, h3⟩

theorem steps_given {ext : Ext} {sp : SParams} {st st' : CState} {s s' : Sheet} {p q : Int} {d : Option Int}
    (hd : hasEnd { sp with dataEnds := d } = true) (h : Steps ext sp st s p st' s' q) :
    Steps ext { sp with dataEnds := d } st s p st' s' q := by
  induction h with
  | refl => exact .refl _ _ _
  | tail h hs ih =>
    rcases cleanStep_given hd hs with h1 | ⟨h1, _⟩
    · exact .tail ih h1
    · cases h1

/-! ### Worksheets with the same cells -/

theorem cleanStep_cells {ext : Ext} {sp : SParams} {st : CState} {s s' s2 : Sheet} {q : Int}
    {x : StepEnd} (ha : s2.cells = s.cells) (h : cleanStep ext sp st s q = (x, s')) :
    ∃ s2', cleanStep ext sp st s2 q = (x, s2') ∧ s2'.cells = s'.cells := by
  have hag : ∀ pos, AgreeAt sp.alignment s s2 pos := by
    intro pos hr hc
    unfold timeCell
    rw [ha]
  obtain ⟨s2', h1, _⟩ := cleanStep_sim (hag q) (hag _) h
  refine ⟨s2', h1, ?_⟩
  unfold cleanStep at h h1
  have e1 := getTimeValue_congr ext sp q ha.symm
  have f1 := getTimeValue_cells ext sp q s
  have g1 := getTimeValue_cells ext sp q s2
  generalize getTimeValue ext sp q s = x1 at *
  generalize getTimeValue ext sp q s2 = y1 at *
  obtain ⟨v1, t1⟩ := x1
  obtain ⟨w1, u1⟩ := y1
  simp only at e1 f1 g1
  subst e1
  cases v1 with
  | error e =>
    cases h
    cases h1
    rw [f1, g1, ha]
  | ok curr =>
    simp only at h h1
    have hu : t1.cells = u1.cells := by rw [f1, g1, ha]
    have e2 := getTimeValue_congr ext sp (q + 1) hu
    have f2 := getTimeValue_cells ext sp (q + 1) t1
    have g2 := getTimeValue_cells ext sp (q + 1) u1
    generalize getTimeValue ext sp (q + 1) t1 = x2 at *
    generalize getTimeValue ext sp (q + 1) u1 = y2 at *
    obtain ⟨v2, t2⟩ := x2
    obtain ⟨w2, u2⟩ := y2
    simp only at e2 f2 g2
    subst e2
    have hu2 : u2.cells = t2.cells := by rw [f2, g2, hu]
    cases v2 with
    | error e =>
      cases h
      cases h1
      exact hu2
    | ok next =>
      simp only at h h1
      split at h
      · next hh =>
        rw [hh] at h1
        cases h
        cases h1
        exact hu2
      · next hr hc hh =>
        rw [hh] at h1
        obtain ⟨ch, hs', hsim⟩ := cleanValue_sim h
        dsimp only at h1
        rw [hsim] at h1
        injection h1 with _ h1
        rw [← h1, hs']
        cases ch with
        | none => exact hu2
        | some v =>
          funext r' c'
          rw [set_cells, set_cells, touch_cells, touch_cells, hu2]

theorem steps_cells {ext : Ext} {sp : SParams} {st st' : CState} {s s' s2 : Sheet} {p q : Int}
    (ha : s2.cells = s.cells) (h : Steps ext sp st s p st' s' q) :
    ∃ s2', Steps ext sp st s2 p st' s2' q ∧ s2'.cells = s'.cells := by
  induction h with
  | refl => exact ⟨s2, .refl _ _ _, ha⟩
  | tail h hs ih =>
    obtain ⟨u, hu, hag⟩ := ih
    obtain ⟨u', hu', hag'⟩ := cleanStep_cells hag hs
    exact ⟨u', .tail hu hu', hag'⟩

/-! ### Nothing is written into an empty cell -/

theorem steps_none {ext : Ext} {sp : SParams} {st st' : CState} {s s' : Sheet} {p q : Int}
    (hm : sp.timeMulticolumn = false) (h : Steps ext sp st s p st' s' q) {r c : Int} (hn : s.cells r c = .none) :
    s'.cells r c = .none := by
  induction h with
  | refl => exact hn
  | @tail st1 s1 q st2 s2 h hs ih =>
    obtain ⟨hr, hc, curr, next, s0, hh, hcell, hcur, hnext, hn'⟩ := cleanStep_next hs
    cases hn' with
    | write t0 t pr st1' must parsed corr fresh hst hs' =>
      subst hs'
      rw [set_cells]
      split
      · next hx =>
        exfalso
        have hcd := getTimeValue_single hm hh hcur
        unfold timeCell at hcd
        rw [← hx.1, ← hx.2, ih] at hcd
        rw [hcd] at must
        simp [mustBeTimeValue] at must
      · rw [hcell, ih]
    | blanked pr e must parsed out hst hs' =>
      subst hs'
      rw [set_cells]
      split
      · rfl
      · rw [hcell, ih]
    | skipped must few may hst hs' =>
      subst hs'
      rw [hcell, ih]

theorem cleanTimeIndex_none {ext : Ext} {sp : SParams} {s : Sheet} (hm : sp.timeMulticolumn = false) {r c : Int}
    (hn : s.cells r c = .none) : (cleanTimeIndex ext sp s).2.cells r c = .none := by
  by_cases hf : sp.frequency = []
  · rw [cleanTimeIndex_empty s hf]
    exact hn
  · rw [cleanTimeIndex_accepted s hf]
    obtain ⟨st1, s1, q, h1, h2⟩ := cleanWith_end ext sp s
    rw [h2.cells]
    exact steps_none hm h1 hn

/-! ### The whole time index -/

/-- From a date-time on nothing is written if there is none afterwards and no cell was emptied. -/
theorem steps_rest {ext : Ext} {sp : SParams} {st st' : CState} {s s' : Sheet} {p q hr hc : Int}
    (hm : sp.timeMulticolumn = false) (hh : timeHeaderCell sp.timeHeader = .ok (hr, hc))
    (h : Steps ext sp st s p st' s' q)
    (hno : ∀ x, p ≤ x → x < q → ∀ t, timeCell s' sp.alignment hr hc x ≠ .dt t)
    (hne : ∀ r c, s'.cells r c = .none → s.cells r c = .none) : s'.cells = s.cells := by
  induction h with
  | refl => rfl
  | @tail st1 s1 q st2 s2 h hs ih =>
    have hle := h.le
    obtain ⟨hr', hc', curr, next, s0, hh', hcell, hcur, hnext, hn'⟩ := cleanStep_next hs
    rw [hh] at hh'
    cases hh'
    have hkeep : ∀ r c, s2.cells r c = s1.cells r c → s1.cells r c = .none → s.cells r c = .none := by
      intro r c e1 e2
      exact hne r c (by rw [e1, e2])
    cases hn' with
    | write t0 t pr st1' must parsed corr fresh hst hs' =>
      exfalso
      refine hno q hle (by omega) t ?_
      subst hs'
      unfold timeCell
      rw [set_cells, if_pos ⟨rfl, rfl⟩]
    | blanked pr e must parsed out hst hs' =>
      exfalso
      have hcd := getTimeValue_single hm hh hcur
      have h0 : s.cells (rowOf sp.alignment hr q) (colOf sp.alignment hc q) = .none := by
        apply hne
        subst hs'
        rw [set_cells, if_pos ⟨rfl, rfl⟩]
      have h1 := steps_none hm h h0
      unfold timeCell at hcd
      rw [h1] at hcd
      rw [hcd] at must
      simp [mustBeTimeValue] at must
    | skipped must few may hst hs' =>
      subst hs'
      rw [hcell]
      refine ih (fun x h1 h2 t => ?_) (fun r c => hkeep r c (by rw [hcell]))
      have := hno x h1 (by omega) t
      unfold timeCell at this ⊢
      rw [← hcell]
      exact this

theorem cleanWith_of_steps {ext : Ext} {sp : SParams} {s s1 : Sheet} {st1 : CState} {e hr hc : Int} {t : Time}
    (hal : sp.alignment ≠ .other) (hta : sp.timeAlignment = 0) (hd : sp.dataEnds = some e) (h0 : e ≠ 0)
    (hlt : sp.dataStarts < e) (hh : timeHeaderCell sp.timeHeader = .ok (hr, hc))
    (h : Steps ext sp .init s sp.dataStarts st1 s1 (e + 1)) (ht : timeCell s1 sp.alignment hr hc e = .dt t) :
    cleanWith ext sp s = (.ok e, s1) := by
  have hs : scanEnd sp s = e := by
    unfold scanEnd
    rw [hd]
    exact if_neg h0
  have he : estimateEnd sp s1 hr hc e = .ok e := by
    unfold estimateEnd
    unfold timeCell rowOf colOf at ht
    cases hv : sp.alignment with
    | vertical =>
      rw [hv] at ht
      dsimp only
      obtain ⟨n, hn⟩ : ∃ n, (e - sp.dataStarts).toNat = n + 1 := ⟨(e - sp.dataStarts).toNat - 1, by omega⟩
      have hdt : (s1.cells e hc).isDt = true := by
        rw [isDt_iff]; exact ⟨t, by simpa using ht⟩
      rw [hn, hta]
      unfold lastDtUp
      rw [if_pos hdt, if_pos ⟨by omega, by omega⟩]
      simp
    | horizontal =>
      rw [hv] at ht
      dsimp only
      have hdt : (s1.cells hr e).isDt = true := by
        rw [isDt_iff]; exact ⟨t, by simpa using ht⟩
      rw [hta, if_pos hdt, if_pos ⟨by omega, by omega⟩]
      simp
    | other => exact absurd hv hal
  unfold cleanWith
  rw [if_neg hal, hs, cleanLoop_steps h (by omega) none, intRange_nil (le_refl _)]
  rw [if_neg (by omega)]
  simp only [cleanLoop]
  rw [hh]
  dsimp only
  rw [show e + 1 - 1 = e by omega, he]

/-- What becomes of a time index whose end was found if it is cleaned again with this end. -/
theorem cleanTimeIndex_again {ext : Ext} {sp : SParams} {s s1 t : Sheet} {e : Int}
    (hm : sp.timeMulticolumn = false) (hta : sp.timeAlignment = 0)
    (h : cleanTimeIndex ext sp s = (.ok e, s1))
    (hne : ∀ r c, s1.cells r c = .none → s.cells r c = .none) (ht : t.cells = s.cells) :
    (∃ t1, cleanTimeIndex ext { sp with dataEnds := some e } t = (.ok e, t1) ∧ t1.cells = s1.cells) ∨
    ((∃ err t1, cleanTimeIndex ext { sp with dataEnds := some e } t = (.error err, t1)) ∧
      (isImplicitStr sp.missingValue = false → ExtValid ext → SheetValid s →
        ∃ hr hc pos x, HeaderAt sp hr hc ∧ sp.dataStarts ≤ pos ∧ pos < e ∧
          timeCell s1 sp.alignment hr hc pos = .dt x ∧ timeCell s1 sp.alignment hr hc e = .dt x)) := by
  by_cases hf : sp.frequency = []
  · rw [cleanTimeIndex_empty s hf] at h
    cases h
  rw [cleanTimeIndex_accepted s hf] at h
  rw [cleanTimeIndex_accepted (sp := { sp with dataEnds := some e }) t hf]
  have hal : sp.alignment ≠ .other := by
    intro ho
    unfold cleanWith at h
    rw [if_pos ho] at h
    cases h
  obtain ⟨st1, s1', q, h1, h2⟩ := cleanWith_end ext sp s
  have hc := h2.cells
  rw [h] at h2 hc
  dsimp only at h2 hc
  -- positions up to the end were gone through
  have main : ∀ hr hc, timeHeaderCell sp.timeHeader = .ok (hr, hc) → sp.dataStarts < e → e ≠ 0 → e < q →
      (∀ x, e < x → x < q → ∀ t, timeCell s1 sp.alignment hr hc x ≠ .dt t) →
      (∃ x, timeCell s1 sp.alignment hr hc e = .dt x) →
      ∃ t1, cleanWith ext { sp with dataEnds := some e } t = (.ok e, t1) ∧ t1.cells = s1.cells := by
    intro hr hc' hh k1 k2 k3 k4 ⟨x, k5⟩
    have hd : hasEnd { sp with dataEnds := some e } = true := by
      unfold hasEnd
      simpa using k2
    obtain ⟨sta, sa, stb, sb, a1, a2, a3⟩ := steps_at h1 (by omega : sp.dataStarts ≤ e) k3
    have a4 : Steps ext sp .init s sp.dataStarts stb sb (e + 1) := .tail a1 a2
    have hsb : s1'.cells = sb.cells := by
      refine steps_rest hm hh a3 (fun x h1 h2 t => ?_) (fun r c hn => ?_)
      · have := k4 x (by omega) h2 t
        unfold timeCell at this ⊢
        rw [← hc]; exact this
      · rw [← hc] at hn
        exact steps_none hm a4 (hne r c hn)
    obtain ⟨t1, b1, b2⟩ := steps_cells ht (steps_given hd a4)
    refine ⟨t1, cleanWith_of_steps (sp := { sp with dataEnds := some e }) hal hta rfl k2 k1 hh b1 (t := x) ?_,
      by rw [b2, ← hsb, hc]⟩
    unfold timeCell at k5 ⊢
    rw [b2, ← hsb, ← hc]
    exact k5
  have hle := h1.le
  obtain ⟨res, hres⟩ : ∃ res : Except Err Int, Except.ok e = res := ⟨_, rfl⟩
  rw [hres] at h2
  cases h2 with
  | error er s' hs hq => cases hres
  | done hr hc' hh hq hq' =>
    obtain ⟨k1, k2, k3, k4, k5, k6⟩ := estimateEnd_ok (by omega) hres.symm
    rw [hta, Int.add_zero] at k3 k4 k5 k6
    refine .inl (main hr hc' hh k1 k2 (by omega) (fun x a b => k5 x a (by omega)) ?_)
    rcases k6 with k6 | k6
    · exact k6
    · omega
  | stop hr hc' hh s' hs hq hstop =>
    obtain ⟨k1, k2, k3, k4, k5, k6⟩ := estimateEnd_ok (by omega) hres.symm
    rw [hta, Int.add_zero] at k3 k4 k5 k6
    have k7 : ∃ x, timeCell s1 sp.alignment hr hc' e = .dt x := by
      rcases k6 with k6 | k6
      · exact k6
      · omega
    by_cases he : e < q
    · exact .inl (main hr hc' hh k1 k2 he (fun x a b => k5 x a (by omega)) k7)
    · have he : e = q := by omega
      subst he
      obtain ⟨x, k7⟩ := k7
      have k8 : timeCell s1' sp.alignment hr hc' e = .dt x := by
        unfold timeCell at k7 ⊢
        rw [← hc]; exact k7
      have hd : hasEnd { sp with dataEnds := some e } = true := by
        unfold hasEnd
        simpa using k2
      right
      constructor
      · rcases cleanStep_given hd hstop with g | ⟨_, curr, er, _, _, g⟩
        · -- a date-time must be a time value
          exfalso
          obtain ⟨hr'', hc'', curr, next, s0, hh', hcell, hcur, hnext, hn⟩ := cleanStep_stop g
          have hcd := getTimeValue_of_dt (sp := { sp with dataEnds := some e }) hh k8 hcur
          subst hcd
          rcases cleanValue_stop hn with ⟨c1, _⟩ | ⟨_, c2, _⟩
          · rw [mustBe_dt] at c1; cases c1
          · rw [hd] at c2; cases c2
        · obtain ⟨t1, b1, b2⟩ := steps_cells ht (steps_given hd h1)
          obtain ⟨t2, b3, b4⟩ := cleanStep_cells b2 g
          refine ⟨er, t2, ?_⟩
          unfold cleanWith
          rw [if_neg hal]
          have hse : scanEnd { sp with dataEnds := some e } t = e := if_neg k2
          rw [hse, cleanLoop_steps b1 (by omega) none, intRange_cons (by omega)]
          simp only [cleanLoop, b3]
      · intro hi hev hsv
        have hv := steps_valid hev hsv h1 (by intro x hx; cases hx) (by intro c x hx; cases hx)
        have hl := (stop_dt hi hv.2.1 hh k8 hstop).1
        rw [steps_last hh h1 rfl] at hl
        have hmem := mem_indexTimes.1 (List.mem_of_getLast? hl)
        obtain ⟨pos, p1, p2, p3⟩ := hmem
        refine ⟨hr, hc', pos, x, headerAt_iff.2 hh, p1, p2, ?_, k7⟩
        unfold timeCell at p3 ⊢
        rw [hc]; exact p3

/-! ### Worksheets with the same cells -/

theorem cleanTimeIndex_cells {ext : Ext} {sp : SParams} {s s1 t : Sheet} {e : Int}
    (h : cleanTimeIndex ext sp s = (.ok e, s1)) (hd : hasEnd sp = true) (ht : t.cells = s.cells) :
    ∃ t1, cleanTimeIndex ext sp t = (.ok e, t1) ∧ t1.cells = s1.cells := by
  by_cases hf : sp.frequency = []
  · rw [cleanTimeIndex_empty s hf] at h
    cases h
  rw [cleanTimeIndex_accepted s hf] at h
  rw [cleanTimeIndex_accepted t hf]
  have hal : sp.alignment ≠ .other := by
    intro ho
    unfold cleanWith at h
    rw [if_pos ho] at h
    cases h
  have hse : scanEnd sp t = scanEnd sp s := by
    unfold hasEnd at hd
    unfold scanEnd
    cases hs : sp.dataEnds with
    | none => rw [hs] at hd; cases hd
    | some e =>
      rw [hs] at hd
      have : e ≠ 0 := by simpa using hd
      dsimp only
      rw [if_neg this, if_neg this]
  have hag : ∀ (a b : Sheet), a.cells = b.cells → ∀ x, AgreeAt sp.alignment a b x := by
    intro a b hab x hr hc
    unfold timeCell
    rw [hab]
  obtain ⟨st1, s1', q, h1, h2⟩ := cleanWith_end ext sp s
  rw [h] at h2
  dsimp only at h2
  have hle := h1.le
  obtain ⟨t1, b1, b2⟩ := steps_cells ht h1
  obtain ⟨res, hres⟩ : ∃ res : Except Err Int, Except.ok e = res := ⟨_, rfl⟩
  rw [hres] at h2
  unfold cleanWith
  rw [if_neg hal, hse]
  cases h2 with
  | error er s' hs hq => cases hres
  | done hr hc' hh hq hq' =>
    refine ⟨t1, ?_, b2⟩
    rw [cleanLoop_steps b1 (by omega) none, hq, intRange_nil (le_refl _), if_neg (by omega)]
    simp only [cleanLoop]
    rw [hh]
    dsimp only
    rw [hres, estimateEnd_congr hal (fun x _ => hag t1 s1 b2 x), hq]
  | stop hr hc' hh s' hs hq hstop =>
    obtain ⟨t2, b3, b4⟩ := cleanStep_cells b2 hstop
    refine ⟨t2, ?_, b4⟩
    rw [cleanLoop_steps b1 (by omega) none, intRange_cons (by omega)]
    simp only [cleanLoop, b3]
    rw [hh]
    dsimp only
    rw [hres, estimateEnd_congr hal (fun x _ => hag t2 s1 b4 x)]

theorem seriesRanges_congr (ext : Ext) {s s' : Sheet} (h : s.cells = s'.cells) {freq : Str} (hf : freq.length = 1)
    (ini : Int) (header : Str) (stop ta : Int) (al : Align) :
    seriesRanges ext s freq ini header stop ta al = seriesRanges ext s' freq ini header stop ta al := by
  unfold seriesRanges
  rw [if_pos hf, if_pos hf, singleRanges_congr ext h]

theorem rangesOfArgs_congr (ext : Ext) (p : Params) {s s' : Sheet} (h : s.cells = s'.cells) {sp : SParams}
    (hf : sp.frequency.length = 1) : rangesOfArgs ext p s (argsOf sp) = rangesOfArgs ext p s' (argsOf sp) := by
  unfold rangesOfArgs argsOf
  dsimp only
  rw [show PVal.asStr (rawValue sp .frequency) = .ok sp.frequency from rfl]
  have : ∀ (ini : Int) (header : Str) (stop ta : Int) (al : Align),
    seriesRanges ext s sp.frequency ini header stop ta al = seriesRanges ext s' sp.frequency ini header stop ta al :=
    fun _ _ _ _ _ => seriesRanges_congr ext h hf _ _ _ _ _
  have h2 : ∀ {α : Type} (f : Str → Except Err α), (Except.ok sp.frequency >>= f) = f sp.frequency := fun _ => rfl
  simp only [h2, this]

theorem bind_of_ok {α β : Type} {x : Except Err α} {a : α} (h : x = .ok a) (f : α → Except Err β) :
    (x >>= f) = f a := by
  rw [h]; rfl

theorem bucketLoop_congr {ext : Ext} {p : Params} : ∀ {sps : List SParams} {s s' t : Sheet} {bs bs' : List Bucket},
    (∀ sp ∈ sps, sp.frequency.length = 1) → t.cells = s.cells →
    bucketLoop ext p (sps.map argsOf) s bs = .ok (bs', s') →
    ∃ t', bucketLoop ext p (sps.map argsOf) t bs = .ok (bs', t') ∧ t'.cells = s'.cells
  | [], s, s', t, bs, bs', _, ht, h => by
    rw [List.map_nil] at h ⊢
    unfold bucketLoop at h ⊢
    cases h
    exact ⟨t, rfl, ht⟩
  | sp :: sps, s, s', t, bs, bs', hf, ht, h => by
    rw [List.map_cons] at h ⊢
    unfold bucketLoop at h ⊢
    rw [rangesOfArgs_congr ext p ht (hf sp (by simp))]
    split at h
    · cases h
    next prs reads h1 =>
      split at h
      · cases h
      next bs1 h2 =>
        exact bucketLoop_congr (fun x hx => hf x (by simp [hx])) (by rw [touchAll_cells, touchAll_cells, ht]) h

theorem seriesStep_congr {ext : Ext} {p : Params} {i : Nat} {s s' t : Sheet} {bs bs' : List Bucket} {sp : SParams}
    (hsp : p.typed i = .ok sp) (hf : sp.frequency.length = 1) (ht : t.cells = s.cells)
    (h : seriesStep ext p i s bs = .ok (bs', s')) :
    ∃ t', seriesStep ext p i t bs = .ok (bs', t') ∧ t'.cells = s'.cells := by
  unfold seriesStep at h ⊢
  rw [bind_of_ok hsp] at h ⊢
  split at h
  · cases h
  · obtain ⟨nv, h2, h⟩ := bind_ok h
    split at h
    · cases h
    next hne =>
      obtain ⟨header, h3, h⟩ := bind_ok h
      split at h
      · cases h
      next stop h4 =>
        obtain ⟨prs, h5, h⟩ := bind_ok h
        obtain ⟨bs1, h6, h⟩ := bind_ok h
        cases h
        rw [seriesRanges_congr ext (s' := t.touchAll (seriesReads ext sp t))
          (by rw [touchAll_cells, touchAll_cells, ht]) hf] at h5
        rw [getSeries_congr ext sp ht.symm] at h2
        refine ⟨(t.touchAll (seriesReads ext sp t)).touchAll
          (rangeReads sp.frequency sp.dataStarts header stop sp.timeAlignment sp.alignment), ?_, ?_⟩
        · simp only [bind_of_ok h2, if_neg hne, bind_of_ok h3, bind_of_ok h5, bind_of_ok h6]
          rfl
        · simp only [touchAll_cells, ht]

theorem seriesLoop_congr {ext : Ext} {p : Params} : ∀ {is : List Nat} {s s' t : Sheet} {bs bs' : List Bucket},
    (∀ i ∈ is, ∃ sp, p.typed i = .ok sp ∧ sp.frequency.length = 1) → t.cells = s.cells →
    seriesLoop ext p is s bs = .ok (bs', s') →
    ∃ t', seriesLoop ext p is t bs = .ok (bs', t') ∧ t'.cells = s'.cells
  | [], s, s', t, bs, bs', _, ht, h => by
    unfold seriesLoop at h ⊢
    cases h
    exact ⟨t, rfl, ht⟩
  | i :: is, s, s', t, bs, bs', hf, ht, h => by
    unfold seriesLoop at h ⊢
    split at h
    · cases h
    next bs1 s1 h1 =>
      obtain ⟨sp, hsp, hf'⟩ := hf i (by simp)
      obtain ⟨t1, h2, ht1⟩ := seriesStep_congr hsp hf' ht h1
      rw [h2]
      dsimp only
      exact seriesLoop_congr (fun x hx => hf x (by simp [hx])) ht1 h

/-- Extraction looks at the cells only. -/
theorem getData_congr {ext : Ext} {p : Params} {s s' t : Sheet} {fs : List Frame} {sps : List SParams}
    (hp : HasSeries p sps) (hf : ∀ sp ∈ sps, sp.frequency.length = 1) (ht : t.cells = s.cells)
    (h : getData ext p s = (.ok fs, s')) :
    ∃ t', getData ext p t = (.ok fs, t') ∧ t'.cells = s'.cells := by
  unfold getData at h ⊢
  rw [rangeArgs_series hp] at h ⊢
  rw [show ((Except.ok (sps.map argsOf) : Except Err (List RangeArgs)).bind fun as => bucketLoop ext p as s []) =
    bucketLoop ext p (sps.map argsOf) s [] from rfl] at h
  rw [show ((Except.ok (sps.map argsOf) : Except Err (List RangeArgs)).bind fun as => bucketLoop ext p as t []) =
    bucketLoop ext p (sps.map argsOf) t [] from rfl]
  split at h
  · cases h
  next bs s1 h1 =>
    obtain ⟨t1, h2, ht1⟩ := bucketLoop_congr hf ht h1
    rw [h2]
    dsimp only
    split at h
    · cases h
    next n hn =>
      have hlen : n = sps.length := by
        rw [hp .headersCoord] at hn
        unfold Params.len at hn
        cases hn
        simp
      subst hlen
      split at h
      · cases h
      next bs' s2 h3 =>
        obtain ⟨t2, h4, ht2⟩ := seriesLoop_congr (t := t1) (by
          intro i hi
          rw [List.mem_range] at hi
          exact ⟨sps[i], typed_of_series hp (List.getElem?_eq_getElem hi), hf _ (List.getElem_mem hi)⟩) ht1 h3
        rw [h4]
        dsimp only
        rw [(Prod.mk.inj h).1, ← (Prod.mk.inj h).2]
        exact ⟨t2, rfl, ht2⟩

end Xls
