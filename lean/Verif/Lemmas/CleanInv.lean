/-
Invariants of the cleaning loop.
-/
import Verif.Lemmas.Clean

set_option autoImplicit false

namespace Xls
open Spec

theorem isAt_inj {al : Align} {hr hc a b r c : Int} (h1 : IsAt al hr hc a r c)
    (h2 : IsAt al hr hc b r c) : a = b := by
  unfold IsAt rowOf colOf at *
  split at h1 <;> simp_all

/-! ### lists of date-times -/

theorem indexTimes_empty (s : Sheet) (al : Align) (hr hc : Int) {lo hi : Int} (h : hi ≤ lo) :
    indexTimes s al hr hc lo hi = [] := by
  unfold indexTimes
  have : (hi - lo).toNat = 0 := by omega
  rw [this]; rfl

theorem indexTimes_snoc (s : Sheet) (al : Align) (hr hc : Int) {lo hi : Int} (h : lo ≤ hi) :
    indexTimes s al hr hc lo (hi + 1) = indexTimes s al hr hc lo hi ++
      (match timeCell s al hr hc hi with | .dt t => [t] | _ => []) := by
  unfold indexTimes
  have h1 : (hi + 1 - lo).toNat = (hi - lo).toNat + 1 := by omega
  have h2 : lo + (((hi - lo).toNat : Nat) : Int) = hi := by omega
  rw [h1, List.range_succ, List.map_append, List.filterMap_append]
  simp only [List.map_cons, List.map_nil, h2]
  congr 1
  cases timeCell s al hr hc hi <;> rfl

theorem indexTimes_congr {s s' : Sheet} (al : Align) (hr hc : Int) {lo hi : Int}
    (h : ∀ p, lo ≤ p → p < hi → timeCell s al hr hc p = timeCell s' al hr hc p) :
    indexTimes s al hr hc lo hi = indexTimes s' al hr hc lo hi := by
  unfold indexTimes
  congr 1
  apply List.map_congr_left
  intro i hi'
  rw [List.mem_range] at hi'
  exact h _ (by omega) (by omega)

theorem mem_indexTimes {s : Sheet} {al : Align} {hr hc lo hi : Int} {t : Time} :
    t ∈ indexTimes s al hr hc lo hi ↔ ∃ p, lo ≤ p ∧ p < hi ∧ timeCell s al hr hc p = .dt t := by
  unfold indexTimes
  simp only [List.mem_filterMap, List.mem_map, List.mem_range]
  constructor
  · rintro ⟨c, ⟨i, hi', rfl⟩, hc'⟩
    refine ⟨lo + i, by omega, by omega, ?_⟩
    split at hc'
    · next heq => injection hc' with hc'; subst hc'; exact heq
    · cases hc'
  · rintro ⟨p, h1, h2, h3⟩
    refine ⟨_, ⟨(p - lo).toNat, by omega, rfl⟩, ?_⟩
    have : lo + (((p - lo).toNat : Nat) : Int) = p := by omega
    rw [this, h3]

theorem Spec.Consecutive.snoc {f : Str} {l t : Time} : ∀ {ts : List Time}, Consecutive f ts →
    ts.getLast? = some l → (∃ sh, shiftOf f = some sh ∧ IsShifted l 1 t sh) →
    Consecutive f (ts ++ [t])
  | [], _, h, _ => by simp at h
  | [a], _, h, hs => by simp at h; subst h; exact ⟨hs, trivial⟩
  | a :: b :: r, hc, h, hs => ⟨hc.1, Consecutive.snoc (ts := b :: r) hc.2 (by simpa using h) hs⟩

theorem Spec.Increasing.snoc {ts : List Time} {l t : Time} (h : Increasing ts)
    (hl : ts.getLast? = some l) (hlt : l < t) : Increasing (ts ++ [t]) := by
  unfold Increasing at *
  rw [List.pairwise_append]
  refine ⟨h, List.pairwise_singleton _ _, ?_⟩
  intro a ha b hb
  simp only [List.mem_singleton] at hb
  subst hb
  obtain ⟨ts', rfl⟩ := List.getLast?_eq_some_iff.mp hl
  rcases List.mem_append.mp ha with h' | h'
  · exact Time.lt_trans ((List.pairwise_append.mp h).2.2 a h' l (by simp)) hlt
  · simp only [List.mem_singleton] at h'; subst h'; exact hlt

/-! ### reading the index -/

/-- A date-time in the written column is what the index reads there. -/
theorem getTimeValue_of_dt {ext : Ext} {sp : SParams} {pos : Int} {s : Sheet} {hr hc : Int}
    {t : Time} {curr : Cell} (hh : timeHeaderCell sp.timeHeader = .ok (hr, hc))
    (hd : timeCell s sp.alignment hr hc pos = .dt t)
    (h : (getTimeValue ext sp pos s).1 = .ok curr) : curr = .dt t := by
  unfold getTimeValue at h
  unfold timeHeaderCell at hh
  split at h
  · simp at h
  · simp at h
  · next coord _ heq =>
    rw [heq] at hh
    simp only at hh
    rw [hh] at h
    simp only [axisCell_eq] at h
    split at h
    · simp only at h; injection h with h; rw [← h]; exact hd
    · simp at h
  · next coords _ heq =>
    rw [heq] at hh
    cases coords with
    | nil => simp at hh
    | cons c cs =>
      simp only at hh
      unfold multiParts at h
      rw [hh] at h
      simp only [axisCell_eq] at h
      unfold timeCell at hd
      split at h
      · next heq2 =>
        simp at h
      · next heq2 =>
        split at heq2
        · rw [hd] at heq2
          simp [Cell.isDt] at heq2
        · simp at heq2

/-- With one time column the value read at a position is the value of its cell. -/
theorem getTimeValue_single {ext : Ext} {sp : SParams} {pos : Int} {s : Sheet} {hr hc : Int}
    {curr : Cell} (hm : sp.timeMulticolumn = false)
    (hh : timeHeaderCell sp.timeHeader = .ok (hr, hc))
    (h : (getTimeValue ext sp pos s).1 = .ok curr) : curr = timeCell s sp.alignment hr hc pos := by
  unfold getTimeValue at h
  unfold timeHeaderCell at hh
  split at h
  · simp at h
  · simp at h
  · next coord _ heq =>
    rw [heq] at hh
    simp only at hh
    rw [hh] at h
    simp only [axisCell_eq] at h
    split at h
    · simp only at h; injection h with h; rw [← h]; rfl
    · simp at h
  · next hm' _ => rw [hm] at hm'; cases hm'

/-- What is read at a position depends only on the cells of that position. -/
theorem multiParts_congr_at (ext : Ext) (al : Align) (pos : Int) {s s' : Sheet}
    (h : ∀ hr hc, timeCell s al hr hc pos = timeCell s' al hr hc pos) (cs : List Str) :
    (multiParts ext al pos s cs).1 = (multiParts ext al pos s' cs).1 := by
  induction cs generalizing s s' with
  | nil => rfl
  | cons c cs ih =>
    unfold multiParts
    split
    · rfl
    · next hr hc _ =>
      simp only [axisCell_eq]
      split
      · have h1 := h hr hc
        unfold timeCell at h1
        rw [h1]
        split
        · rfl
        · have := ih (s := (s.touch hr hc).touch (rowOf al hr pos) (colOf al hc pos))
            (s' := (s'.touch hr hc).touch (rowOf al hr pos) (colOf al hc pos)) h
          generalize multiParts ext al pos ((s.touch hr hc).touch (rowOf al hr pos)
            (colOf al hc pos)) cs = x at *
          generalize multiParts ext al pos ((s'.touch hr hc).touch (rowOf al hr pos)
            (colOf al hc pos)) cs = y at *
          obtain ⟨x1, x2⟩ := x
          obtain ⟨y1, y2⟩ := y
          simp only at this
          subst this
          cases x1 <;> rfl
      · rfl

theorem getTimeValue_congr_at (ext : Ext) (sp : SParams) (pos : Int) {s s' : Sheet}
    (h : ∀ hr hc, timeCell s sp.alignment hr hc pos = timeCell s' sp.alignment hr hc pos) :
    (getTimeValue ext sp pos s).1 = (getTimeValue ext sp pos s').1 := by
  unfold getTimeValue
  split
  · rfl
  · rfl
  · split
    · rfl
    · next hr hc _ =>
      simp only [axisCell_eq]
      have h1 := h hr hc
      unfold timeCell at h1
      split <;> simp [h1]
  · next coords _ _ =>
    have := multiParts_congr_at ext sp.alignment pos h coords
    generalize multiParts ext sp.alignment pos s coords = x at *
    generalize multiParts ext sp.alignment pos s' coords = y at *
    obtain ⟨x1, x2⟩ := x
    obtain ⟨y1, y2⟩ := y
    simp only at this
    subst this
    cases x1 <;> rfl

theorem mustBe_dt (sp : SParams) (t : Time) : mustBeTimeValue sp (.dt t) = true := by
  simp [mustBeTimeValue, Cell.isFloat]

/-! ### frame -/

/-- Cells the loop changed are on the index between the start and the position reached, and hold a
date-time or nothing. -/
theorem steps_frame {ext : Ext} {sp : SParams} {st st' : CState} {s s' : Sheet} {p q hr hc : Int}
    (hh : timeHeaderCell sp.timeHeader = .ok (hr, hc)) (h : Steps ext sp st s p st' s' q) (r c : Int) :
    s'.cells r c = s.cells r c ∨
      (∃ pos, p ≤ pos ∧ pos < q ∧ IsAt sp.alignment hr hc pos r c) ∧
        (s'.cells r c = .none ∨ ∃ t, s'.cells r c = .dt t) := by
  induction h with
  | refl => exact .inl rfl
  | @tail st1 s1 q st2 s2 h hs ih =>
    have hle := h.le
    obtain ⟨hr', hc', curr, next, s0, hh', hcell, _, _, hn⟩ := cleanStep_next hs
    rw [hh] at hh'; injection hh' with hh'; injection hh' with e1 e2; subst e1; subst e2
    have key : ∀ v, s2 = s0.set (rowOf sp.alignment hr q) (colOf sp.alignment hc q) v →
        (v = .none ∨ ∃ t, v = .dt t) →
        s2.cells r c = s.cells r c ∨
        (∃ pos, p ≤ pos ∧ pos < q + 1 ∧ IsAt sp.alignment hr hc pos r c) ∧
          (s2.cells r c = .none ∨ ∃ t, s2.cells r c = .dt t) := by
      intro v hv hvv
      subst hv
      rw [set_cells]
      split
      · next hx => exact .inr ⟨⟨q, hle, by omega, hx⟩, hvv⟩
      · rw [hcell]
        rcases ih with ih | ⟨⟨pos, a1, a2, a3⟩, ih⟩
        · exact .inl ih
        · exact .inr ⟨⟨pos, a1, by omega, a3⟩, ih⟩
    cases hn with
    | write t0 t p st1' must parsed corr fresh hst hs' => exact key _ hs' (.inr ⟨t, rfl⟩)
    | blanked p e must parsed out hst hs' => exact key _ hs' (.inl rfl)
    | skipped must few may hst hs' =>
      subst hs'
      rw [hcell]
      rcases ih with ih | ⟨⟨pos, a1, a2, a3⟩, ih⟩
      · exact .inl ih
      · exact .inr ⟨⟨pos, a1, by omega, a3⟩, ih⟩

/-- Positions not yet visited are unchanged, in every column (row). -/
theorem steps_frame_pos {ext : Ext} {sp : SParams} {st st' : CState} {s s' : Sheet} {p q : Int}
    (h : Steps ext sp st s p st' s' q) {pos : Int} (hp : q ≤ pos) (hr' hc' : Int) :
    timeCell s' sp.alignment hr' hc' pos = timeCell s sp.alignment hr' hc' pos := by
  cases h with
  | refl => rfl
  | @tail st1 s1 q1 st2 s2 h hs =>
    obtain ⟨hr, hc, _, _, _, hh, _⟩ := cleanStep_next hs
    rcases steps_frame hh (.tail h hs) (rowOf sp.alignment hr' pos) (colOf sp.alignment hc' pos) with
      h' | ⟨⟨pos', a1, a2, a3⟩, _⟩
    · exact h'
    · exfalso
      have : pos' = pos := by
        unfold IsAt rowOf colOf at a3
        split at a3
        · exact a3.1.symm
        · exact a3.2.symm
      omega

/-- The list of date-times up to the next position, after one step. -/
theorem step_indexTimes {ext : Ext} {sp : SParams} {st st' : CState} {s s' : Sheet}
    {p q hr hc : Int} (hh : timeHeaderCell sp.timeHeader = .ok (hr, hc)) (hpq : p ≤ q)
    (hs : cleanStep ext sp st s q = (.next st', s')) :
    (∃ t0 t pr st1, (∀ x, (getTimeValue ext sp q s).1 = .ok (.dt x) → t0 = x) ∧
        (∃ curr next, (getTimeValue ext sp q s).1 = .ok curr ∧
          (getTimeValue ext sp (q + 1) s).1 = .ok next ∧
          parseTimeValue ext sp st.parser curr st.last next = (.ok t0, pr)) ∧
        correctStep sp { st with blanks := 0, parser := pr } t0 = .ok (some t, st1) ∧
        ¬ (st.last = some t ∧ sp.frequency.length = 1) ∧ st' = { st1 with last := some t } ∧
        indexTimes s' sp.alignment hr hc p (q + 1) = indexTimes s sp.alignment hr hc p q ++ [t]) ∨
    (st'.last = st.last ∧ st'.mfLast = st.mfLast ∧ st'.mfFreq = st.mfFreq ∧
      indexTimes s' sp.alignment hr hc p (q + 1) = indexTimes s sp.alignment hr hc p q) := by
  obtain ⟨hr', hc', curr, next, s0, hh', hcell, hcur, hnext, hn⟩ := cleanStep_next hs
  rw [hh] at hh'; injection hh' with hh'; injection hh' with e1 e2; subst e1; subst e2
  have old : ∀ v, indexTimes (s0.set (rowOf sp.alignment hr q) (colOf sp.alignment hc q) v)
      sp.alignment hr hc p q = indexTimes s sp.alignment hr hc p q := by
    intro v
    apply indexTimes_congr
    intro x hx1 hx2
    unfold timeCell
    rw [set_cells, if_neg, hcell]
    intro hx
    have := isAt_inj (al := sp.alignment) (hr := hr) (hc := hc) (a := x) (b := q) ⟨rfl, rfl⟩ hx
    omega
  have new : ∀ v, timeCell (s0.set (rowOf sp.alignment hr q) (colOf sp.alignment hc q) v)
      sp.alignment hr hc q = v := by
    intro v
    unfold timeCell
    rw [set_cells, if_pos ⟨rfl, rfl⟩]
  cases hn with
  | write t0 t pr st1 must parsed corr fresh hst hs' =>
    left
    refine ⟨t0, t, pr, st1, ?_, ⟨curr, next, hcur, hnext, parsed⟩, corr, fresh, hst, ?_⟩
    · intro x hx
      rw [hcur] at hx; injection hx with hx; subst hx
      obtain ⟨p', _, hp', _⟩ := parseTimeValue_ok parsed
      rcases parseCell_ok hp' with h' | ⟨_, _⟩
      · injection h' with h'; exact h'.symm
      · unfold parseWith parseCell at hp'
        simp at hp'; exact hp'.symm
    · subst hs'
      rw [indexTimes_snoc _ _ _ _ hpq, old, new]
  | blanked pr e must parsed out hst hs' =>
    right
    subst hst; subst hs'
    refine ⟨rfl, rfl, rfl, ?_⟩
    rw [indexTimes_snoc _ _ _ _ hpq, old, new]; simp
  | skipped must few may hst hs' =>
    right
    subst hst; subst hs'
    refine ⟨rfl, rfl, rfl, ?_⟩
    rw [indexTimes_snoc _ _ _ _ hpq]
    have h1 : indexTimes s' sp.alignment hr hc p q = indexTimes s sp.alignment hr hc p q := by
      apply indexTimes_congr; intro x _ _; unfold timeCell; rw [hcell]
    rw [h1]
    have h2 : timeCell s' sp.alignment hr hc q = timeCell s sp.alignment hr hc q := by
      unfold timeCell; rw [hcell]
    rw [h2]
    cases h3 : timeCell s sp.alignment hr hc q with
    | dt t =>
      have := getTimeValue_of_dt hh h3 hcur
      subst this
      rw [mustBe_dt] at must; cases must
    | _ => simp

/-- The last time of the loop is the last date-time on the sheet. -/
theorem steps_last {ext : Ext} {sp : SParams} {st st' : CState} {s s' : Sheet} {p q hr hc : Int}
    (hh : timeHeaderCell sp.timeHeader = .ok (hr, hc)) (h : Steps ext sp st s p st' s' q)
    (h0 : st.last = none) : st'.last = (indexTimes s' sp.alignment hr hc p q).getLast? := by
  induction h with
  | refl => rw [indexTimes_empty _ _ _ _ (Int.le_refl _), h0]; rfl
  | tail h hs ih =>
    rcases step_indexTimes hh h.le hs with ⟨t0, t, pr, st1, _, _, _, _, hst, hd⟩ | ⟨h1, _, _, h2⟩
    · rw [hd, hst]; simp
    · rw [h1, h2, ih]

/-- Date-times of the sheet stay real. -/
theorem steps_valid {ext : Ext} {sp : SParams} {st st' : CState} {s s' : Sheet} {p q : Int}
    (he : ExtValid ext) (hsv : SheetValid s) (h : Steps ext sp st s p st' s' q)
    (h0 : ∀ x, st.last = some x → ValidTime x)
    (hm0 : ∀ c x, mfGet st.mfLast c = some x → ValidTime x) :
    SheetValid s' ∧ (∀ x, st'.last = some x → ValidTime x) ∧
      (∀ c x, mfGet st'.mfLast c = some x → ValidTime x) := by
  induction h with
  | refl => exact ⟨hsv, h0, hm0⟩
  | @tail st1 s1 q st2 s2 h hs ih =>
    obtain ⟨i1, i2, i3⟩ := ih
    obtain ⟨hr, hc, curr, next, s0, hh, hcell, hcur, hnext, hn⟩ := cleanStep_next hs
    cases hn with
    | write t0 t pr st1' must parsed corr fresh hst hs' =>
      have hv0 : ValidTime t0 := by
        refine parseTimeValue_valid he ?_ parsed
        intro x hx
        subst hx
        obtain ⟨r, c, hrc⟩ := getTimeValue_dt hcur
        exact i1 r c x hrc
      have hvt : ValidTime t ∧ ∀ c x, mfGet st1'.mfLast c = some x → ValidTime x := by
        unfold correctStep at corr
        split at corr
        · split at corr
          · next hcp =>
            injection corr with corr; injection corr with c1 c2; subst c1; subst c2
            exact ⟨correctProgression_valid i2 hv0 hcp, i3⟩
          · cases corr
        · split at corr
          · cases corr
          · next f mff hf =>
            split at corr
            · cases corr
            · injection corr with corr; injection corr with c1 c2; cases c1
            · next t' hcp =>
              injection corr with corr; injection corr with c1 c2; injection c1 with c1
              subst c1; subst c2
              have hv := correctProgression_valid (i3 f) hv0 hcp
              refine ⟨hv, ?_⟩
              intro c x hx
              simp only [mfGet, mfSet, List.find?_cons] at hx
              split at hx
              · simp at hx; subst hx; exact hv
              · apply i3 c x
                unfold mfGet
                rw [← hx]
                congr 1
                rw [List.find?_filter]
                congr 1
                funext y
                by_cases hy : y.1 = c
                · subst hy
                  next hne => simp at hne; simp; exact fun h => hne h.symm
                · simp [hy]
      refine ⟨?_, ?_, ?_⟩
      · intro r c x hx
        subst hs'
        rw [set_cells] at hx
        split at hx
        · injection hx with hx; subst hx; exact hvt.1
        · rw [hcell] at hx; exact i1 r c x hx
      · intro x hx; subst hst; injection hx with hx; subst hx; exact hvt.1
      · subst hst; exact hvt.2
    | blanked pr e must parsed out hst hs' =>
      subst hst; subst hs'
      refine ⟨?_, i2, i3⟩
      intro r c x hx
      rw [set_cells] at hx
      split at hx
      · cases hx
      · rw [hcell] at hx; exact i1 r c x hx
    | skipped must few may hst hs' =>
      subst hst; subst hs'
      refine ⟨?_, i2, i3⟩
      intro r c x hx
      rw [hcell] at hx; exact i1 r c x hx

/-! ### one frequency: increasing, no holes -/

theorem steps_single {ext : Ext} {sp : SParams} {st st' : CState} {s s' : Sheet} {p q hr hc : Int}
    (he : ExtValid ext) (hsv : SheetValid s) (hf : sp.frequency.length = 1)
    (hi : isImplicitStr sp.missingValue = false)
    (hh : timeHeaderCell sp.timeHeader = .ok (hr, hc)) (h : Steps ext sp st s p st' s' q)
    (h0 : st.last = none) (hm0 : st.mfLast = []) :
    Increasing (indexTimes s' sp.alignment hr hc p q) ∧
      (sp.missings = false → Consecutive sp.frequency (indexTimes s' sp.alignment hr hc p q)) := by
  induction h with
  | refl =>
    rw [indexTimes_empty _ _ _ _ (Int.le_refl _)]
    exact ⟨List.Pairwise.nil, fun _ => trivial⟩
  | @tail st1 s1 q st2 s2 h hs ih =>
    have hval := steps_valid he hsv h (by rw [h0]; simp) (by rw [hm0]; simp [mfGet])
    have hlast := steps_last hh h h0
    rcases step_indexTimes hh h.le hs with ⟨t0, t, pr, st', _, _, corr, fresh, hst, hd⟩ | ⟨_, _, _, h2⟩
    · rw [hd]
      unfold correctStep at corr
      rw [if_pos hf] at corr
      split at corr
      · next hcp =>
        injection corr with corr; injection corr with c1 c2; subst c1; subst c2
        simp only at hcp fresh
        cases hl : st1.last with
        | none =>
          rw [hl] at hlast
          have hnil : indexTimes s1 sp.alignment hr hc p q = [] := by
            rw [← List.getLast?_eq_none_iff]; exact hlast.symm
          rw [hnil]
          exact ⟨List.pairwise_singleton _ _, fun _ => trivial⟩
        | some l =>
          rw [hl] at hcp hlast fresh
          have hvl := hval.2.1 l hl
          obtain ⟨t', ht', hnlt, hor⟩ := correctProgression_ok hvl hi hcp
          injection ht' with ht'; subst ht'
          have hne : l ≠ t := fun hx => fresh ⟨by rw [hx], hf⟩
          have hlt : l < t := by
            rcases (Time.not_lt_iff t l).mp hnlt with hx | hx
            · exact absurd hx.symm hne
            · exact hx
          refine ⟨Increasing.snoc ih.1 hlast.symm hlt, fun hm => ?_⟩
          refine Consecutive.snoc (ih.2 hm) hlast.symm ?_
          rcases hor with hinc | ⟨_, hx | hx⟩
          · obtain ⟨sh, a, _, b⟩ := incrementTime_ok hvl hinc; exact ⟨sh, a, b⟩
          · rw [hm] at hx; cases hx
          · exact absurd hx.symm hne
      · cases corr
    · rw [h2]; exact ih

/-! ### the whole cleaning -/

theorem cleanTimeIndex_accepted {ext : Ext} {sp : SParams} (s : Sheet) (hf : sp.frequency ≠ []) :
    cleanTimeIndex ext sp s = cleanWith ext sp s := by
  unfold cleanTimeIndex
  split
  · next h =>
    exfalso
    rw [List.find?_eq_none] at h
    have := h ⟨false, sp.timeAlignment != 0, decide (1 < sp.frequency.length), sp.timeMulticolumn⟩
      (by
        unfold cleaners
        cases sp.timeAlignment != 0 <;> cases decide (1 < sp.frequency.length) <;>
          cases sp.timeMulticolumn <;> decide)
    apply this
    unfold Cleaner.accepts
    have hl : sp.frequency.length ≠ 0 := by simpa using hf
    have ha : ∀ b : Bool, (if b = true then b else !b) = true := by decide
    by_cases h1 : 1 < sp.frequency.length
    · by_cases h2 : sp.timeAlignment = 0 <;> simp [h1, h2]
    · have h3 : sp.frequency.length = 1 := by omega
      by_cases h2 : sp.timeAlignment = 0 <;> simp [h3, h2]
  · rfl

theorem cleanTimeIndex_empty {ext : Ext} {sp : SParams} (s : Sheet) (hf : sp.frequency = []) :
    cleanTimeIndex ext sp s = (.error .timeIndexNotClean, s) := by
  unfold cleanTimeIndex
  have : (cleaners.find? fun cl => cl.accepts sp) = none := by
    rw [List.find?_eq_none]
    intro cl _
    unfold Cleaner.accepts
    simp only [hf, List.length_nil]
    cases cl.multiFreq <;> simp
  rw [this]

/-- The outcome of a cleaning, in terms of the position `q` where scanning ended. -/
inductive CleanEnd (ext : Ext) (sp : SParams) (s : Sheet) (st1 : CState) (s1 : Sheet) (q : Int) :
    Except Err Int → Sheet → Prop where
  /-- an exception -/
  | error (e : Err) (s' : Sheet) (hs : s'.cells = s1.cells) (hq : q ≤ max sp.dataStarts (scanEnd sp s + 1)) :
      CleanEnd ext sp s st1 s1 q (.error e) s'
  /-- all positions visited -/
  | done (hr hc : Int) (hh : timeHeaderCell sp.timeHeader = .ok (hr, hc))
      (hq : q = scanEnd sp s + 1) (hq' : sp.dataStarts < q) :
      CleanEnd ext sp s st1 s1 q (estimateEnd sp s1 hr hc (q - 1)) s1
  /-- stopped -/
  | stop (hr hc : Int) (hh : timeHeaderCell sp.timeHeader = .ok (hr, hc)) (s' : Sheet)
      (hs : s'.cells = s1.cells) (hq : q < scanEnd sp s + 1)
      (h : cleanStep ext sp st1 s1 q = (.stop, s')) :
      CleanEnd ext sp s st1 s1 q (estimateEnd sp s' hr hc q) s'

theorem cleanWith_end (ext : Ext) (sp : SParams) (s : Sheet) :
    ∃ st1 s1 q, Steps ext sp .init s sp.dataStarts st1 s1 q ∧
      CleanEnd ext sp s st1 s1 q (cleanWith ext sp s).1 (cleanWith ext sp s).2 := by
  unfold cleanWith
  split
  · exact ⟨_, _, _, .refl _ _ _, .error _ _ rfl (by omega)⟩
  · obtain ⟨st1, s1, q, hst, hend⟩ := cleanLoop_end (ext := ext) (sp := sp) _ (st := .init) (s := s)
      (reached := none) (p := sp.dataStarts) (e := scanEnd sp s + 1) rfl
    refine ⟨st1, s1, q, hst, ?_⟩
    have hle := hst.le
    generalize cleanLoop ext sp .init s none (intRange sp.dataStarts (scanEnd sp s + 1)) = res at *
    obtain ⟨r1, r2⟩ := res
    simp only at hend
    cases hend with
    | done hq =>
      by_cases hqp : q = sp.dataStarts
      · rw [if_pos hqp]; exact .error _ _ rfl (by omega)
      · rw [if_neg hqp]
        simp only
        split
        · exact .error _ _ rfl (by omega)
        · next hr hc hh => exact .done hr hc hh (by omega) (by omega)
    | stop s' hq h =>
      have hc := cleanStep_end h (by simp)
      simp only
      split
      · exact .error _ _ hc (by omega)
      · next hr hc' hh => exact .stop hr hc' hh _ hc hq h
    | raise er s' hq h =>
      have hc := cleanStep_end h (by simp)
      exact .error _ _ hc (by omega)

theorem CleanEnd.cells {ext : Ext} {sp : SParams} {s : Sheet} {st1 : CState} {s1 : Sheet} {q : Int}
    {r : Except Err Int} {s' : Sheet} (h : CleanEnd ext sp s st1 s1 q r s') :
    s'.cells = s1.cells := by
  cases h with
  | error _ _ hs _ => exact hs
  | done => rfl
  | stop _ _ _ _ hs _ _ => exact hs

theorem CleanEnd.bound {ext : Ext} {sp : SParams} {s : Sheet} {st1 : CState} {s1 : Sheet} {q : Int}
    {r : Except Err Int} {s' : Sheet} (h : CleanEnd ext sp s st1 s1 q r s')
    :
    q ≤ max sp.dataStarts (scanEnd sp s + 1) := by
  cases h with
  | error _ _ _ hq => exact hq
  | done _ _ _ hq _ => omega
  | stop _ _ _ _ _ hq _ => omega

end Xls
