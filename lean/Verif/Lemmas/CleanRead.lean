/-
Running the cleaning loop over a time index that can be read from top to bottom.
-/
import Verif.Lemmas.CleanMisc
import Verif.Lemmas.GetData2
import Verif.Spec.Extraction
import Verif.Spec.Reading

set_option autoImplicit false

namespace Xls

open Spec

/-- Where the time index is. -/
structure TimeLine (sp : SParams) (hr hc : Int) : Prop where
  header : TimeHeaderAt sp hr hc
  starts : 1 ≤ sp.dataStarts
  aligned : sp.alignment = .vertical ∨ sp.alignment = .horizontal
  freq : sp.frequency ≠ []

theorem headerCell_of {sp : SParams} {hr hc : Int} (h : HeaderAt sp hr hc) :
    timeHeaderCell sp.timeHeader = .ok (hr, hc) := by
  unfold HeaderAt at h
  unfold timeHeaderCell
  split at h
  next hh => rw [hh]; exact h
  · exact h.elim
  next hh => rw [hh]; exact h

theorem TimeLine.headerCell {sp : SParams} {hr hc : Int} (h : TimeLine sp hr hc) :
    timeHeaderCell sp.timeHeader = .ok (hr, hc) := headerCell_of h.header.first

theorem coordOf_line {al : Align} {coord : Str} {hr hc pos : Int} (h : coordOf coord = .ok (hr, hc))
    (hp : 1 ≤ pos) : 1 ≤ rowOf al hr pos ∧ 1 ≤ colOf al hc pos := by
  have := coordOf_pos h
  unfold rowOf colOf
  split <;> omega

theorem joinWith_intercalate (sep : Str) : ∀ ps : List Str, joinWith sep ps = sep.intercalate ps
  | [] => rfl
  | [p] => by simp [joinWith, List.intercalate]
  | p :: q :: ps => by
    rw [joinWith, joinWith_intercalate sep (q :: ps)]
    simp [List.intercalate]

theorem partOf_eq (ext : Ext) {v : Cell} (h : v.isDt = false) (ps : List Str) :
    (match partOf ext v with
      | some p => p :: ps
      | none => ps) = if skipPart v then ps else safeStr ext v :: ps := by
  cases v with
  | none => rfl
  | bool b => cases b <;> rfl
  | int i =>
    unfold partOf skipPart safeStr Cell.truthy
    by_cases hi : i = 0 <;> simp [hi]
  | float x =>
    cases x with
    | nan => rfl
    | fin q =>
      unfold partOf skipPart safeStr Cell.truthy
      by_cases hq : q = 0 <;> simp [hq]
  | str t =>
    by_cases ht : t = []
    · subst ht; rfl
    · by_cases hn : t = c!"None"
      · subst hn; rfl
      · have h1 : skipPart (.str t) = false := by
          show (t.isEmpty || t == c!"None") = false
          simp [ht, hn]
        rw [h1]
        unfold partOf safeStr
        dsimp only
        rw [if_neg (by simp [ht, hn])]
        cases pyInt t <;> rfl
  | dt t => cases h

theorem multiParts_plain {ext : Ext} {al : Align} {pos : Int} (hp : 1 ≤ pos) :
    ∀ (coords : List Str) (s : Sheet), (∀ coord ∈ coords, ∃ rc, coordOf coord = .ok rc) →
    (∀ coord ∈ coords, ∀ t, cellBeside s al coord pos ≠ .dt t) →
    ∃ s', multiParts ext al pos s coords =
      (.ok (coords.filterMap fun coord => partOf ext (cellBeside s al coord pos)), s') ∧ s'.cells = s.cells
  | [], s, _, _ => ⟨s, rfl, rfl⟩
  | coord :: coords, s, hc, hd => by
    obtain ⟨⟨r, c⟩, hrc⟩ := hc coord (by simp)
    have hpos := coordOf_line (al := al) hrc hp
    have hcb : cellBeside s al coord pos = timeCell s al r c pos := by
      unfold cellBeside
      rw [hrc]
    let s0 : Sheet := (s.touch r c).touch (rowOf al r pos) (colOf al c pos)
    have hs0 : s0.cells = s.cells := by
      show ((s.touch r c).touch _ _).cells = _
      rw [touch_cells, touch_cells]
    have hsame : ∀ x, cellBeside s0 al x pos = cellBeside s al x pos := by
      intro x
      unfold cellBeside timeCell
      rw [hs0]
    obtain ⟨s', e, hs'⟩ := multiParts_plain (ext := ext) hp coords s0
      (fun x hx => hc x (List.mem_cons_of_mem _ hx))
      (fun x hx t => by rw [hsame]; exact hd x (List.mem_cons_of_mem _ hx) t)
    have hdt : (timeCell s al r c pos).isDt = false := by
      have := hd coord (by simp)
      rw [hcb] at this
      cases hv : timeCell s al r c pos with
      | dt t => exact absurd hv (this t)
      | _ => rfl
    refine ⟨s', ?_, by rw [hs', hs0]⟩
    unfold multiParts
    rw [hrc]
    simp only [axisCell_eq]
    rw [if_pos hpos]
    rw [show s.cells (rowOf al r pos) (colOf al c pos) = timeCell s al r c pos from rfl, hdt]
    rw [if_neg (by decide)]
    rw [show (s.touch r c).touch (rowOf al r pos) (colOf al c pos) = s0 from rfl, e]
    simp only [hsame]
    rw [List.filterMap_cons, hcb, ← partOf_eq ext hdt]
    cases partOf ext (timeCell s al r c pos) <;> rfl

theorem joinParts_eq (ps : List Str) :
    (if strip (joinWith c!" " ps) = [] then Cell.none else .str (joinWith c!" " ps)) = joinParts ps := by
  unfold joinParts
  rw [joinWith_intercalate]
  refine if_congr ?_ rfl rfl
  rw [strip_eq_nil, List.all_eq_true]

theorem TimeLine.not_other {sp : SParams} {hr hc : Int} (h : TimeLine sp hr hc) :
    sp.alignment ≠ .other := by
  rcases h.aligned with h | h <;> rw [h] <;> simp

theorem getTimeValue_line {ext : Ext} {sp : SParams} {hr hc pos : Int} (h : TimeLine sp hr hc)
    (hp : sp.dataStarts ≤ pos) (s : Sheet) (hplain : PlainAt sp s pos) :
    ∃ s', getTimeValue ext sp pos s = (.ok (readCell ext sp s pos), s') ∧
      s'.cells = s.cells := by
  have hpos : 1 ≤ pos := by have := h.starts; omega
  cases hth : sp.timeHeader with
  | single coord =>
    have hm : sp.timeMulticolumn = false := by
      cases hm : sp.timeMulticolumn with
      | false => rfl
      | true =>
        obtain ⟨cs, e⟩ := h.header.kind.1 hm
        rw [hth] at e
        cases e
    have hrc : coordOf coord = .ok (hr, hc) := by
      have := h.header.first
      unfold HeaderAt at this
      rw [hth] at this
      exact this
    refine ⟨(getTimeValue ext sp pos s).2, ?_, getTimeValue_cells ext sp pos s⟩
    unfold getTimeValue readCell cellBeside
    rw [hm, hth]
    simp only [hrc, axisCell_eq]
    rw [if_pos (coordOf_line hrc hpos)]
    rfl
  | multi coords =>
    have hm : sp.timeMulticolumn = true := h.header.kind.2 ⟨coords, hth⟩
    obtain ⟨s', e, hs'⟩ := multiParts_plain (ext := ext) (al := sp.alignment) hpos coords s
      (h.header.readable coords hth) (hplain coords hth)
    refine ⟨s', ?_, hs'⟩
    unfold getTimeValue readCell
    rw [hm, hth]
    dsimp only
    rw [e]
    dsimp only
    rw [joinParts_eq]

/-- Whatever is in the lines of the header at other positions. -/
theorem cellBeside_same {s s' : Sheet} {al : Align} {pos : Int}
    (h : ∀ r c, s'.cells (rowOf al r pos) (colOf al c pos) = s.cells (rowOf al r pos) (colOf al c pos))
    (coord : Str) : cellBeside s' al coord pos = cellBeside s al coord pos := by
  unfold cellBeside timeCell
  split
  · exact h _ _
  · rfl

theorem readCell_same {ext : Ext} {sp : SParams} {s s' : Sheet} {pos : Int}
    (h : ∀ r c, s'.cells (rowOf sp.alignment r pos) (colOf sp.alignment c pos) =
      s.cells (rowOf sp.alignment r pos) (colOf sp.alignment c pos)) :
    readCell ext sp s' pos = readCell ext sp s pos := by
  unfold readCell
  simp only [cellBeside_same h]

theorem plainAt_same {sp : SParams} {s s' : Sheet} {pos : Int}
    (h : ∀ r c, s'.cells (rowOf sp.alignment r pos) (colOf sp.alignment c pos) =
      s.cells (rowOf sp.alignment r pos) (colOf sp.alignment c pos)) (hp : PlainAt sp s pos) :
    PlainAt sp s' pos := by
  intro coords h1 coord h2 t
  rw [cellBeside_same h]
  exact hp coords h1 coord h2 t

/-- What is at a position does not depend on cells at other positions. -/
theorem DatesWritten_line {s s' : Sheet} {al : Align} {hr hc start pos : Int} {ts : List (Option Time)}
    (h : DatesWritten s s' al hr hc start ts) (hlt : start + ts.length ≤ pos) (r c : Int) :
    s'.cells (rowOf al r pos) (colOf al c pos) = s.cells (rowOf al r pos) (colOf al c pos) := by
  refine h.others _ _ ?_
  intro i t hi hat
  have hi' := (List.getElem?_eq_some_iff.1 hi).1
  unfold IsAt rowOf colOf at hat
  split at hat <;> omega

/-- A single header is read where it is. -/
theorem readCell_single {ext : Ext} {sp : SParams} {s : Sheet} {coord : Str} {hr hc pos : Int}
    (h : sp.timeHeader = .single coord) (hrc : coordOf coord = .ok (hr, hc)) :
    readCell ext sp s pos = timeCell s sp.alignment hr hc pos := by
  unfold readCell cellBeside
  rw [h]
  simp only [hrc]

/-- What is read as blank holds no date. -/
theorem not_dt_of_blank {ext : Ext} {sp : SParams} {hr hc pos : Int} (h : TimeHeaderAt sp hr hc) {s : Sheet}
    (hplain : PlainAt sp s pos) (hb : BlankCell (readCell ext sp s pos)) (t : Time) :
    timeCell s sp.alignment hr hc pos ≠ .dt t := by
  have hf := h.first
  unfold HeaderAt at hf
  split at hf
  next coord hth =>
    rw [readCell_single hth hf] at hb
    intro e
    rw [e] at hb
    exact hb
  · exact hf.elim
  next coord coords hth =>
    have := hplain _ hth coord (by simp) t
    unfold cellBeside at this
    rw [hf] at this
    exact this

/-- The iteration at a position. -/
theorem cleanStep_line {ext : Ext} {sp : SParams} {hr hc pos : Int} (h : TimeLine sp hr hc)
    (hp : sp.dataStarts ≤ pos) (st : CState) (s : Sheet) (hp1 : PlainAt sp s pos)
    (hp2 : PlainAt sp s (pos + 1)) :
    ∃ s0, s0.cells = s.cells ∧ cleanStep ext sp st s pos =
      cleanValue ext sp st s0 (rowOf sp.alignment hr pos) (colOf sp.alignment hc pos)
        (readCell ext sp s pos) (readCell ext sp s (pos + 1)) := by
  obtain ⟨s1, hg1, hc1⟩ := getTimeValue_line (ext := ext) h hp s hp1
  obtain ⟨s2, hg2, hc2⟩ := getTimeValue_line (ext := ext) (pos := pos + 1) h (by omega) s1
    (plainAt_same (fun _ _ => by rw [hc1]) hp2)
  refine ⟨s2.touch (rowOf sp.alignment hr pos) (colOf sp.alignment hc pos), ?_, ?_⟩
  · rw [touch_cells, hc2, hc1]
  · unfold cleanStep
    rw [hg1]
    simp only
    rw [hg2]
    simp only [h.headerCell, axisCell_eq]
    congr 1
    exact readCell_same fun _ _ => by rw [hc1]

/-- If the loop stops at `q`. -/
theorem cleanLine_stop {ext : Ext} {sp : SParams} {hr hc : Int} (h : TimeLine sp hr hc)
    {st1 : CState} {s s1 s' : Sheet} {q : Int}
    (hst : Steps ext sp .init s sp.dataStarts st1 s1 q) (hq : q ≤ lastPosition sp s)
    (hs : cleanStep ext sp st1 s1 q = (.stop, s')) :
    cleanTimeIndex ext sp s = (estimateEnd sp s' hr hc q, s') := by
  rw [cleanTimeIndex_accepted s h.freq]
  unfold cleanWith
  rw [if_neg h.not_other, cleanLoop_steps hst (by rw [scanEnd_eq]; omega),
    intRange_cons (by rw [scanEnd_eq]; omega)]
  simp only [cleanLoop, hs, h.headerCell]

/-- If the loop visits all positions. -/
theorem cleanLine_done {ext : Ext} {sp : SParams} {hr hc : Int} (h : TimeLine sp hr hc)
    {st1 : CState} {s s1 : Sheet} {q : Int}
    (hst : Steps ext sp .init s sp.dataStarts st1 s1 q) (hq : q = lastPosition sp s + 1)
    (hlt : sp.dataStarts < q) :
    cleanTimeIndex ext sp s = (estimateEnd sp s1 hr hc (q - 1), s1) := by
  rw [cleanTimeIndex_accepted s h.freq]
  unfold cleanWith
  rw [if_neg h.not_other, cleanLoop_steps hst (by rw [scanEnd_eq]; omega),
    intRange_nil (by rw [scanEnd_eq]; omega), if_neg (by omega)]
  simp only [cleanLoop, h.headerCell]

/-- What the loop needs at one position: the cell `curr` before the cell `next` is taken as the date `ot`
(or skipped) and leads from a state of `Inv` to a state of `Inv'`. -/
def Takes (ext : Ext) (sp : SParams) (Inv Inv' : CState → Prop) (curr next : Cell) : Option Time → Prop
  | some t => mustBeTimeValue sp curr = true ∧ ∀ st, Inv st → ∃ t0 p st',
      parseTimeValue ext sp st.parser curr st.last next = (.ok t0, p) ∧
      correctStep sp { st with blanks := 0, parser := p } t0 = .ok (some t, st') ∧
      ¬ (st'.last = some t ∧ sp.frequency.length = 1) ∧ Inv' { st' with last := some t }
  | none => mustBeTimeValue sp curr = false ∧ (sp.continuity = false ∨ sp.blankRows = true) ∧
      ∀ st, Inv st → st.blanks < noTimeValueLimit ∧ Inv' { st with blanks := st.blanks + 1 }

theorem steps_line {ext : Ext} {sp : SParams} {hr hc : Int} (h : TimeLine sp hr hc) {s : Sheet}
    {ts : List (Option Time)} (Inv : Nat → CState → Prop) (h0 : Inv 0 .init)
    (hstep : ∀ (i : Nat) (ot : Option Time), ts[i]? = some ot →
      Takes ext sp (Inv i) (Inv (i + 1)) (readCell ext sp s (sp.dataStarts + i))
        (readCell ext sp s (sp.dataStarts + i + 1)) ot)
    (hplain : ∀ pos, sp.dataStarts ≤ pos → pos ≤ sp.dataStarts + ts.length → PlainAt sp s pos) :
    ∀ n : Nat, n ≤ ts.length → ∃ st s1, Steps ext sp .init s sp.dataStarts st s1 (sp.dataStarts + n) ∧
      Inv n st ∧ DatesWritten s s1 sp.alignment hr hc sp.dataStarts (ts.take n)
  | 0, _ => by
    refine ⟨.init, s, ?_, h0, ?_, ?_⟩
    · rw [show sp.dataStarts + ((0 : Nat) : Int) = sp.dataStarts by omega]
      exact .refl _ _ _
    · intro i t hi
      simp at hi
    · intro r c _; rfl
  | n + 1, hn => by
    obtain ⟨st, s1, hst, hinv, hw⟩ := steps_line h Inv h0 hstep hplain n (by omega)
    have hlt : n < ts.length := by omega
    have hget := List.getElem?_eq_getElem hlt
    have hT := hstep n _ hget
    have htake : ts.take (n + 1) = ts.take n ++ [ts[n]] := List.take_succ_eq_append_getElem hlt
    have hle : sp.dataStarts ≤ sp.dataStarts + n := by omega
    -- the cells at and after the position are still as they were
    have hline : ∀ p, sp.dataStarts + n ≤ p → ∀ r c,
        s1.cells (rowOf sp.alignment r p) (colOf sp.alignment c p) =
          s.cells (rowOf sp.alignment r p) (colOf sp.alignment c p) := by
      intro p hp
      exact DatesWritten_line hw (by rw [List.length_take]; omega)
    obtain ⟨s0, hs0, hcs⟩ := cleanStep_line (ext := ext) h hle st s1
      (plainAt_same (hline _ (Int.le_refl _)) (hplain _ hle (by omega)))
      (plainAt_same (hline _ (by omega)) (hplain _ (by omega) (by omega)))
    rw [readCell_same (hline _ (Int.le_refl _)), readCell_same (hline _ (by omega))] at hcs
    cases hot : ts[n] with
    | some t =>
      rw [hot] at hT htake
      obtain ⟨hmust, hT⟩ := hT
      obtain ⟨t0, p, st', hpar, hcor, hnew, hinv'⟩ := hT st hinv
      have hv : cleanStep ext sp st s1 (sp.dataStarts + n) = (.next { st' with last := some t },
          s0.set (rowOf sp.alignment hr (sp.dataStarts + n)) (colOf sp.alignment hc (sp.dataStarts + n))
            (.dt t)) := by
        rw [hcs]
        unfold cleanValue
        rw [if_pos hmust]
        simp only
        rw [hpar]
        simp only
        rw [hcor]
        simp only
        rw [if_neg hnew]
      refine ⟨{ st' with last := some t }, s0.set (rowOf sp.alignment hr (sp.dataStarts + n))
        (colOf sp.alignment hc (sp.dataStarts + n)) (.dt t), ?_, hinv', ?_, ?_⟩
      · rw [show sp.dataStarts + ((n + 1 : Nat) : Int) = sp.dataStarts + n + 1 by omega]
        exact .tail hst hv
      · intro i t' hi
        rw [htake] at hi
        have hlen : (ts.take n).length = n := by rw [List.length_take]; omega
        unfold timeCell
        rw [set_cells]
        by_cases hin : i = n
        · subst hin
          rw [List.getElem?_append_right (by omega), hlen, Nat.sub_self] at hi
          simp only [List.getElem?_cons_zero, Option.some.injEq] at hi
          subst hi
          rw [if_pos ⟨rfl, rfl⟩]
        · have hi' : i < n := by
            have := (List.getElem?_eq_some_iff.1 hi).1
            rw [List.length_append, hlen] at this
            simp at this
            omega
          rw [List.getElem?_append_left (by omega)] at hi
          rw [if_neg (by
            intro hx
            have := isAt_inj (al := sp.alignment) (hr := hr) (hc := hc) (a := sp.dataStarts + i)
              (b := sp.dataStarts + n) ⟨rfl, rfl⟩ hx
            omega), hs0]
          exact hw.dates i t' hi
      · intro r c hoff
        rw [set_cells, if_neg (by
          intro hx
          refine hoff n t ?_ hx
          rw [htake, List.getElem?_append_right (by rw [List.length_take]; omega), List.length_take,
            Nat.min_eq_left (by omega), Nat.sub_self]
          rfl), hs0]
        refine hw.others r c ?_
        intro i t' hi
        refine hoff i t' ?_
        rw [htake, List.getElem?_append_left (List.getElem?_eq_some_iff.1 hi).1]
        exact hi
    | none =>
      rw [hot] at hT htake
      obtain ⟨hmust, hor, hT⟩ := hT
      obtain ⟨hb, hinv'⟩ := hT st hinv
      have hv : cleanStep ext sp st s1 (sp.dataStarts + n) = (.next { st with blanks := st.blanks + 1 }, s0) := by
        rw [hcs]
        unfold cleanValue
        rw [if_neg (by rw [hmust]; decide), if_pos ⟨hb, hor⟩]
      have hlen : (ts.take n).length = n := by rw [List.length_take]; omega
      have hsnoc : ∀ (i : Nat) (t : Time), (ts.take (n + 1))[i]? = some (some t) ↔
          (ts.take n)[i]? = some (some t) := by
        intro i t
        rw [htake]
        rcases Nat.lt_or_ge i n with hi | hi
        · rw [List.getElem?_append_left (by omega)]
        · rw [List.getElem?_append_right (by omega), hlen, List.getElem?_eq_none (l := ts.take n) (by omega)]
          constructor
          · intro hx
            cases hk : i - n with
            | zero => rw [hk] at hx; cases hx
            | succ k => rw [hk] at hx; cases hx
          · intro hx; cases hx
      refine ⟨{ st with blanks := st.blanks + 1 }, s0, ?_, hinv', ?_, ?_⟩
      · rw [show sp.dataStarts + ((n + 1 : Nat) : Int) = sp.dataStarts + n + 1 by omega]
        exact .tail hst hv
      · intro i t hi
        unfold timeCell
        rw [hs0]
        exact hw.dates i t ((hsnoc i t).1 hi)
      · intro r c hoff
        rw [hs0]
        exact hw.others r c fun i t hi => hoff i t ((hsnoc i t).2 hi)

theorem datesWritten_blanks {s s' : Sheet} {al : Align} {hr hc start : Int} {ts : List (Option Time)} {k : Nat}
    (h : DatesWritten s s' al hr hc start (ts ++ List.replicate k none)) :
    DatesWritten s s' al hr hc start ts := by
  have key : ∀ (i : Nat) (t : Time), (ts ++ List.replicate k none)[i]? = some (some t) ↔
      ts[i]? = some (some t) := by
    intro i t
    rcases Nat.lt_or_ge i ts.length with hi | hi
    · rw [List.getElem?_append_left hi]
    · rw [List.getElem?_append_right hi, List.getElem?_eq_none hi, List.getElem?_replicate]
      split <;> simp
  exact ⟨fun i t hi => h.dates i t ((key i t).2 hi),
    fun r c ho => h.others r c fun i t hi => ho i t ((key i t).1 hi)⟩

/-- The cleaning of an index that reads `ts` from the start to `last` and then has `k` blank cells that
are passed over; there the scanned part of the sheet ends or the loop stops at the next cell. -/
theorem clean_line {ext : Ext} {sp : SParams} {hr hc last : Int} (h : TimeLine sp hr hc) {s : Sheet}
    {ts : List (Option Time)} {z : Time} {k : Nat} (Inv : Nat → CState → Prop) (h0 : Inv 0 .init)
    (hstep : ∀ (i : Nat) (ot : Option Time), (ts ++ List.replicate k none)[i]? = some ot →
      Takes ext sp (Inv i) (Inv (i + 1)) (readCell ext sp s (sp.dataStarts + i))
        (readCell ext sp s (sp.dataStarts + i + 1)) ot)
    (hplain : ∀ pos, sp.dataStarts ≤ pos → pos ≤ last + k + 2 → PlainAt sp s pos)
    (hlen : sp.dataStarts + ts.length = last + 1) (hle : sp.dataStarts ≤ last)
    (hlt : sp.dataStarts < last - sp.timeAlignment)
    (hz : ts.getLast? = some (some z))
    (hblank : ∀ x, last < x → x ≤ last + k + 1 → x ≤ lastPosition sp s →
      ∀ t, timeCell s sp.alignment hr hc x ≠ .dt t)
    (hend : (last + k = lastPosition sp s ∧ (k = 0 ∨ sp.alignment = .vertical)) ∨
      (sp.alignment = .vertical ∧ last + k < lastPosition sp s ∧
        ∀ st, Inv (ts.length + k) st → ∀ s0 r c,
          cleanValue ext sp st s0 r c (readCell ext sp s (last + k + 1))
            (readCell ext sp s (last + k + 2)) = (.stop, s0))) :
    ∃ s1, cleanTimeIndex ext sp s = (.ok (last - sp.timeAlignment), s1) ∧
      DatesWritten s s1 sp.alignment hr hc sp.dataStarts ts := by
  obtain ⟨st, s1, hst, hinv, hw⟩ := steps_line h Inv h0 hstep (fun pos h1 h2 => hplain pos h1 (by
    rw [List.length_append, List.length_replicate] at h2; omega)) (ts ++ List.replicate k none).length (Nat.le_refl _)
  rw [List.take_length] at hw
  have hw := datesWritten_blanks hw
  rw [List.length_append, List.length_replicate] at hst hinv
  rw [show sp.dataStarts + ((ts.length + k : Nat) : Int) = last + k + 1 by omega] at hst
  have hzl : ts[(last - sp.dataStarts).toNat]? = some (some z) := by
    rw [List.getLast?_eq_getElem?] at hz
    rw [← hz]
    congr 1
    omega
  have hlastcell := hw.dates _ _ hzl
  rw [show sp.dataStarts + (((last - sp.dataStarts).toNat : Nat) : Int) = last by omega] at hlastcell
  have hstart := h.starts
  have hsame : ∀ p, last + 1 ≤ p → timeCell s1 sp.alignment hr hc p =
      timeCell s sp.alignment hr hc p := by
    intro p hp
    unfold timeCell
    refine hw.others _ _ ?_
    intro i t hi hat
    have hi' := (List.getElem?_eq_some_iff.1 hi).1
    have := isAt_inj (al := sp.alignment) (hr := hr) (hc := hc) (a := p) ⟨rfl, rfl⟩ hat
    omega
  rcases hend with ⟨hend, hal⟩ | ⟨hal, hend, hstop⟩
  · rw [cleanLine_done h hst (by omega) (by omega), show last + k + 1 - 1 = last + k by omega]
    refine ⟨s1, ?_, hw⟩
    congr 1
    by_cases hv : sp.alignment = .vertical
    · have := estimateEnd_eq (sp := sp) (s := s1) (hr := hr) (hc := hc) (pos := last + k) hv (by omega)
        (by omega) hlastcell (fun x h1 h2 t ht => by
          rw [hsame x (by omega)] at ht
          exact hblank x h1 (by omega) (by omega) t ht) hlt (by omega)
      exact this
    · have hk : k = 0 := hal.resolve_right hv
      clear hal
      have hal : sp.alignment = .horizontal := h.aligned.resolve_left hv
      subst hk
      rw [show last + ((0 : Nat) : Int) = last by omega]
      unfold estimateEnd
      rw [hal]
      simp only
      have : (s1.cells hr last).isDt = true := by
        unfold timeCell rowOf colOf at hlastcell
        rw [hal] at hlastcell
        simp at hlastcell
        rw [hlastcell]
        rfl
      rw [if_pos this, if_pos ⟨by omega, hlt⟩]
  · have hline : ∀ p, last + 1 ≤ p → ∀ r c, s1.cells (rowOf sp.alignment r p) (colOf sp.alignment c p) =
        s.cells (rowOf sp.alignment r p) (colOf sp.alignment c p) := by
      intro p hp
      exact DatesWritten_line hw (by omega)
    obtain ⟨s0, hs0, hcs⟩ := cleanStep_line (ext := ext) h (by omega : sp.dataStarts ≤ last + k + 1) st s1
      (plainAt_same (hline _ (by omega)) (hplain _ (by omega) (by omega)))
      (plainAt_same (hline _ (by omega)) (hplain _ (by omega) (by omega)))
    rw [readCell_same (hline _ (by omega)), readCell_same (hline _ (by omega)), show last + k + 1 + 1 = last + k + 2 by omega,
      hstop st hinv s0] at hcs
    rw [cleanLine_stop h hst (by omega) hcs]
    have hw0 : DatesWritten s s0 sp.alignment hr hc sp.dataStarts ts := by
      refine ⟨?_, ?_⟩
      · intro i t hi
        have := hw.dates i t hi
        unfold timeCell at this ⊢
        rw [hs0]; exact this
      · intro r c hoff
        rw [hs0]; exact hw.others r c hoff
    refine ⟨s0, ?_, hw0⟩
    congr 1
    have hl0 : timeCell s0 sp.alignment hr hc last = .dt z := by
      unfold timeCell at hlastcell ⊢
      rw [hs0]; exact hlastcell
    have := estimateEnd_eq (sp := sp) (s := s0) (hr := hr) (hc := hc) (pos := last + k + 1) hal (by omega)
      (by omega) hl0 (fun x h1 h2 t ht => by
        refine hblank x h1 h2 (by omega) t ?_
        rw [← hsame x (by omega), ← ht]
        unfold timeCell
        rw [hs0]) hlt (by omega)
    exact this

end Xls
