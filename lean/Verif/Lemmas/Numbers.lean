/-
Worksheets with the same dates and headers and other numbers.
-/
import Verif.Spec.Numbers
import Verif.Lemmas.Moved3
import Verif.Lemmas.Usable

set_option autoImplicit false

namespace Xls

open Spec

/-! ### Cleaning does not look at other cells -/

/-- The worksheet with other contents of the cells outside `T`. -/
def over (T : Int → Int → Bool) (g : Int → Int → Cell) (s : Sheet) : Sheet :=
  { s with cells := fun r c => if T r c = true then s.cells r c else g r c }

section
variable {T : Int → Int → Bool} {g : Int → Int → Cell}

theorem over_cells {s : Sheet} {r c : Int} (h : T r c = true) : (over T g s).cells r c = s.cells r c := if_pos h

theorem over_touch (s : Sheet) (r c : Int) : (over T g s).touch r c = over T g (s.touch r c) := rfl

theorem over_set {s : Sheet} {r c : Int} (v : Cell) (h : T r c = true) :
    (over T g s).set r c v = over T g (s.set r c v) := by
  unfold over Sheet.set Sheet.touch
  dsimp only
  congr 1
  funext r' c'
  by_cases he : r' = r ∧ c' = c
  · obtain ⟨rfl, rfl⟩ := he
    simp [h]
  · simp only [if_neg he]

/-- The line of a header is in `T`. -/
def LineT (T : Int → Int → Bool) (al : Align) (a : Str) : Prop :=
  ∀ hr hc, coordOf a = .ok (hr, hc) → ∀ pos, T (axisCell al hr hc pos).1 (axisCell al hr hc pos).2 = true

theorem multiParts_over (ext : Ext) (al : Align) (pos : Int) : ∀ (cs : List Str) (s : Sheet),
    (∀ a ∈ cs, LineT T al a) →
    multiParts ext al pos (over T g s) cs = ((multiParts ext al pos s cs).1, over T g (multiParts ext al pos s cs).2)
  | [], _, _ => rfl
  | a :: cs, s, h => by
    unfold multiParts
    cases hc : coordOf a with
    | error e => rfl
    | ok rc =>
      obtain ⟨hr, hc'⟩ := rc
      dsimp only
      rw [over_cells (h a (by simp) hr hc' hc pos), over_touch, over_touch]
      split
      · split
        · rfl
        · rw [multiParts_over ext al pos cs _ fun b hb => h b (by simp [hb])]
          rcases multiParts ext al pos
            ((s.touch hr hc').touch (axisCell al hr hc' pos).1 (axisCell al hr hc' pos).2) cs with ⟨x, u⟩
          cases x <;> rfl
      · rfl

/-- All dates of the series are in `T`. -/
def DatesT (T : Int → Int → Bool) (sp : SParams) : Prop := ∀ a ∈ timeCoords sp.timeHeader, LineT T sp.alignment a

theorem getTimeValue_over (ext : Ext) {sp : SParams} (h : DatesT T sp) (pos : Int) (s : Sheet) :
    getTimeValue ext sp pos (over T g s) = ((getTimeValue ext sp pos s).1, over T g (getTimeValue ext sp pos s).2) := by
  unfold getTimeValue
  obtain ⟨th, hth⟩ : ∃ th, sp.timeHeader = th := ⟨_, rfl⟩
  unfold DatesT at h
  rw [hth] at h ⊢
  cases hm : sp.timeMulticolumn <;> cases th with
  | single a =>
    first
      | rfl
      | (dsimp only
         cases hc : coordOf a with
         | error e => rfl
         | ok rc =>
           obtain ⟨hr, hc'⟩ := rc
           dsimp only
           rw [over_cells (h a (by simp [timeCoords]) hr hc' hc pos), over_touch, over_touch]
           split <;> rfl)
  | multi cs =>
    first
      | rfl
      | (dsimp only
         rw [multiParts_over ext sp.alignment pos cs s h]
         rcases multiParts ext sp.alignment pos s cs with ⟨x, u⟩
         cases x <;> rfl)

theorem handleError_over (sp : SParams) (st : CState) (s : Sheet) {r c : Int} (h : T r c = true) (e : Err) :
    handleError sp st (over T g s) r c e = ((handleError sp st s r c e).1, over T g (handleError sp st s r c e).2) := by
  unfold handleError
  rw [over_set _ h]
  split
  · rfl
  · split <;> rfl

theorem cleanValue_over (ext : Ext) (sp : SParams) (st : CState) (s : Sheet) {r c : Int} (h : T r c = true)
    (curr next : Cell) : cleanValue ext sp st (over T g s) r c curr next =
      ((cleanValue ext sp st s r c curr next).1, over T g (cleanValue ext sp st s r c curr next).2) := by
  unfold cleanValue
  split
  · dsimp only
    rcases parseTimeValue ext sp st.parser curr st.last next with ⟨x, p⟩
    cases x with
    | error e => exact handleError_over sp _ s h e
    | ok t =>
      dsimp only
      rcases correctStep sp { st with blanks := 0, parser := p } t with e | ⟨_ | t', st'⟩
      · exact handleError_over sp _ s h e
      · rfl
      · dsimp only
        split
        · exact handleError_over sp _ s h _
        · rw [over_set _ h]
  · split <;> rfl

theorem header_dates {sp : SParams} (h : DatesT T sp) {hr hc : Int} (hh : timeHeaderCell sp.timeHeader = .ok (hr, hc))
    (pos : Int) : T (axisCell sp.alignment hr hc pos).1 (axisCell sp.alignment hr hc pos).2 = true := by
  unfold DatesT at h
  revert h hh
  cases sp.timeHeader with
  | single a => intro h hh; exact h a (by simp [timeCoords]) hr hc hh pos
  | multi cs =>
    cases cs with
    | nil => intro h hh; cases hh
    | cons a cs => intro h hh; exact h a (by simp [timeCoords]) hr hc hh pos

theorem cleanStep_over (ext : Ext) {sp : SParams} (h : DatesT T sp) (st : CState) (s : Sheet) (pos : Int) :
    cleanStep ext sp st (over T g s) pos = ((cleanStep ext sp st s pos).1, over T g (cleanStep ext sp st s pos).2) := by
  unfold cleanStep
  rw [getTimeValue_over ext h]
  rcases getTimeValue ext sp pos s with ⟨x, u⟩
  cases x with
  | error e => rfl
  | ok curr =>
    dsimp only
    rw [getTimeValue_over ext h]
    rcases getTimeValue ext sp (pos + 1) u with ⟨y, v⟩
    cases y with
    | error e => rfl
    | ok next =>
      dsimp only
      cases hh : timeHeaderCell sp.timeHeader with
      | error e => rfl
      | ok rc =>
        obtain ⟨hr, hc⟩ := rc
        dsimp only
        rw [over_touch]
        exact cleanValue_over ext sp st _ (header_dates h hh pos) curr next

theorem cleanLoop_over (ext : Ext) {sp : SParams} (h : DatesT T sp) : ∀ (ps : List Int) (st : CState) (s : Sheet)
    (reached : Option Int), cleanLoop ext sp st (over T g s) reached ps =
      ((cleanLoop ext sp st s reached ps).1, over T g (cleanLoop ext sp st s reached ps).2)
  | [], _, _, _ => rfl
  | pos :: ps, st, s, reached => by
    unfold cleanLoop
    rw [cleanStep_over ext h]
    rcases cleanStep ext sp st s pos with ⟨x, u⟩
    cases x with
    | raise e => rfl
    | stop => rfl
    | next st' => exact cleanLoop_over ext h ps st' u (some pos)

theorem lastDtUp_over {s : Sheet} {col : Int} (h : ∀ row, T row col = true) : ∀ (n : Nat) (row : Int),
    lastDtUp (over T g s) col n row = lastDtUp s col n row
  | 0, _ => rfl
  | n + 1, row => by
    unfold lastDtUp
    rw [over_cells (h row), lastDtUp_over h n]

theorem estimateEnd_over {sp : SParams} {s : Sheet} {hr hc : Int}
    (h : ∀ pos, T (axisCell sp.alignment hr hc pos).1 (axisCell sp.alignment hr hc pos).2 = true) (pos : Int) :
    estimateEnd sp (over T g s) hr hc pos = estimateEnd sp s hr hc pos := by
  unfold estimateEnd
  revert h
  cases sp.alignment with
  | vertical => intro h; dsimp only; rw [lastDtUp_over (T := T) (col := hc) (show ∀ row, T row hc = true from fun row => h row)]
  | horizontal => intro h; dsimp only; rw [over_cells (show T hr pos = true from h pos)]
  | other => intro h; dsimp only; rw [over_cells (show T hr pos = true from h pos)]

theorem cleanTimeIndex_over (ext : Ext) {sp : SParams} (h : DatesT T sp) (s : Sheet) :
    cleanTimeIndex ext sp (over T g s) = ((cleanTimeIndex ext sp s).1, over T g (cleanTimeIndex ext sp s).2) := by
  unfold cleanTimeIndex
  split
  · rfl
  · unfold cleanWith
    split
    · rfl
    · rw [show scanEnd sp (over T g s) = scanEnd sp s from rfl, cleanLoop_over ext h]
      rcases cleanLoop ext sp .init s none (intRange sp.dataStarts (scanEnd sp s + 1)) with ⟨x, u⟩
      cases x with
      | error e => rfl
      | ok o =>
        cases o with
        | none => rfl
        | some pos =>
          dsimp only
          cases hh : timeHeaderCell sp.timeHeader with
          | error e => rfl
          | ok rc =>
            obtain ⟨hr, hc⟩ := rc
            dsimp only
            rw [estimateEnd_over fun pos => header_dates h hh pos]

theorem cleanSeries_over (ext : Ext) : ∀ (rest pre : List SParams) {p : Params} (s : Sheet) (ends : List (Str × Int)),
    HasSeries p (pre ++ rest) → (∀ sp ∈ rest, DatesT T sp) →
    cleanSeries ext (List.range' pre.length rest.length) p (over T g s) ends =
      ((cleanSeries ext (List.range' pre.length rest.length) p s ends).1,
       (cleanSeries ext (List.range' pre.length rest.length) p s ends).2.1,
       over T g (cleanSeries ext (List.range' pre.length rest.length) p s ends).2.2)
  | [], _, _, _, _, _, _ => rfl
  | sp :: rest, pre, p, s, ends, hp, h => by
    have hi : (pre ++ sp :: rest)[pre.length]? = some sp := by simp
    rw [List.length_cons, List.range'_succ]
    unfold cleanSeries
    cases hh : (Params.index (p .timeHeaderCoord) pre.length).bind PVal.asStr with
    | error e => rfl
    | ok a =>
      dsimp only
      have hone : cleanOnce ext p (over T g s) ends pre.length a =
          ((cleanOnce ext p s ends pre.length a).1, over T g (cleanOnce ext p s ends pre.length a).2) := by
        unfold cleanOnce
        split
        · rfl
        · rw [typed_of_series hp hi]
          dsimp only
          rw [cleanTimeIndex_over ext (h sp (by simp))]
          rcases cleanTimeIndex ext sp s with ⟨x, u⟩
          cases x with
          | error e => rfl
          | ok stop => dsimp only; split <;> rfl
      rw [hone]
      rcases cleanOnce ext p s ends pre.length a with ⟨x, u⟩
      cases x with
      | error e => rfl
      | ok k =>
        obtain ⟨stop, ends'⟩ := k
        dsimp only
        rw [index_of_series hp .dataEnds hi]
        dsimp only
        have h3 := setEnd_series stop hp
        have := cleanSeries_over ext rest (pre ++ [Spec.endingAt stop sp]) u ends' (by
          rw [List.append_assoc]; exact h3) fun sq hsq => h sq (by simp [hsq])
        rw [List.length_append, List.length_singleton] at this
        exact this

theorem cleanData_over (ext : Ext) {p : Params} {sps : List SParams} (hp : HasSeries p sps)
    (h : ∀ sp ∈ sps, DatesT T sp) (s : Sheet) : cleanData ext p (over T g s) =
      ((cleanData ext p s).1, (cleanData ext p s).2.1, over T g (cleanData ext p s).2.2) := by
  unfold cleanData
  cases sps with
  | nil =>
    have e : Params.index (p .timeMulticolumn) 0 = .error .indexError := by rw [hp]; rfl
    rw [e]
  | cons sp rest =>
    have hi : (sp :: rest)[0]? = some sp := rfl
    rw [index_of_series hp .timeMulticolumn hi]
    dsimp only
    split
    · unfold cleanMulti
      rw [typed_of_series hp hi, index_of_series hp .dataEnds hi]
      dsimp only
      rw [cleanTimeIndex_over ext (h sp (by simp))]
      rcases cleanTimeIndex ext sp s with ⟨x, u⟩
      cases x with
      | error e => rfl
      | ok stop =>
        dsimp only
        split
        · rfl
        · split <;> rfl
    · have e : Params.len (p .timeHeaderCoord) = .ok (sp :: rest).length := by
        rw [hp]; unfold Params.len; simp
      rw [e]
      dsimp only
      rw [List.range_eq_range']
      exact cleanSeries_over ext (sp :: rest) [] s [] hp h

end

end Xls
