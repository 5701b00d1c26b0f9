/-
Parameters that compare equal: the series.
-/
import Verif.Model.Frames
import Verif.Lemmas.Joined

set_option autoImplicit false

namespace Xls

/-- Markers for missing values that are used alike. -/
structure SameMarks (m m' : PVal) : Prop where
  holds : ∀ v, cellIn v m' = cellIn v m
  implicit : isImplicitStr m' = isImplicitStr m

/-- Series that differ only in their markers, which are used alike. -/
def MarkedAlike (x y : SParams) : Prop :=
  y = { x with missingValue := y.missingValue } ∧ SameMarks x.missingValue y.missingValue

theorem markedAlike_fields {x y : SParams} (h : MarkedAlike x y) :
    y.alignment = x.alignment ∧ y.dataStarts = x.dataStarts ∧ y.dataEnds = x.dataEnds ∧ y.continuity = x.continuity ∧
    y.blankRows = x.blankRows ∧ y.missings = x.missings ∧ y.timeAlignment = x.timeAlignment ∧
    y.timeMulticolumn = x.timeMulticolumn ∧ y.timeHeader = x.timeHeader ∧ y.timeComposed = x.timeComposed ∧
    y.frequency = x.frequency ∧ y.headerCoord = x.headerCoord ∧ y.composedHeaders = x.composedHeaders ∧
    y.seriesName = x.seriesName ∧ y.context = x.context := by
  rw [h.1]
  exact ⟨rfl, rfl, rfl, rfl, rfl, rfl, rfl, rfl, rfl, rfl, rfl, rfl, rfl, rfl, rfl⟩

theorem correctProgression_marks {m m' : PVal} (h : SameMarks m m') (last : Option Time) (curr : Time) (f : Str) (b : Bool) :
    correctProgression last curr f b m' = correctProgression last curr f b m := by
  unfold correctProgression
  rw [h.implicit]

theorem searchParser_marks (ext : Ext) {x y : SParams} (h : MarkedAlike x y) (curr : Cell) (last : Option Time)
    (next : Cell) : ∀ (ps : List Parser) (q : Option Parser),
    searchParser ext y curr last next q ps = searchParser ext x curr last next q ps := by
  intro ps
  induction ps with
  | nil => intro q; rfl
  | cons p ps ih =>
    intro q
    unfold searchParser
    obtain ⟨-, -, -, -, -, -, -, -, -, h10, h11, -⟩ := markedAlike_fields h
    rw [h10, h11]
    simp only [ih]

theorem cleanStep_marks (ext : Ext) {x y : SParams} (h : MarkedAlike x y) (st : CState) (s : Sheet) (pos : Int) :
    cleanStep ext y st s pos = cleanStep ext x st s pos := by
  obtain ⟨h1, h2, h3, h4, h5, h6, h8, h9, h10, h11, h12, -⟩ := markedAlike_fields h
  have e2 : ∀ v, mustBeTimeValue y v = mustBeTimeValue x v := by
    intro v
    unfold mustBeTimeValue
    rw [h8]
  have e3 : ∀ st s r c e, handleError y st s r c e = handleError x st s r c e := by
    intro st s r c e
    unfold handleError hasEnd
    rw [h3]
  have e4 : ∀ pr curr last next, parseTimeValue ext y pr curr last next = parseTimeValue ext x pr curr last next := by
    intro pr curr last next
    unfold parseTimeValue
    rw [h12]
    simp only [searchParser_marks ext h]
  have e5 : ∀ st t, correctStep y st t = correctStep x st t := by
    intro st t
    unfold correctStep
    rw [h6, h12]
    simp only [correctProgression_marks h.2]
  unfold cleanStep
  simp only [getTimeValue, h1, h9, h10]
  unfold cleanValue
  simp only [e2, e3, e4, e5, h4, h5, h12]

theorem cleanLoop_marks (ext : Ext) {x y : SParams} (h : MarkedAlike x y) : ∀ (is : List Int) (st : CState) (s : Sheet)
    (d : Option Int), cleanLoop ext y st s d is = cleanLoop ext x st s d is
  | [], _, _, _ => rfl
  | i :: is, st, s, d => by
    unfold cleanLoop
    rw [cleanStep_marks ext h]
    simp only [cleanLoop_marks ext h is]

theorem cleanTimeIndex_marks (ext : Ext) {x y : SParams} (h : MarkedAlike x y) (s : Sheet) :
    cleanTimeIndex ext y s = cleanTimeIndex ext x s := by
  obtain ⟨h1, h2, h3, h4, h5, h6, h8, h9, h10, h11, h12, -⟩ := markedAlike_fields h
  unfold cleanTimeIndex cleanWith
  have e1 : ∀ cl : Cleaner, cl.accepts y = cl.accepts x := by
    intro cl
    unfold Cleaner.accepts hasEnd
    rw [h3, h4, h5, h8, h9, h12]
  have e2 : scanEnd y s = scanEnd x s := by
    unfold scanEnd
    rw [h1, h3]
  have e3 : ∀ s hr hc pos, estimateEnd y s hr hc pos = estimateEnd x s hr hc pos := by
    intro s hr hc pos
    unfold estimateEnd
    rw [h1, h2, h8]
  simp only [e1, e2, e3, h1, h2, h10, cleanLoop_marks ext h]

theorem handleValue_marks (ext : Ext) {x y : SParams} (h : MarkedAlike x y) (v : Cell) :
    handleValue ext y v = handleValue ext x v := by
  obtain ⟨-, -, -, h4, h5, h6, -⟩ := markedAlike_fields h
  unfold handleValue handleContinuous handleNonContinuous
  rw [h4, h5, h6, h.2.holds, h.2.holds]

theorem toBeAdded_marks {x y : SParams} (h : MarkedAlike x y) (s : Sheet) (v : Option Num) (i : Int) :
    toBeAdded y s v i = toBeAdded x s v i := by
  rw [h.1]
  rfl

theorem valuesLoop_marks (ext : Ext) {x y : SParams} (h : MarkedAlike x y) (s : Sheet) (hr hc : Int) :
    ∀ (is : List Int) (m : List (Str × List Num)) (last : Str),
      valuesLoop ext y s hr hc is m last = valuesLoop ext x s hr hc is m last
  | [], _, _ => rfl
  | i :: is, m, last => by
    obtain ⟨h1, -, -, -, -, -, -, -, -, -, h12, -⟩ := markedAlike_fields h
    unfold valuesLoop
    rw [h1, h12]
    simp only [handleValue_marks ext h, toBeAdded_marks h, valuesLoop_marks ext h s hr hc is]

theorem getSeries_marks (ext : Ext) {x y : SParams} (h : MarkedAlike x y) (s : Sheet) :
    getSeries ext y s = getSeries ext x s ∧ seriesReads ext y s = seriesReads ext x s := by
  obtain ⟨h1, h2, h3, h4, h5, h6, h8, h9, h10, h11, h12, h13, h14, h15, h16⟩ := markedAlike_fields h
  constructor
  · unfold getSeries getName getValues timeCells
    rw [h1, h2, h3, h6, h10, h12, h13, h14, h15, h16, h.2.holds]
    simp only [valuesLoop_marks ext h]
  · unfold seriesReads nonContHeader
    rw [h1, h2, h3, h4, h6, h8, h9, h10, h12, h13, h14, h15, h.2.holds]
    simp only [valuesLoop_marks ext h]

end Xls
