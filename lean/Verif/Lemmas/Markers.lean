/-
Lemmas for C125: missing markers.
-/
import Verif.Spec.Markers
import Verif.Spec.Scraper
import Verif.Lemmas.NameParts
import Verif.Lemmas.GetData3
import Verif.Props.Cleaning

set_option autoImplicit false

namespace Xls

open Spec

/-- Two lists of markers tell the same contents among some. -/
def MarkAlike (P : Cell → Prop) (ms ms' : List PVal) : Prop :=
  (IsMarker ms' (.str c!"Implicit") ↔ IsMarker ms (.str c!"Implicit")) ∧
  ∀ c, P c → (IsMarker ms' (trimmed c) ↔ IsMarker ms (trimmed c)) ∧
    (IsMarker ms' (blankAsNothing c) ↔ IsMarker ms (blankAsNothing c))

/-- Two series that differ in their markers only; either they do not matter or they are lists that agree. -/
structure OtherMarkers (P : Cell → Prop) (x y : SParams) : Prop where
  rest : y = { x with missingValue := y.missingValue }
  marks : x.missings = false ∨ ∃ ms ms', x.missingValue = .list ms ∧ y.missingValue = .list ms' ∧ MarkAlike P ms ms'

/-- All contents of cells of a worksheet are among some. -/
def CellsIn (P : Cell → Prop) (s : Sheet) : Prop := ∀ r c, P (s.cells r c)

variable {ext : Ext} {P : Cell → Prop}

theorem OtherMarkers.fields {x y : SParams} (h : OtherMarkers P x y) :
    y.alignment = x.alignment ∧ y.dataStarts = x.dataStarts ∧ y.dataEnds = x.dataEnds ∧ y.continuity = x.continuity ∧
    y.blankRows = x.blankRows ∧ y.missings = x.missings ∧
    y.timeAlignment = x.timeAlignment ∧ y.timeMulticolumn = x.timeMulticolumn ∧ y.timeHeader = x.timeHeader ∧
    y.timeComposed = x.timeComposed ∧ y.frequency = x.frequency := by
  rw [h.rest]
  exact ⟨rfl, rfl, rfl, rfl, rfl, rfl, rfl, rfl, rfl, rfl, rfl⟩

theorem correctProgression_markers {m m' : PVal} {b : Bool}
    (h : b = false ∨ isImplicitStr m' = isImplicitStr m) (last : Option Time) (curr : Time) (freq : Str) :
    correctProgression last curr freq b m' = correctProgression last curr freq b m := by
  unfold correctProgression
  rcases h with rfl | h
  · simp
  · rw [h]

theorem OtherMarkers.implicit {x y : SParams} (h : OtherMarkers P x y) :
    x.missings = false ∨ isImplicitStr y.missingValue = isImplicitStr x.missingValue := by
  rcases h.marks with h | ⟨ms, ms', h1, h2, -⟩
  · exact .inl h
  · rw [h1, h2]
    exact .inr rfl

theorem cleanStep_markers {x y : SParams} (h : OtherMarkers P x y) (st : CState) (s : Sheet) (pos : Int) :
    cleanStep ext y st s pos = cleanStep ext x st s pos := by
  obtain ⟨h1, h2, h3, h4, h5, h6, h8, h9, h10, h11, h12⟩ := h.fields
  have e2 : ∀ v, mustBeTimeValue y v = mustBeTimeValue x v := by
    intro v
    unfold mustBeTimeValue
    rw [h8]
  have e3 : ∀ st s r c e, handleError y st s r c e = handleError x st s r c e := by
    intro st s r c e
    unfold handleError hasEnd
    rw [h3]
  have e6 : ∀ curr last next ps q, searchParser ext y curr last next q ps = searchParser ext x curr last next q ps := by
    intro curr last next ps
    induction ps with
    | nil => intro q; rfl
    | cons p ps ih =>
      intro q
      unfold searchParser
      rw [h11, h12]
      simp only [ih]
  have e4 : ∀ pr curr last next, parseTimeValue ext y pr curr last next = parseTimeValue ext x pr curr last next := by
    intro pr curr last next
    unfold parseTimeValue
    rw [h12]
    simp only [e6]
  have e5 : ∀ st t, correctStep y st t = correctStep x st t := by
    intro st t
    unfold correctStep
    rw [h6, h12]
    simp only [correctProgression_markers h.implicit]
  unfold cleanStep
  simp only [getTimeValue, h1, h9, h10]
  unfold cleanValue
  simp only [e2, e3, e4, e5, h4, h5, h12]

theorem cleanLoop_markers {x y : SParams} (h : OtherMarkers P x y) : ∀ (is : List Int) (st : CState) (s : Sheet)
    (d : Option Int), cleanLoop ext y st s d is = cleanLoop ext x st s d is
  | [], _, _, _ => rfl
  | i :: is, st, s, d => by
    unfold cleanLoop
    rw [cleanStep_markers h]
    simp only [cleanLoop_markers h is]

theorem cleanTimeIndex_markers {x y : SParams} (h : OtherMarkers P x y) (s : Sheet) :
    cleanTimeIndex ext y s = cleanTimeIndex ext x s := by
  obtain ⟨h1, h2, h3, h4, h5, h6, h8, h9, h10, h11, h12⟩ := h.fields
  unfold cleanTimeIndex cleanWith
  have e1 : ∀ cl : Cleaner, cl.accepts y = cl.accepts x := by
    intro cl
    unfold Cleaner.accepts hasEnd
    rw [h3, h4, h5, h8, h9, h12]
  have e2 : scanEnd y s = scanEnd x s := by
    unfold scanEnd
    rw [h1, h3]
  have e3 : ∀ s hr hc pos, estimateEnd y s hr hc pos = estimateEnd x s hr hc pos := by
    intro s hr hc pos
    unfold estimateEnd
    rw [h1, h2, h8]
  simp only [e1, e2, e3, h1, h2, h10, cleanLoop_markers h]

theorem cleanTimeIndex_in (hn : P .none) (ht : ∀ t, P (.dt t)) (sp : SParams) {s : Sheet} (hs : CellsIn P s) :
    CellsIn P (cleanTimeIndex ext sp s).2 := by
  intro r c
  obtain ⟨st1, s1, q, hst, hend⟩ := cleanTimeIndex_end ext sp s
  rw [hend.cells]
  have hst' := hst
  cases hst with
  | refl => exact hs r c
  | @tail st1 s1 q1 st2 s2 h hs' =>
    obtain ⟨hr, hc, _, _, _, hh, _⟩ := cleanStep_next hs'
    rcases steps_frame hh hst' r c with h' | ⟨_, h' | ⟨t, h'⟩⟩
    · rw [h']; exact hs r c
    · rw [h']; exact hn
    · rw [h']; exact ht t

/-! ### Values -/

theorem cellIn_agree {ms ms' : List PVal} {c : Cell} (h : IsMarker ms' c ↔ IsMarker ms c) :
    cellIn c (.list ms') = cellIn c (.list ms) := by
  rw [cellIn_list, cellIn_list]
  simp only [h]

theorem handleValue_markers {x y : SParams} (h : OtherMarkers P x y) {v : Cell} (hv : P v) :
    handleValue ext y v = handleValue ext x v := by
  obtain ⟨-, -, -, h4, h5, h6, -⟩ := h.fields
  unfold handleValue handleContinuous handleNonContinuous
  rw [h4, h5, h6]
  rcases h.marks with k | ⟨ms, ms', h1, h2, k⟩
  · simp [k]
  · have k1 : cellIn (stripCell v) (.list ms') = cellIn (stripCell v) (.list ms) :=
      cellIn_agree (by rw [stripCell_eq]; exact (k.2 v hv).1)
    have k2 : cellIn (blankToNone v) (.list ms') = cellIn (blankToNone v) (.list ms) :=
      cellIn_agree (by rw [blankToNone_eq]; exact (k.2 v hv).2)
    rw [h1, h2, k1, k2]

theorem valuesLoop_markers {x y : SParams} (h : OtherMarkers P x y) {s : Sheet} (hs : CellsIn P s) (hr hc : Int) :
    ∀ (is : List Int) (m : List (Str × List Num)) (last : Str),
    valuesLoop ext y s hr hc is m last = valuesLoop ext x s hr hc is m last
  | [], _, _ => rfl
  | i :: is, m, last => by
    obtain ⟨e1, -, -, -, -, -, -, -, -, -, e4⟩ := h.fields
    have e3 : ∀ v, toBeAdded y s v i = toBeAdded x s v i := fun v => by rw [h.rest]; rfl
    unfold valuesLoop
    simp only [e1, e3, e4, valuesLoop_markers h hs hr hc is]
    cases hread : s.read (axisCell x.alignment hr hc i).1 (axisCell x.alignment hr hc i).2 with
    | error e => rfl
    | ok v =>
      dsimp only
      rw [handleValue_markers h (by rw [(read_cells hread).2.2]; exact hs _ _)]

theorem implicit_markers {x y : SParams} (h : OtherMarkers P x y) :
    x.missings = false ∨ cellIn (.str c!"Implicit") y.missingValue = cellIn (.str c!"Implicit") x.missingValue := by
  rcases h.marks with k | ⟨ms, ms', h1, h2, k⟩
  · exact .inl k
  · rw [h1, h2]
    exact .inr (cellIn_agree k.1)

theorem getValues_markers {x y : SParams} (h : OtherMarkers P x y) {s : Sheet} (hs : CellsIn P s) :
    getValues ext y s = getValues ext x s := by
  have e := valuesLoop_markers (ext := ext) h hs
  obtain ⟨h1, h2, h3, h4, h5, h6, h8, h9, h10, h11, h12⟩ := h.fields
  have a2 : y.headerCoord = x.headerCoord := by rw [h.rest]
  have a9 : ∀ a b c, timeCells y s a b c = timeCells x s a b c := fun a b c => by rw [h.rest]; rfl
  unfold getValues
  simp only [e, a2, a9, h1, h2, h3, h6, h10, h12]
  rcases implicit_markers h with k | k
  · simp [k]
  · rw [k]

theorem seriesReads_markers {x y : SParams} (h : OtherMarkers P x y) {s : Sheet} (hs : CellsIn P s) :
    seriesReads ext y s = seriesReads ext x s := by
  have e := valuesLoop_markers (ext := ext) h hs
  obtain ⟨h1, h2, h3, h4, h5, h6, h8, h9, h10, h11, h12⟩ := h.fields
  obtain ⟨b1, b2, b3, b4⟩ : y.headerCoord = x.headerCoord ∧ nonContHeader y = nonContHeader x ∧
      y.seriesName = x.seriesName ∧ y.composedHeaders = x.composedHeaders := by
    rw [h.rest]
    exact ⟨rfl, rfl, rfl, rfl⟩
  unfold seriesReads
  simp only [e, b1, b2, b3, b4, h1, h2, h3, h4, h6, h8, h10, h12]
  rcases implicit_markers h with k | k
  · simp [k]
  · rw [k]

theorem getSeries_markers {x y : SParams} (h : OtherMarkers P x y) {s : Sheet} (hs : CellsIn P s) :
    getSeries ext y s = getSeries ext x s := by
  have e : getName ext y s = getName ext x s := by rw [h.rest]; rfl
  unfold getSeries
  rw [e, getValues_markers h hs]

/-! ### Parameters -/

/-- Parameters of `k` series that differ in the markers only, which agree on some contents. -/
structure MarkedPair (P : Cell → Prop) (p q : Params) (k : Nat) : Prop where
  left : SeriesCount p k
  right : SeriesCount q k
  same : SameButMarkers p q
  marks : ∀ i b m m', ValueAt p .missings i b → ValueAt p .missingValue i m → ValueAt q .missingValue i m' →
    CountsFalse b ∨ ∃ ms ms', m = .list ms ∧ m' = .list ms' ∧ MarkAlike P ms ms'

/-- The same error, or two series that differ in their markers. -/
def TypedMarkers (P : Cell → Prop) (a b : Except Err SParams) : Prop :=
  (∃ e, a = .error e ∧ b = .error e) ∨ ∃ x y, a = .ok x ∧ b = .ok y ∧ OtherMarkers P x y

theorem ofDict_markers {v w : Name → PVal} (h : ∀ n, n ≠ .missingValue → w n = v n)
    (hm : CountsFalse (v .missings) ∨
      ∃ ms ms', v .missingValue = .list ms ∧ w .missingValue = .list ms' ∧ MarkAlike P ms ms') :
    TypedMarkers P (SParams.ofDict (Name.all.map fun n => (n, v n))) (SParams.ofDict (Name.all.map fun n => (n, w n))) := by
  unfold SParams.ofDict
  simp only [entry_all, Except.bind, bind_intro rfl]
  rw [h .seriesNames (by decide), h .headersCoord (by decide),
    h .dataStarts (by decide), h .dataEnds (by decide),
    h .timeAlignment (by decide), h .timeHeaderCoord (by decide),
    h .frequency (by decide), h .alignment (by decide), h .continuity (by decide),
    h .blankRows (by decide), h .missings (by decide), h .composedHeadersCoord (by decide), h .context (by decide),
    h .timeMulticolumn (by decide), h .timeComposed (by decide)]
  cases (v .seriesNames).givenName with
  | error e => exact .inl ⟨e, rfl, rfl⟩
  | ok _ =>
  cases (v .headersCoord).asStr with
  | error e => exact .inl ⟨e, rfl, rfl⟩
  | ok _ =>
  cases (v .composedHeadersCoord).nameParts (v .seriesNames).truthy with
  | error e => exact .inl ⟨e, rfl, rfl⟩
  | ok _ =>
  cases (v .context).nameParts (v .seriesNames).truthy with
  | error e => exact .inl ⟨e, rfl, rfl⟩
  | ok _ =>
  cases (v .dataStarts).asInt with
  | error e => exact .inl ⟨e, rfl, rfl⟩
  | ok _ =>
  cases orNone PVal.asInt (v .dataEnds) with
  | error e => exact .inl ⟨e, rfl, rfl⟩
  | ok _ =>
  cases (v .timeAlignment).asInt with
  | error e => exact .inl ⟨e, rfl, rfl⟩
  | ok _ =>
  cases (v .timeHeaderCoord).asHeader with
  | error e => exact .inl ⟨e, rfl, rfl⟩
  | ok _ =>
  cases (v .frequency).asStr with
  | error e => exact .inl ⟨e, rfl, rfl⟩
  | ok _ => exact .inr ⟨_, _, rfl, rfl, rfl, hm.imp_left fun k => (truthy_counts _).2 k⟩

theorem typed_markers {p q : Params} {k i : Nat} (h : MarkedPair P p q k) (hi : i < k) :
    TypedMarkers P (p.typed i) (q.typed i) := by
  obtain ⟨v, hv⟩ := count_values h.left hi
  obtain ⟨w, hw⟩ := count_values h.right hi
  rw [typed_values hv, typed_values hw]
  refine ofDict_markers (fun n k1 => ?_) (h.marks i _ _ _ (hv _) (hv _) (hw _))
  obtain ⟨us, g1, g2⟩ := hv n
  obtain ⟨us', g3, g4⟩ := hw n
  rw [h.same n k1, g1] at g3
  cases g3
  rw [g2] at g4
  exact (Option.some.inj g4).symm

theorem markers_store {p q : Params} {k : Nat} (h : MarkedPair P p q k) {vs : List PVal} (hl : vs.length = k) :
    MarkedPair P (p.store .dataEnds (.list vs)) (q.store .dataEnds (.list vs)) k where
  left := by
    intro n
    unfold Params.store
    split
    · exact ⟨vs, rfl, hl⟩
    · exact h.left n
  right := by
    intro n
    unfold Params.store
    split
    · exact ⟨vs, rfl, hl⟩
    · exact h.right n
  same := by
    intro n h1
    unfold Params.store
    split
    · rfl
    · exact h.same n h1
  marks := by
    intro i b m m' h1 h2 h3
    exact h.marks i b m m' (by simpa [ValueAt, Params.store] using h1) (by simpa [ValueAt, Params.store] using h2)
      (by simpa [ValueAt, Params.store] using h3)

theorem markers_setEnd {p q : Params} {k : Nat} (h : MarkedPair P p q k) (i : Nat) (stop : Int) :
    MarkedPair P (setEnd p i stop) (setEnd q i stop) k := by
  obtain ⟨vs, h1, h2⟩ := h.left .dataEnds
  unfold setEnd
  rw [h.same .dataEnds (by decide), h1]
  exact markers_store h (by simpa using h2)

/-- The same outcome and worksheet, with contents among some, and again such parameters. -/
def CleansMarked (P : Cell → Prop) (k : Nat) (a b : Except Err Unit × Params × Sheet) : Prop :=
  b.1 = a.1 ∧ b.2.2 = a.2.2 ∧ MarkedPair P a.2.1 b.2.1 k ∧ CellsIn P a.2.2

theorem cleanOnce_in (hn : P .none) (ht : ∀ t, P (.dt t)) {p : Params} {s : Sheet} (hs : CellsIn P s)
    (ends : List (Str × Int)) (i : Nat) (header : Str) : CellsIn P (cleanOnce ext p s ends i header).2 := by
  unfold cleanOnce
  split
  · exact hs
  · split
    · exact hs
    next sp _ =>
      have := cleanTimeIndex_in (ext := ext) hn ht sp hs
      split
      next h => rw [h] at this; exact this
      next h =>
        rw [h] at this
        split <;> exact this

theorem cleanSeries_markers (hn : P .none) (ht : ∀ t, P (.dt t)) {k : Nat} : ∀ (is : List Nat) {p q : Params} (s : Sheet)
    (ends : List (Str × Int)), (∀ i ∈ is, i < k) → MarkedPair P p q k → CellsIn P s →
    CleansMarked P k (cleanSeries ext is p s ends) (cleanSeries ext is q s ends)
  | [], _, _, _, _, _, h, hs => ⟨rfl, rfl, h, hs⟩
  | i :: is, p, q, s, ends, hi, h, hs => by
    unfold cleanSeries
    rw [h.same .timeHeaderCoord (by decide), h.same .dataEnds (by decide)]
    cases (Params.index (p .timeHeaderCoord) i).bind PVal.asStr with
    | error e => exact ⟨rfl, rfl, h, hs⟩
    | ok header =>
      dsimp only
      have hone : cleanOnce ext q s ends i header = cleanOnce ext p s ends i header := by
        unfold cleanOnce
        rcases typed_markers h (hi i List.mem_cons_self) with ⟨e, e1, e2⟩ | ⟨x, y, e1, e2, e3⟩
        · rw [e1, e2]
        · rw [e1, e2]
          dsimp only
          rw [cleanTimeIndex_markers e3]
      have hin := cleanOnce_in (ext := ext) hn ht (p := p) hs ends i header
      rw [hone]
      revert hin
      rcases cleanOnce ext p s ends i header with ⟨_ | ⟨stop, ends'⟩, u⟩
      · exact fun hin => ⟨rfl, rfl, h, hin⟩
      · dsimp only
        intro hin
        cases Params.index (p .dataEnds) i with
        | error e => exact ⟨rfl, rfl, h, hin⟩
        | ok v =>
          dsimp only
          refine cleanSeries_markers hn ht is u ends' (fun j hj => hi j (List.mem_cons_of_mem _ hj)) ?_ hin
          split
          · exact h
          · exact markers_setEnd h i stop

theorem cleanData_markers (hn : P .none) (ht : ∀ t, P (.dt t)) {k : Nat} (hk : 1 ≤ k) {p q : Params}
    (h : MarkedPair P p q k) {s : Sheet} (hs : CellsIn P s) :
    CleansMarked P k (cleanData ext p s) (cleanData ext q s) := by
  unfold cleanData
  rw [h.same .timeMulticolumn (by decide), h.same .timeHeaderCoord (by decide)]
  cases Params.index (p .timeMulticolumn) 0 with
  | error e => exact ⟨rfl, rfl, h, hs⟩
  | ok multi =>
    dsimp only
    split
    · unfold cleanMulti
      rw [h.same .dataEnds (by decide)]
      rcases typed_markers h (show 0 < k from hk) with ⟨e, e1, e2⟩ | ⟨x, y, e1, e2, e3⟩
      · rw [e1, e2]
        exact ⟨rfl, rfl, h, hs⟩
      · rw [e1, e2]
        dsimp only
        rw [cleanTimeIndex_markers e3]
        have hin := cleanTimeIndex_in (ext := ext) hn ht x hs
        revert hin
        rcases cleanTimeIndex ext x s with ⟨_ | stop, u⟩
        · exact fun hin => ⟨rfl, rfl, h, hin⟩
        · dsimp only
          intro hin
          cases Params.index (p .dataEnds) 0 with
          | error e => exact ⟨rfl, rfl, h, hin⟩
          | ok v =>
            dsimp only
            split
            · exact ⟨rfl, rfl, h, hin⟩
            · rw [setItem_count h.left hk, setItem_count h.right hk]
              exact ⟨rfl, rfl, markers_store h (by simp), hin⟩
    · obtain ⟨vs, h1, h2⟩ := h.left .timeHeaderCoord
      have hl : Params.len (p .timeHeaderCoord) = .ok k := by rw [h1, ← h2]; rfl
      rw [hl]
      exact cleanSeries_markers hn ht _ s [] (fun i hi => List.mem_range.1 hi) h hs

theorem seriesStep_markers {p q : Params} {k i : Nat} (h : MarkedPair P p q k) (hi : i < k) {s : Sheet}
    (hs : CellsIn P s) (bs : List Bucket) : seriesStep ext q i s bs = seriesStep ext p i s bs := by
  unfold seriesStep
  rcases typed_markers h hi with ⟨e, e1, e2⟩ | ⟨x, y, e1, e2, e3⟩
  · rw [e1, e2]
  · rw [bind_intro e1, bind_intro e2]
    obtain ⟨h1, h2, h3, h4, h5, h6, h8, h9, h10, h11, h12⟩ := e3.fields
    have a8 : (extractors.find? fun z => z.accepts y) = extractors.find? fun z => z.accepts x := by
      rw [e3.rest]
      rfl
    simp only [h1, h2, h3, h8, h9, h10, h12, a8, getSeries_markers e3 hs, seriesReads_markers e3 hs]

theorem seriesLoop_markers {p q : Params} {k : Nat} (h : MarkedPair P p q k) : ∀ (is : List Nat) (s : Sheet)
    (bs : List Bucket), (∀ i ∈ is, i < k) → CellsIn P s → seriesLoop ext q is s bs = seriesLoop ext p is s bs
  | [], _, _, _, _ => rfl
  | i :: is, s, bs, hi, hs => by
    unfold seriesLoop
    rw [seriesStep_markers h (hi i List.mem_cons_self) hs]
    cases hst : seriesStep ext p i s bs with
    | error e => rfl
    | ok r =>
      obtain ⟨_, -, -, hc⟩ := seriesStep_ok hst
      refine seriesLoop_markers h is _ _ (fun j hj => hi j (List.mem_cons_of_mem _ hj)) ?_
      intro r c
      rw [hc]
      exact hs r c

theorem bucketLoop_in {p : Params} : ∀ {as : List RangeArgs} {s s' : Sheet} {bs bs' : List Bucket},
    bucketLoop ext p as s bs = .ok (bs', s') → s'.cells = s.cells
  | [], _, _, _, _, h => by cases h; rfl
  | b :: as, s, s', bs, bs', hb => by
    unfold bucketLoop at hb
    split at hb
    · cases hb
    · split at hb
      · cases hb
      · exact (bucketLoop_in hb).trans (touchAll_cells _ _)

theorem getData_markers {p q : Params} {k : Nat} (h : MarkedPair P p q k) {s : Sheet} (hs : CellsIn P s) :
    getData ext q s = getData ext p s := by
  have e1 : rangeArgs q = rangeArgs p := by
    unfold rangeArgs
    rw [h.same .frequency (by decide), h.same .dataStarts (by decide),
      h.same .timeHeaderCoord (by decide), h.same .dataEnds (by decide),
      h.same .timeAlignment (by decide), h.same .alignment (by decide)]
  have e2 : ∀ as, bucketLoop ext q as s [] = bucketLoop ext p as s [] :=
    fun as => bucketLoop_pair ext (h.same .timeMulticolumn (by decide)) as s []
  unfold getData
  rw [e1, h.same .headersCoord (by decide)]
  simp only [e2]
  obtain ⟨vs, h1, h2⟩ := h.left .headersCoord
  have hl : Params.len (p .headersCoord) = .ok k := by rw [h1, ← h2]; rfl
  rw [hl]
  cases hr : rangeArgs p with
  | error e => rfl
  | ok as =>
    simp only [Except.bind]
    cases hb : bucketLoop ext p as s [] with
    | error e => rfl
    | ok b =>
      obtain ⟨bs, s1⟩ := b
      have hc := bucketLoop_in hb
      dsimp only
      rw [seriesLoop_markers h _ s1 bs (fun i hi => List.mem_range.1 hi) fun r c => by rw [hc]; exact hs r c]

theorem scrape_markers (hn : P .none) (ht : ∀ t, P (.dt t)) {p q : Params} {k : Nat} (hk : 1 ≤ k)
    (h : MarkedPair P p q k) {s : Sheet} (hs : CellsIn P s) :
    (scrape ext q s).1 = (scrape ext p s).1 ∧ (scrape ext q s).2.2 = (scrape ext p s).2.2 := by
  have hc := cleanData_markers (ext := ext) hn ht hk h hs
  unfold scrape
  revert hc
  rcases cleanData ext p s with ⟨r, p1, s1⟩
  rcases cleanData ext q s with ⟨r', q1, s1'⟩
  rintro ⟨h1, h2, h3, h4⟩
  dsimp only at h1 h2 h3 h4
  subst h1 h2
  cases r' with
  | error e => exact ⟨rfl, rfl⟩
  | ok _ =>
    dsimp only
    rw [getData_markers h3 h4]
    exact ⟨rfl, rfl⟩

/-- The contents of the cells of a worksheet, date-times and nothing. -/
def ContentOf (s : Sheet) (v : Cell) : Prop := v = .none ∨ (∃ t, v = .dt t) ∨ ∃ r c, s.cells r c = v

theorem date_noMarker (ms : List PVal) (t : Time) : ¬ IsMarker ms (.dt t) := by
  rintro ⟨_, h, _⟩
  cases h

theorem tellSame_agree {s : Sheet} (hs : WellFormed s) {ms ms' : List PVal} (h : TellSame s ms ms') :
    MarkAlike (ContentOf s) ms ms' := by
  refine ⟨h.1, ?_⟩
  rintro c (rfl | ⟨t, rfl⟩ | ⟨r, k, rfl⟩)
  · have := h.2 0 0
    rw [hs.outside 0 0 (by omega)] at this
    exact this
  · exact ⟨iff_of_false (date_noMarker ms' t) (date_noMarker ms t),
      iff_of_false (date_noMarker ms' t) (date_noMarker ms t)⟩
  · exact h.2 r k

end Xls
