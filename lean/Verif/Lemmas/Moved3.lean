/-
Values and names of a table that stands elsewhere on a worksheet.
-/
import Verif.Lemmas.Moved2

set_option autoImplicit false

namespace Xls

open Spec

theorem cellAt_moved {D : Int → Int → Prop} {al : Align} {dr dc : Int} {s t : Sheet} (hst : AlikeAt D al dr dc s t)
    {a b : Str} (h : MovedCell dr dc a b) (hD : ∀ r c, coordOf a = .ok (r, c) → D r c) :
    cellAt t b = cellAt s a := by
  obtain ⟨r, c, e1, e2, _⟩ := h.coords
  unfold cellAt
  rw [e1, e2]
  dsimp only
  rw [hst.cells r c (hD r c e1)]

theorem composedParts_moved (ext : Ext) {D : Int → Int → Prop} {al : Align} {dr dc : Int} {s t : Sheet}
    (hst : AlikeAt D al dr dc s t) {as bs : List Str} (h : List.Forall₂ (MovedCell dr dc) as bs) :
    (∀ a ∈ as, ∀ r c, coordOf a = .ok (r, c) → D r c) → composedParts ext t bs = composedParts ext s as := by
  induction h with
  | nil => intro _; rfl
  | cons hab _ ih =>
    intro hD
    unfold composedParts
    rw [cellAt_moved hst hab (hD _ (by simp)), ih fun a ha => hD a (by simp [ha])]

theorem getName_moved (ext : Ext) {D : Int → Int → Prop} {al : Align} {dr dc : Int} {s t : Sheet}
    (hst : AlikeAt D al dr dc s t) {sp sp' : SParams} (h : Moved1 D al dr dc sp sp') :
    getName ext sp' t = getName ext sp s := by
  have e1 : sp'.seriesName = sp.seriesName := by rw [h.moved.rest]
  have e2 : sp'.context = sp.context := by rw [h.moved.rest]
  obtain ⟨hi, hw⟩ := h.within
  unfold getName
  rw [e1, e2, cellAt_moved hst h.moved.header (hw.head _ (by simp)),
    composedParts_moved ext hst h.moved.composed fun a ha => hw.head a (by simp [ha])]

theorem nonContHeader_moved {al : Align} {dr dc : Int} {sp sp' : SParams} (h : Moved al dr dc sp sp') :
    (∃ r c a, a ∈ timeCoords sp.timeHeader ∧ coordOf a = .ok (r, c) ∧ nonContHeader sp = .ok (r, c) ∧
      nonContHeader sp' = .ok (r + dr, c + dc) ∧ 1 ≤ r ∧ 1 ≤ c ∧ 1 ≤ r + dr ∧ 1 ≤ c + dc) ∨
      ∃ e, nonContHeader sp = .error e ∧ nonContHeader sp' = .error e := by
  have e3 : sp'.timeMulticolumn = sp.timeMulticolumn := by rw [h.rest]
  unfold nonContHeader
  rw [e3]
  have hth := h.timeHeader
  generalize sp.timeHeader = th at hth
  generalize sp'.timeHeader = th' at hth
  cases hth with
  | @single a b hab =>
    cases sp.timeMulticolumn with
    | true => exact .inr ⟨_, rfl, rfl⟩
    | false =>
      obtain ⟨r, c, e1, e2, p⟩ := hab.coords
      exact .inl ⟨r, c, a, by simp [timeCoords], e1, e1, e2, p⟩
  | multi hab =>
    cases sp.timeMulticolumn with
    | false => exact .inr ⟨_, rfl, rfl⟩
    | true =>
      cases hab with
      | nil => exact .inr ⟨_, rfl, rfl⟩
      | @cons a b _ _ hab _ =>
        obtain ⟨r, c, e1, e2, p⟩ := hab.coords
        exact .inl ⟨r, c, a, by simp [timeCoords], e1, e1, e2, p⟩

/-- What is known of a position that is read. -/
structure Readable (D : Int → Int → Prop) (al : Align) (dr dc : Int) (sp : SParams) (i : Int) : Prop where
  one : 1 ≤ i
  one' : 1 ≤ i + along al dr dc
  date : 1 ≤ i + sp.timeAlignment
  date' : 1 ≤ i + sp.timeAlignment + along al dr dc
  head : LineIn D al sp.headerCoord i
  time : ∀ a ∈ timeCoords sp.timeHeader, LineIn D al a (i + sp.timeAlignment)
  fill : ∀ a ∈ timeCoords sp.timeHeader, LineIn D al a i

theorem readable_of {D : Int → Int → Prop} {al : Align} {dr dc : Int} {sp sp' : SParams}
    (h : Moved1 D al dr dc sp sp') {e : Int} (he : sp.dataEnds = some e) :
    ∀ i ∈ intRange sp.dataStarts (e + 1), Readable D al dr dc sp i := by
  intro i hi
  obtain ⟨h1, h2⟩ := mem_intRange.1 hi
  obtain ⟨hi, hw⟩ := h.within
  have hta : sp'.timeAlignment = sp.timeAlignment := by rw [h.moved.rest]
  have o1 := h.on.starts
  have o2 := h.on'.starts
  have o3 := h.on.dates
  have o4 := h.on'.dates
  rw [h.moved.starts] at o2 o4
  rw [hta] at o4
  have hlim : ∀ x, hi = some x → i ≤ x ∧ i + sp.timeAlignment ≤ x := by
    intro x hx
    obtain ⟨e', k1, k2, k3, _⟩ := hw.ends x hx
    rw [he] at k1
    cases k1
    omega
  exact ⟨by omega, by omega, by omega, by omega, hw.line _ (by simp) i (by omega) fun x hx => (hlim x hx).1,
    fun a ha => hw.line a (by simp [ha]) _ (by omega) fun x hx => (hlim x hx).2,
    fun a ha => hw.line a (by simp [ha]) _ (by omega) fun x hx => (hlim x hx).1⟩

theorem toBeAdded_moved {D : Int → Int → Prop} {al : Align} {dr dc : Int} {s t : Sheet}
    (hst : AlikeAt D al dr dc s t) {sp sp' : SParams} (h : Moved al dr dc sp sp') {i : Int}
    (hi : Readable D al dr dc sp i) (v : Option Num) :
    toBeAdded sp' t v (i + along al dr dc) = toBeAdded sp s v i := by
  have e1 : sp'.continuity = sp.continuity := by rw [h.rest]
  have e2 : sp'.timeAlignment = sp.timeAlignment := by rw [h.rest]
  have ha : sp'.alignment = al := by rw [h.rest]; exact h.alignment
  unfold toBeAdded
  rw [e1, e2]
  split
  · rfl
  · rcases nonContHeader_moved h with ⟨r, c, a, am, ac, k1, k2, p1, p2, p3, p4⟩ | ⟨e, k1, k2⟩
    · rw [k1, k2, h.alignment, ha]
      dsimp only
      rw [show i + along al dr dc + sp.timeAlignment = i + sp.timeAlignment + along al dr dc from by omega,
        hst.read p1 p2 p3 p4 hi.date hi.date' (hi.time a am r c ac)]
    · rw [k1, k2]

theorem valuesLoop_moved (ext : Ext) {D : Int → Int → Prop} {al : Align} {dr dc : Int} {s t : Sheet}
    (hst : AlikeAt D al dr dc s t) {sp sp' : SParams} (h : Moved al dr dc sp sp') {r c : Int}
    (hc : coordOf sp.headerCoord = .ok (r, c)) (p1 : 1 ≤ r) (p2 : 1 ≤ c) (p3 : 1 ≤ r + dr) (p4 : 1 ≤ c + dc) :
    ∀ (is : List Int) (m : List (Str × List Num)) (last : Str), (∀ i ∈ is, Readable D al dr dc sp i) →
    valuesLoop ext sp' t (r + dr) (c + dc) (is.map (· + along al dr dc)) m last = valuesLoop ext sp s r c is m last
  | [], _, _, _ => rfl
  | i :: is, m, last, hi => by
    have e1 : ∀ v, handleValue ext sp' v = handleValue ext sp v := by intro v; rw [h.rest]; rfl
    have e2 : sp'.frequency = sp.frequency := by rw [h.rest]
    have ha : sp'.alignment = al := by rw [h.rest]; exact h.alignment
    have hi0 := hi i (by simp)
    have ih := fun m last => valuesLoop_moved ext hst h hc p1 p2 p3 p4 is m last fun j hj => hi j (by simp [hj])
    rw [List.map_cons]
    unfold valuesLoop
    simp only [h.alignment, ha, hst.read p1 p2 p3 p4 hi0.one hi0.one' (hi0.head r c hc), e1,
      toBeAdded_moved hst h hi0, e2, ih]

theorem timeCells_moved {D : Int → Int → Prop} {al : Align} {dr dc : Int} {s t : Sheet}
    (hst : AlikeAt D al dr dc s t) {sp sp' : SParams} (h : Moved al dr dc sp sp') {r c : Int} {a : Str}
    (ha : a ∈ timeCoords sp.timeHeader) (hc : coordOf a = .ok (r, c)) {is : List Int}
    (hi : ∀ i ∈ is, Readable D al dr dc sp i) :
    timeCells sp' t (r + dr) (c + dc) (is.map (· + along al dr dc)) = timeCells sp s r c is := by
  have hal : sp'.alignment = al := by rw [h.rest]; exact h.alignment
  unfold timeCells
  rw [List.map_map]
  refine List.map_congr_left fun i hm => ?_
  show t.cells (axisCell sp'.alignment (r + dr) (c + dc) (i + along al dr dc)).1
    (axisCell sp'.alignment (r + dr) (c + dc) (i + along al dr dc)).2 = _
  rw [hal, moved_axis, h.alignment]
  exact hst.cells _ _ ((hi i hm).fill a ha r c hc)

theorem getValues_moved (ext : Ext) {D : Int → Int → Prop} {al : Align} {dr dc : Int} {s t : Sheet}
    (hst : AlikeAt D al dr dc s t) {sp sp' : SParams} (h : Moved1 D al dr dc sp sp') :
    getValues ext sp' t = getValues ext sp s := by
  have e3 : sp'.missings = sp.missings := by rw [h.moved.rest]
  have e4 : sp'.missingValue = sp.missingValue := by rw [h.moved.rest]
  have e5 : sp'.frequency = sp.frequency := by rw [h.moved.rest]
  obtain ⟨r, c, k1, k2, p1, p2, p3, p4⟩ := h.moved.header.coords
  unfold getValues
  rw [h.align.1, h.align.2, k1, k2, h.moved.ends, h.moved.starts, e3, e4, e5]
  split
  · rfl
  · dsimp only
    cases he : sp.dataEnds with
    | none => rfl
    | some e =>
      dsimp only [Option.map_some]
      have hR := readable_of h he
      rw [show e + along al dr dc + 1 = e + 1 + along al dr dc from by omega, intRange_shift,
        valuesLoop_moved ext hst h.moved k1 p1 p2 p3 p4 _ _ _ hR]
      rcases timeHeaderCell_moved h.moved.timeHeader with ⟨tr, tc, a, am, ac, t1, t2⟩ | ⟨e, t1, t2⟩
      · rw [t1, t2]
        dsimp only
        rw [timeCells_moved hst h.moved am ac hR]
      · rw [t1, t2]

theorem getSeries_moved (ext : Ext) {D : Int → Int → Prop} {al : Align} {dr dc : Int} {s t : Sheet}
    (hst : AlikeAt D al dr dc s t) {sp sp' : SParams} (h : Moved1 D al dr dc sp sp') :
    getSeries ext sp' t = getSeries ext sp s := by
  unfold getSeries
  rw [getName_moved ext hst h, getValues_moved ext hst h]

theorem coordCell_moved {dr dc : Int} {a b : Str} (h : MovedCell dr dc a b) :
    coordCell b = movedAll dr dc (coordCell a) := by
  obtain ⟨r, c, e1, e2, _⟩ := h.coords
  unfold coordCell
  rw [e1, e2]
  rfl

theorem coordCells_moved {dr dc : Int} {as bs : List Str} (h : List.Forall₂ (MovedCell dr dc) as bs) :
    bs.flatMap coordCell = movedAll dr dc (as.flatMap coordCell) := by
  induction h with
  | nil => rfl
  | cons hab _ ih =>
    rw [List.flatMap_cons, List.flatMap_cons, ih, coordCell_moved hab]
    unfold movedAll
    rw [List.map_append]

theorem movedAll_axis (al : Align) (dr dc r c : Int) (is : List Int) :
    (is.map (· + along al dr dc)).map (axisCell al (r + dr) (c + dc)) =
      movedAll dr dc (is.map (axisCell al r c)) := by
  unfold movedAll
  rw [List.map_map, List.map_map]
  exact List.map_congr_left fun i _ => moved_axis al dr dc r c i

theorem seriesReads_moved (ext : Ext) {D : Int → Int → Prop} {al : Align} {dr dc : Int} {s t : Sheet}
    (hst : AlikeAt D al dr dc s t) {sp sp' : SParams} (h : Moved1 D al dr dc sp sp') {e : Int}
    (he : sp.dataEnds = some e) : seriesReads ext sp' t = movedAll dr dc (seriesReads ext sp s) := by
  have e3 : sp'.missings = sp.missings := by rw [h.moved.rest]
  have e4 : sp'.missingValue = sp.missingValue := by rw [h.moved.rest]
  have e5 : sp'.frequency = sp.frequency := by rw [h.moved.rest]
  have e6 : sp'.continuity = sp.continuity := by rw [h.moved.rest]
  have e7 : sp'.timeAlignment = sp.timeAlignment := by rw [h.moved.rest]
  have e8 : sp'.seriesName = sp.seriesName := by rw [h.moved.rest]
  have happ : ∀ a b, movedAll dr dc (a ++ b) = movedAll dr dc a ++ movedAll dr dc b := fun a b => List.map_append
  obtain ⟨r, c, k1, k2, p1, p2, p3, p4⟩ := h.moved.header.coords
  have hR := readable_of h he
  unfold seriesReads
  rw [h.moved.ends, h.moved.starts, he, e3, e4, e5, e6, e7, e8, h.align.1, h.align.2, k1, k2]
  dsimp only [Option.map_some, Option.getD_some]
  rw [show e + along al dr dc + 1 = e + 1 + along al dr dc from by omega, intRange_shift, happ, happ, happ]
  congr 1
  · congr 1
    · congr 1
      · split
        · rfl
        · rw [coordCell_moved h.moved.header, coordCells_moved h.moved.composed, happ]
      · rw [movedAll_axis]
        rfl
    · rcases nonContHeader_moved h.moved with ⟨tr, tc, a, _, _, n1, n2, _⟩ | ⟨e, n1, n2⟩
      · rw [n1, n2]
        cases sp.continuity with
        | true => rfl
        | false =>
          dsimp only
          show (tr + dr, tc + dc) :: _ = (tr + dr, tc + dc) :: List.map _ _
          congr 1
          rw [List.map_map, List.map_map]
          refine List.map_congr_left fun i _ => ?_
          show axisCell al (tr + dr) (tc + dc) (i + along al dr dc + sp.timeAlignment) = _
          rw [show i + along al dr dc + sp.timeAlignment = i + sp.timeAlignment + along al dr dc from by omega]
          exact moved_axis al dr dc tr tc _
      · rw [n1, n2]
        cases sp.continuity <;> rfl
  · rw [valuesLoop_moved ext hst h.moved k1 p1 p2 p3 p4 _ _ _ hR]
    rcases timeHeaderCell_moved h.moved.timeHeader with ⟨tr, tc, a, _, _, t1, t2⟩ | ⟨e, t1, t2⟩
    · rw [t1, t2]
      cases sp.missings with
      | false => rfl
      | true =>
        cases cellIn (.str c!"Implicit") sp.missingValue with
        | error e => rfl
        | ok b =>
          cases b with
          | false => rfl
          | true =>
            cases sp.frequency.length == 1 with
            | false => rfl
            | true =>
              dsimp only
              rw [← List.map_take, movedAll_axis]
              rfl
    · rw [t1, t2]
      cases sp.missings <;> cases cellIn (.str c!"Implicit") sp.missingValue <;>
        cases sp.frequency.length == 1 <;> first | rfl | (rename_i b; cases b <;> rfl)

theorem seriesStep_moved (ext : Ext) {D : Int → Int → Prop} {al : Align} {dr dc : Int} {p p' : Params} {i : Nat}
    {sp sp' : SParams} (h1 : p.typed i = .ok sp) (h2 : p'.typed i = .ok sp') (h : Ready D al dr dc sp sp')
    (hl : Long sp) {s t : Sheet} (hst : AlikeAt D al dr dc s t) (bs : List Bucket) :
    SameStepOn D al dr dc (seriesStep ext p i s bs) (seriesStep ext p' i t bs) := by
  have e3 : sp'.timeMulticolumn = sp.timeMulticolumn := by rw [h.moved.rest]
  have e4 : sp'.timeAlignment = sp.timeAlignment := by rw [h.moved.rest]
  have e5 : sp'.frequency = sp.frequency := by rw [h.moved.rest]
  have e6 : (fun x : Extractor => x.accepts sp') = fun x => x.accepts sp := by
    funext x; rw [h.moved.rest]; rfl
  obtain ⟨stop, hs, hlt⟩ := hl
  unfold seriesStep
  rw [bind_intro h1, bind_intro h2, e6]
  dsimp only
  cases extractors.find? fun x => x.accepts sp with
  | none => exact .inl ⟨_, rfl, rfl⟩
  | some x =>
    dsimp only
    rw [getSeries_moved ext hst h.toMoved1]
    cases getSeries ext sp s with
    | error e => exact .inl ⟨_, rfl, rfl⟩
    | ok nv =>
      rw [bind_intro rfl, bind_intro rfl]
      by_cases hn : nv.isEmpty = true
      · rw [if_pos hn, if_pos hn]
        exact .inl ⟨_, rfl, rfl⟩
      · rw [if_neg hn, if_neg hn, h.moved.ends, h.moved.starts, hs, e3, e4, e5, h.align.1, h.align.2]
        rcases singleHeader_moved h.moved.timeHeader sp.timeMulticolumn with ⟨e, k1, k2⟩ | ⟨a, b, k1, k2, hab, ha⟩
        · rw [k1, k2]
          exact .inl ⟨_, rfl, rfl⟩
        · rw [k1, k2, bind_intro rfl, bind_intro rfl]
          dsimp only [Option.map_some]
          have hst2 := AlikeAt.touchAll (seriesReads ext sp s) hst
          rw [seriesReads_moved ext hst h.toMoved1 hs, seriesRanges_moved ext hst2 h ha hab hs hlt]
          cases seriesRanges ext (s.touchAll (seriesReads ext sp s)) sp.frequency sp.dataStarts a stop
              sp.timeAlignment al with
          | error e => exact .inl ⟨_, rfl, rfl⟩
          | ok prs =>
            rw [bind_intro rfl, bind_intro rfl]
            cases putAll (prs.zip nv) bs with
            | error e => exact .inl ⟨_, rfl, rfl⟩
            | ok bs' =>
              refine .inr ⟨bs', _, _, rfl, rfl, ?_⟩
              rw [rangeReads_moved hab]
              exact AlikeAt.touchAll _ hst2

theorem seriesLoop_moved (ext : Ext) {D : Int → Int → Prop} {al : Align} {dr dc : Int} {p p' : Params}
    {sps sps' : List SParams} (hp : HasSeries p sps) (hp' : HasSeries p' sps')
    (h : List.Forall₂ (Ready D al dr dc) sps sps') (hl : ∀ sp ∈ sps, Long sp) : ∀ (is : List Nat) {s t : Sheet}
    (bs : List Bucket), (∀ i ∈ is, i < sps.length) → AlikeAt D al dr dc s t →
    SameStepOn D al dr dc (seriesLoop ext p is s bs) (seriesLoop ext p' is t bs)
  | [], _, _, bs, _, hst => .inr ⟨_, _, _, rfl, rfl, hst⟩
  | i :: is, s, t, bs, hi, hst => by
    unfold seriesLoop
    have hlt := hi i (by simp)
    have hlt' : i < sps'.length := by rw [← h.length_eq]; exact hlt
    have hrel : Ready D al dr dc sps[i] sps'[i] := (List.forall₂_iff_get.1 h).2 i hlt hlt'
    rcases seriesStep_moved ext (typed_of_series hp (List.getElem?_eq_getElem hlt))
      (typed_of_series hp' (List.getElem?_eq_getElem hlt')) hrel (hl _ (List.getElem_mem hlt)) hst bs with
      ⟨e, k1, k2⟩ | ⟨x, u, v, k1, k2, huv⟩
    · rw [k1, k2]
      exact .inl ⟨_, rfl, rfl⟩
    · rw [k1, k2]
      exact seriesLoop_moved ext hp hp' h hl is x (fun j hj => hi j (by simp [hj])) huv

theorem getData_moved (ext : Ext) {D : Int → Int → Prop} {al : Align} {dr dc : Int} {p p' : Params}
    {sps sps' : List SParams} (hp : HasSeries p sps) (hp' : HasSeries p' sps')
    (h : List.Forall₂ (Ready D al dr dc) sps sps') {s t : Sheet} (hst : AlikeAt D al dr dc s t) :
    SameOn D al dr dc (getData ext p s) (getData ext p' t) := by
  have hm : p' .timeMulticolumn = p .timeMulticolumn := by
    rw [hp, hp']
    congr 1
    refine List.ext_getElem (by simp [h.length_eq]) fun i h1 h2 => ?_
    rw [List.getElem_map, List.getElem_map]
    have hrel : Ready D al dr dc _ _ := (List.forall₂_iff_get.1 h).2 i (by simpa using h2) (by simpa using h1)
    show rawValue (sps'[i]'(by simpa using h1)) _ = _
    rw [show (sps'[i]'(by simpa using h1)) = _ from hrel.moved.rest]
    rfl
  unfold getData
  rw [rangeArgs_series hp, rangeArgs_series hp']
  have hb : ∀ {α β : Type} (a : α) (f : α → Except Err β), (Except.ok a).bind f = f a := fun _ _ => rfl
  rw [hb, hb]
  obtain ⟨hbk, hlong⟩ := bucketLoop_moved ext hm h [] hst
  rcases hbk with ⟨e, k1, k2⟩ | ⟨bs, u, v, k1, k2, huv⟩
  · rw [k1, k2]
    exact ⟨rfl, hst⟩
  · have hl := hlong _ k1
    rw [k1, k2]
    dsimp only
    have l1 : Params.len (p .headersCoord) = .ok sps.length := by
      rw [hp]; unfold Params.len; simp
    have l2 : Params.len (p' .headersCoord) = .ok sps.length := by
      rw [hp', h.length_eq]; unfold Params.len; simp
    rw [l1, l2]
    dsimp only
    rcases seriesLoop_moved ext hp hp' h hl (List.range sps.length) bs (by simp) huv with
      ⟨e, k1, k2⟩ | ⟨bs', u', v', k1, k2, huv'⟩
    · rw [k1, k2]
      exact ⟨rfl, huv⟩
    · rw [k1, k2]
      exact ⟨rfl, huv'⟩

/-- Cleaning and extraction of a table that has moved. -/
theorem scrape_moved (ext : Ext) {D : Int → Int → Prop} {al : Align} {dr dc : Int} {p p' : Params}
    {sps sps' : List SParams} (hp : HasSeries p sps) (hp' : HasSeries p' sps')
    (h : List.Forall₂ (Moved1 D al dr dc) sps sps')
    (hall : (∀ sp ∈ sps, EndGiven sp) ∨ ∀ sp ∈ sps, WithinAt D al none sp) {s t : Sheet}
    (hst : AlikeAt D al dr dc s t)
    (hw : ∀ sps1, HasSeries (scrape ext p s).2.1 sps1 → ∀ sp ∈ sps1, FullCycle sp) :
    (scrape ext p' t).1 = (scrape ext p s).1 ∧ AlikeAt D al dr dc (scrape ext p s).2.2 (scrape ext p' t).2.2 := by
  have hc := cleanData_moved ext h hp hp' hall hst
  unfold scrape at hw ⊢
  revert hc hw
  rcases cleanData ext p s with ⟨x, q, u⟩
  rcases cleanData ext p' t with ⟨y, q', v⟩
  intro hw hc
  unfold SameCleaned at hc
  dsimp only at hc
  obtain ⟨rfl, huv, hq⟩ := hc
  cases y with
  | error e => exact ⟨rfl, huv⟩
  | ok u =>
    obtain ⟨qs, qs', hq1, hq2, hqq⟩ := hq rfl
    dsimp only at hw ⊢
    have hw := hw qs hq1
    have hqq1 : List.Forall₂ (Ready D al dr dc) qs qs' := by
      rw [List.forall₂_iff_get] at hqq ⊢
      exact ⟨hqq.1, fun i h1 h2 => ⟨hqq.2 i h1 h2, hw _ (List.get_mem _ _)⟩⟩
    obtain ⟨k1, k2⟩ := getData_moved ext hq1 hq2 hqq1 huv
    exact ⟨k1, k2⟩

end Xls
