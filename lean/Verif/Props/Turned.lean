/-
C14 and C101: the same worksheet with rows and columns exchanged.
-/
import Verif.Lemmas.TurnedDates
import Verif.Props.Tables
import Verif.Props.MixedTable
import Verif.Props.Preserve
import Verif.Spec.LeftOut

set_option autoImplicit false

namespace Xls

open Spec

/-! ### C14 -/

/-- C14. Exchanging rows and columns of any worksheet and describing a time index accordingly gives the same
cleaned cells, exchanged, and the same end or error; only a `TypeError` may stand in place of it. It does not
if the vertical index reaches the last position that is looked at. -/
theorem C14_turned_partial (ext : Ext) {sp sp' : SParams} (h : Turned sp sp') (s : Sheet) :
    (cleanTimeIndex ext sp' (turned s)).2 = turned (cleanTimeIndex ext sp s).2 ∧
    ((cleanTimeIndex ext sp' (turned s)).1 = (cleanTimeIndex ext sp s).1 ∨
      (cleanTimeIndex ext sp' (turned s)).1 = .error .typeError) ∧
    (sp.dataStarts < lastPosition sp s →
      (cleanTimeIndex ext sp s).1 = .ok (lastPosition sp s - sp.timeAlignment) →
      (cleanTimeIndex ext sp' (turned s)).1 = (cleanTimeIndex ext sp s).1) :=
  cleanTimeIndex_turned ext h s

/-! ### C101 -/

/-- C101. Exchanging rows and columns of a worksheet and describing its series accordingly gives the same data
frames or the same error, and the same worksheet with rows and columns exchanged; only a `TypeError` may stand in
place of it. For series that, with the ends found, make up whole cycles of their frequencies. -/
theorem C101_turned_partial (ext : Ext) {p p' : Params} {sps sps' : List SParams} (hp : HasSeries p sps)
    (hp' : HasSeries p' sps') (h : List.Forall₂ Turned sps sps') (s : Sheet)
    (hw : ∀ sps1, HasSeries (scrape ext p s).2.1 sps1 → ∀ sp ∈ sps1, WholeCycles sp) :
    (scrape ext p' (turned s)).1 = .error .typeError ∨
    ((scrape ext p' (turned s)).1 = (scrape ext p s).1 ∧
      (scrape ext p' (turned s)).2.2 = turned (scrape ext p s).2.2) :=
  scrape_turned ext hp hp' h s hw

/-- Series of one frequency make up whole cycles, wherever they end. -/
theorem wholeCycles_one {ext : Ext} {p : Params} {sps : List SParams} (hp : HasSeries p sps) (s : Sheet)
    (hf : ∀ sp ∈ sps, sp.frequency.length = 1) :
    ∀ sps1, HasSeries (scrape ext p s).2.1 sps1 → ∀ sp ∈ sps1, WholeCycles sp := by
  intro sps1 h1 sp hsp
  have e : PVal.list (sps1.map fun sp => rawValue sp .frequency) = .list (sps.map fun sp => rawValue sp .frequency) := by
    rw [← h1, scrape_other ext p s (by decide), hp]
  injection e with e
  have hm : rawValue sp .frequency ∈ sps1.map fun sp => rawValue sp .frequency := List.mem_map.2 ⟨sp, hsp, rfl⟩
  rw [e] at hm
  obtain ⟨sp0, h0, h2⟩ := List.mem_map.1 hm
  have h3 : PVal.str sp0.frequency = PVal.str sp.frequency := h2
  injection h3 with h3
  intro k
  have := hf sp0 h0
  rw [h3] at this
  omega

/-- C101. With the ends given, dates in line with the values and a date at every position, exactly the same data
frames are given. -/
theorem C101_dates_partial (ext : Ext) {p p' p1 : Params} {sps sps' : List SParams} (hp : HasSeries p sps)
    (hp' : HasSeries p' sps') (h : List.Forall₂ Turned sps sps') {s s1 : Sheet} {fs : List Frame}
    (hin : ∀ sp ∈ sps, DatesInLine sp) (hw : ∀ sp ∈ sps, WholeCycles sp)
    (hv : scrape ext p s = (.ok fs, p1, s1)) (hd : ∀ sp ∈ sps, DateInEvery sp s1) :
    ∃ p1', scrape ext p' (turned s) = (.ok fs, p1', turned s1) :=
  scrape_dates ext hp hp' h hin hw hv hd

theorem wellFormed_turned {s : Sheet} (h : WellFormed s) : WellFormed (turned s) :=
  ⟨h.cols, h.rows, fun r c hn => h.outside c r (by
    intro k
    exact hn ⟨k.2.2.1, k.2.2.2, k.1, k.2.1⟩)⟩

theorem calls_turned (ext : Ext) (wb : List Nat) (w w2 : World) (given given2 : Given) (name : Str)
    (safe preserve : Bool) (r : Nat) {p p' : Params} {sps sps' : List SParams}
    (hreq : Requested ext wb w name r) (hwb : ∀ q ∈ wb, q < w.nextSheet ∧ WellFormed (w.sheets q))
    (hwb2 : ∀ q ∈ wb, q < w2.nextSheet ∧ w2.sheets q = turned (w.sheets q))
    (hgiven : (∃ pr, given = .object pr ∧ w.params pr = p) ∨ (∃ x, given = .other x ∧ Params.new x = .ok p))
    (hgiven2 : (∃ pr, given2 = .object pr ∧ w2.params pr = p') ∨ (∃ x, given2 = .other x ∧ Params.new x = .ok p'))
    (hne : sps ≠ []) (hp : HasSeries p sps) (hp' : HasSeries p' sps') (h : List.Forall₂ Turned sps sps') :
    (∃ pr w', getDataFrames ext wb given2 name safe preserve w2 =
      ((scrape ext p' (turned (w.sheets r))).1.map fun fs => (.dfs (unwrap fs), (w.sheets r).title, pr), w')) ∧
    (∃ pr w', getDataFrames ext wb given name safe preserve w =
      ((scrape ext p (w.sheets r)).1.map fun fs => (.dfs (unwrap fs), (w.sheets r).title, pr), w')) := by
  have hr := hreq.1
  have ht : (wb.map fun q => (w2.sheets q).title) = wb.map fun q => (w.sheets q).title := by
    refine List.map_congr_left fun q hq => ?_
    rw [(hwb2 q hq).2]
    rfl
  have htr : (w2.sheets r).title = (w.sheets r).title := by rw [(hwb2 r hr).2]; rfl
  have hreq2 : Requested ext wb w2 name r := by
    unfold Requested
    rw [ht, htr]
    exact hreq
  have hne' : sps' ≠ [] := by
    intro e
    have := h.length_eq
    rw [e] at this
    exact hne (List.length_eq_zero_iff.1 this)
  obtain ⟨⟨x, q, t⟩, hres⟩ : ∃ res, scrape ext p (w.sheets r) = res := ⟨_, rfl⟩
  obtain ⟨⟨x', q', t'⟩, hres'⟩ : ∃ res, scrape ext p' (turned (w.sheets r)) = res := ⟨_, rfl⟩
  rw [hres, hres']
  refine ⟨?_, call_result ext wb w given name safe preserve r hreq hwb hgiven (complete_series hp hne) hres⟩
  have := call_result ext wb w2 given2 name safe preserve r hreq2
    (fun q hq => ⟨(hwb2 q hq).1, by rw [(hwb2 q hq).2]; exact wellFormed_turned (hwb q hq).2⟩) hgiven2
    (complete_series hp' hne') ((hwb2 r hr).2 ▸ hres')
  rwa [htr] at this

/-- C101 for calls. Take two workbooks, the worksheets of one being those of the other with rows and columns
exchanged. Unless the call for horizontal series raises a `TypeError`, it gives an answer if and only if the one
for vertical series does, and the same one. -/
theorem C101_call_partial (ext : Ext) (wb : List Nat) (w w2 : World) (given given2 : Given) (name : Str)
    (safe preserve : Bool) (r : Nat) {p p' : Params} {sps sps' : List SParams}
    (hreq : Requested ext wb w name r) (hwb : ∀ q ∈ wb, q < w.nextSheet ∧ WellFormed (w.sheets q))
    (hwb2 : ∀ q ∈ wb, q < w2.nextSheet ∧ w2.sheets q = turned (w.sheets q))
    (hgiven : (∃ pr, given = .object pr ∧ w.params pr = p) ∨ (∃ x, given = .other x ∧ Params.new x = .ok p))
    (hgiven2 : (∃ pr, given2 = .object pr ∧ w2.params pr = p') ∨ (∃ x, given2 = .other x ∧ Params.new x = .ok p'))
    (hne : sps ≠ []) (hp : HasSeries p sps) (hp' : HasSeries p' sps') (h : List.Forall₂ Turned sps sps')
    (hw : ∀ sps1, HasSeries (scrape ext p (w.sheets r)).2.1 sps1 → ∀ sp ∈ sps1, WholeCycles sp) :
    (∃ w', getDataFrames ext wb given2 name safe preserve w2 = (.error .typeError, w')) ∨
    ∀ a title, gives (getDataFrames ext wb given2 name safe preserve w2) a title ↔
      gives (getDataFrames ext wb given name safe preserve w) a title := by
  obtain ⟨⟨pr', w1', hc'⟩, pr, w1, hc⟩ :=
    calls_turned ext wb w w2 given given2 name safe preserve r hreq hwb hwb2 hgiven hgiven2 hne hp hp' h
  have hsame := C101_turned_partial ext hp hp' h (w.sheets r) hw
  rw [hc, hc']
  rcases hsame with e | ⟨e, _⟩
  · rw [e]
    exact .inl ⟨_, rfl⟩
  · rw [e]
    right
    intro a title
    cases (scrape ext p (w.sheets r)).1 with
    | error e =>
      constructor
      · rintro ⟨_, _, h⟩; cases h
      · rintro ⟨_, _, h⟩; cases h
    | ok fs =>
      constructor
      · rintro ⟨_, _, h⟩; cases h; exact ⟨_, _, rfl⟩
      · rintro ⟨_, _, h⟩; cases h; exact ⟨_, _, rfl⟩

/-- C101 for calls with the ends given, where every position has a date: if the vertical series give data frames,
the call for the horizontal ones gives the same answer. -/
theorem C101_call_dates_partial (ext : Ext) (wb : List Nat) (w w2 : World) (given given2 : Given) (name : Str)
    (safe preserve : Bool) (r : Nat) {p p' : Params} {sps sps' : List SParams}
    (hreq : Requested ext wb w name r) (hwb : ∀ q ∈ wb, q < w.nextSheet ∧ WellFormed (w.sheets q))
    (hwb2 : ∀ q ∈ wb, q < w2.nextSheet ∧ w2.sheets q = turned (w.sheets q))
    (hgiven : (∃ pr, given = .object pr ∧ w.params pr = p) ∨ (∃ x, given = .other x ∧ Params.new x = .ok p))
    (hgiven2 : (∃ pr, given2 = .object pr ∧ w2.params pr = p') ∨ (∃ x, given2 = .other x ∧ Params.new x = .ok p'))
    (hne : sps ≠ []) (hp : HasSeries p sps) (hp' : HasSeries p' sps') (h : List.Forall₂ Turned sps sps')
    (hin : ∀ sp ∈ sps, DatesInLine sp) (hw : ∀ sp ∈ sps, WholeCycles sp) {fs : List Frame} {p1 : Params} {s1 : Sheet}
    (hv : scrape ext p (w.sheets r) = (.ok fs, p1, s1)) (hd : ∀ sp ∈ sps, DateInEvery sp s1) :
    gives (getDataFrames ext wb given name safe preserve w) (.dfs (unwrap fs)) (w.sheets r).title ∧
    gives (getDataFrames ext wb given2 name safe preserve w2) (.dfs (unwrap fs)) (w.sheets r).title := by
  obtain ⟨⟨pr', w1', hc'⟩, pr, w1, hc⟩ :=
    calls_turned ext wb w w2 given given2 name safe preserve r hreq hwb hwb2 hgiven hgiven2 hne hp hp' h
  obtain ⟨p1', hh⟩ := C101_dates_partial ext hp hp' h hin hw hv hd
  rw [hv] at hc
  rw [hh] at hc'
  exact ⟨⟨_, _, hc⟩, ⟨_, _, hc'⟩⟩

/-! ### Examples -/

namespace Sample

/-- The quarters of `quarterSheet` in a row. -/
def quarterRow (header : Str) : SParams := { quarterSeries header with alignment := .horizontal }

theorem quarter_turned (col row : Str) (h : TurnedCell col row) (e : Option Int) :
    Turned { quarterSeries col with dataEnds := e } { quarterRow row with dataEnds := e } :=
  ⟨rfl, rfl, h, .nil, .single ⟨1, 1, by decide, by decide, by decide, by decide⟩, rfl⟩

theorem turned_B1 : TurnedCell c!"B1" c!"A2" := ⟨1, 2, by decide, by decide, by decide, by decide⟩

theorem turned_C1 : TurnedCell c!"C1" c!"A3" := ⟨1, 3, by decide, by decide, by decide, by decide⟩

end Sample

namespace Sample

def twoQuarters : List SParams :=
  [{ quarterSeries c!"B1" with dataEnds := some 4 }, { quarterSeries c!"C1" with dataEnds := some 4 }]

def twoQuarterRows : List SParams :=
  [{ quarterRow c!"A2" with dataEnds := some 4 }, { quarterRow c!"A3" with dataEnds := some 4 }]

theorem quarters_turned : List.Forall₂ Turned twoQuarters twoQuarterRows :=
  .cons (quarter_turned _ _ turned_B1 (some 4)) (.cons (quarter_turned _ _ turned_C1 (some 4)) .nil)

theorem quarters_dates : ∃ p1 s1, scrape ext0 (paramsOf twoQuarters) quarterSheet =
      (.ok [⟨c!"QS-JAN", [⟨2000, 7, 1, 0⟩, ⟨2000, 10, 1, 0⟩, ⟨2001, 1, 1, 0⟩], [c!"PBI", c!"IPC"],
        [[.fin 10, .fin 11, .fin 12], [.fin 1, .fin 2, .fin 3]]⟩], p1, s1) ∧
    ∀ sp ∈ twoQuarters, DatesInLine sp ∧ WholeCycles sp ∧ DateInEvery sp s1 := by
  have hv : (scrape ext0 (paramsOf twoQuarters) quarterSheet).1 =
      .ok [⟨c!"QS-JAN", [⟨2000, 7, 1, 0⟩, ⟨2000, 10, 1, 0⟩, ⟨2001, 1, 1, 0⟩], [c!"PBI", c!"IPC"],
        [[.fin 10, .fin 11, .fin 12], [.fin 1, .fin 2, .fin 3]]⟩] := by decide +kernel
  have hd : ∀ pos ∈ [(2 : Int), 3, 4],
      ((scrape ext0 (paramsOf twoQuarters) quarterSheet).2.2.cells pos 1).isDt = true := by decide +kernel
  obtain ⟨⟨x, p1, s1⟩, hres⟩ : ∃ r, scrape ext0 (paramsOf twoQuarters) quarterSheet = r := ⟨_, rfl⟩
  rw [hres] at hv hd
  dsimp only at hv hd
  subst hv
  refine ⟨p1, s1, hres, ?_⟩
  intro sp hsp
  simp only [twoQuarters, List.mem_cons, List.not_mem_nil, or_false] at hsp
  rcases hsp with rfl | rfl
  all_goals
    refine ⟨⟨rfl, rfl, by decide, by decide⟩, fun k => absurd k (by decide), ?_⟩
    intro r c e pos k1 k2 k3 k4
    cases k1
    cases k2
    replace k3 : (2 : Int) ≤ pos := k3
    have := hd pos (by simp; omega)
    cases hc : s1.cells pos 1 with
    | dt t => exact ⟨t, hc⟩
    | _ => rw [hc] at this; cases this

end Sample

/-- The data frame of the quarters, with the end given, from columns and from rows. -/
example : (scrape Sample.ext0 (Sample.paramsOf Sample.twoQuarterRows) (turned Sample.quarterSheet)).1 =
    .ok [⟨c!"QS-JAN", [⟨2000, 7, 1, 0⟩, ⟨2000, 10, 1, 0⟩, ⟨2001, 1, 1, 0⟩], [c!"PBI", c!"IPC"],
      [[.fin 10, .fin 11, .fin 12], [.fin 1, .fin 2, .fin 3]]⟩] := by
  obtain ⟨p1, s1, hres, hin⟩ := Sample.quarters_dates
  obtain ⟨_, h⟩ := C101_dates_partial Sample.ext0 (p' := Sample.paramsOf Sample.twoQuarterRows) (fun _ => rfl)
    (fun _ => rfl) Sample.quarters_turned (fun sp hsp => (hin sp hsp).1) (fun sp hsp => (hin sp hsp).2.1) hres
    (fun sp hsp => (hin sp hsp).2.2)
  rw [h]

/-- The time index of that sheet reaches the last position looked at. -/
example : (cleanTimeIndex Sample.ext0 { Sample.quarterRow c!"A2" with dataEnds := some 4 }
    (turned Sample.quarterSheet)).1 = .ok 4 := by
  have h := C14_turned_partial Sample.ext0 (Sample.quarter_turned _ _ Sample.turned_B1 (some 4)) Sample.quarterSheet
  have h1 : (cleanTimeIndex Sample.ext0 { Sample.quarterSeries c!"B1" with dataEnds := some 4 }
    Sample.quarterSheet).1 = .ok 4 := by decide +kernel
  rw [h.2.2 (by decide) h1, h1]

/-- C101. Violated: without the end the vertical table gives its data frame, the horizontal one gives none. -/
theorem C101_turned_violated :
    let p := Sample.paramsOf [Sample.quarterSeries c!"B1", Sample.quarterSeries c!"C1"]
    let p' := Sample.paramsOf [Sample.quarterRow c!"A2", Sample.quarterRow c!"A3"]
    (scrape Sample.ext0 p Sample.quarterSheet).1 = .ok [⟨c!"QS-JAN", [⟨2000, 7, 1, 0⟩, ⟨2000, 10, 1, 0⟩,
      ⟨2001, 1, 1, 0⟩], [c!"PBI", c!"IPC"], [[.fin 10, .fin 11, .fin 12], [.fin 1, .fin 2, .fin 3]]⟩] ∧
    (scrape Sample.ext0 p' (turned Sample.quarterSheet)).1 = .error .typeError := by
  decide +kernel

/-- Ten values by quarters and years, two whole cycles, from a column and from a row. -/
example :
    let p := Sample.paramsOf [{ Sample.quarterly with dataEnds := some 11 }]
    let p' := Sample.paramsOf [{ Sample.quarterly with
      dataEnds := some 11, headerCoord := c!"A2", alignment := .horizontal }]
    (scrape Sample.ext0 p Sample.totalSheet).1 = .ok
      [⟨c!"QS-JAN", [⟨2003, 1, 1, 0⟩, ⟨2003, 4, 1, 0⟩, ⟨2003, 7, 1, 0⟩, ⟨2003, 10, 1, 0⟩, ⟨2004, 1, 1, 0⟩,
          ⟨2004, 4, 1, 0⟩, ⟨2004, 7, 1, 0⟩, ⟨2004, 10, 1, 0⟩],
        [c!"PBI"], [[.fin 21, .fin 22, .fin 23, .fin 24, .fin 31, .fin 32, .fin 33, .fin 34]]⟩,
       ⟨c!"AS-JAN", [⟨2003, 1, 1, 0⟩, ⟨2004, 1, 1, 0⟩], [c!"PBI"], [[.fin 90, .fin 130]]⟩] ∧
    (scrape Sample.ext0 p' (turned Sample.totalSheet)).1 = (scrape Sample.ext0 p Sample.totalSheet).1 := by
  have hv : (scrape Sample.ext0 (Sample.paramsOf [{ Sample.quarterly with dataEnds := some 11 }])
      Sample.totalSheet).1 = .ok
      [⟨c!"QS-JAN", [⟨2003, 1, 1, 0⟩, ⟨2003, 4, 1, 0⟩, ⟨2003, 7, 1, 0⟩, ⟨2003, 10, 1, 0⟩, ⟨2004, 1, 1, 0⟩,
          ⟨2004, 4, 1, 0⟩, ⟨2004, 7, 1, 0⟩, ⟨2004, 10, 1, 0⟩],
        [c!"PBI"], [[.fin 21, .fin 22, .fin 23, .fin 24, .fin 31, .fin 32, .fin 33, .fin 34]]⟩,
       ⟨c!"AS-JAN", [⟨2003, 1, 1, 0⟩, ⟨2004, 1, 1, 0⟩], [c!"PBI"], [[.fin 90, .fin 130]]⟩] := by decide +kernel
  have hd : ∀ pos ∈ [(2 : Int), 3, 4, 5, 6, 7, 8, 9, 10, 11], ((scrape Sample.ext0 (Sample.paramsOf
      [{ Sample.quarterly with dataEnds := some 11 }]) Sample.totalSheet).2.2.cells pos 1).isDt = true := by
    decide +kernel
  refine ⟨hv, ?_⟩
  obtain ⟨⟨x, p1, s1⟩, hres⟩ : ∃ r, scrape Sample.ext0 (Sample.paramsOf [{ Sample.quarterly with
      dataEnds := some 11 }]) Sample.totalSheet = r := ⟨_, rfl⟩
  rw [hres] at hv hd
  dsimp only at hv hd
  subst hv
  have hin : ∀ sp ∈ [{ Sample.quarterly with dataEnds := some 11 }], DatesInLine sp ∧ WholeCycles sp ∧
      DateInEvery sp s1 := by
    intro sp hsp
    rw [List.mem_singleton] at hsp
    subst hsp
    refine ⟨⟨rfl, rfl, by decide, by decide⟩, fun _ e he => by cases he; decide, ?_⟩
    intro r c e pos k1 k2 k3 k4
    cases k1
    cases k2
    replace k3 : (2 : Int) ≤ pos := k3
    have := hd pos (by simp; omega)
    cases hc : s1.cells pos 1 with
    | dt t => exact ⟨t, hc⟩
    | _ => rw [hc] at this; cases this
  obtain ⟨_, h⟩ := C101_dates_partial Sample.ext0 (sps' := [{ Sample.quarterly with
      dataEnds := some 11, headerCoord := c!"A2", alignment := .horizontal }]) (fun _ => rfl) (fun _ => rfl)
    (.cons ⟨rfl, rfl, Sample.turned_B1, .nil, .single ⟨1, 1, by decide, by decide, by decide, by decide⟩, rfl⟩ .nil)
    (fun sp hsp => (hin sp hsp).1) (fun sp hsp => (hin sp hsp).2.1) hres (fun sp hsp => (hin sp hsp).2.2)
  exact (congrArg (fun r => r.1) h).trans (congrArg (fun r => r.1) hres).symm

/-- C101. Violated: the last of the cycles of quarters and years is not complete. The vertical series gives an
error, the horizontal one its data frames. -/
theorem C101_cycles_violated :
    let p := Sample.paramsOf [{ Sample.quarterly with dataEnds := some 8 }]
    let p' := Sample.paramsOf [{ Sample.quarterly with
      dataEnds := some 8, headerCoord := c!"A2", alignment := .horizontal }]
    (scrape Sample.ext0 p Sample.totalSheet).1 = .error .valueError ∧
    (scrape Sample.ext0 p' (turned Sample.totalSheet)).1 = .ok
      [⟨c!"QS-JAN", [⟨2003, 1, 1, 0⟩, ⟨2003, 4, 1, 0⟩, ⟨2003, 7, 1, 0⟩, ⟨2003, 10, 1, 0⟩, ⟨2004, 1, 1, 0⟩,
          ⟨2004, 4, 1, 0⟩], [c!"PBI"], [[.fin 21, .fin 22, .fin 23, .fin 24, .fin 31, .fin 32]]⟩,
       ⟨c!"AS-JAN", [⟨2003, 1, 1, 0⟩], [c!"PBI"], [[.fin 90]]⟩] := by
  decide +kernel

/-- Two calls. -/
example (w w2 : World) (hw : w.sheets 0 = Sample.quarterSheet) (hw2 : w2.sheets 0 = turned Sample.quarterSheet)
    (hn : w.nextSheet = 1) (hn2 : w2.nextSheet = 1)
    (hp : w.params 0 = Sample.paramsOf [{ Sample.quarterSeries c!"B1" with dataEnds := some 4 }])
    (hp2 : w2.params 0 = Sample.paramsOf [{ Sample.quarterRow c!"A2" with dataEnds := some 4 }]) :
    (∃ w', getDataFrames Sample.ext0 [0] (.object 0) [] false true w2 = (.error .typeError, w')) ∨
    ∀ a title, gives (getDataFrames Sample.ext0 [0] (.object 0) [] false true w2) a title ↔
      gives (getDataFrames Sample.ext0 [0] (.object 0) [] false true w) a title := by
  refine C101_call_partial Sample.ext0 [0] w w2 (.object 0) (.object 0) [] false true 0
    (sps := [{ Sample.quarterSeries c!"B1" with dataEnds := some 4 }])
    (sps' := [{ Sample.quarterRow c!"A2" with dataEnds := some 4 }])
    ⟨by simp, by simp, .inl ⟨rfl, rfl⟩⟩ ?_ ?_ (.inl ⟨0, rfl, hp⟩) (.inl ⟨0, rfl, hp2⟩) (by simp)
    (fun _ => rfl) (fun _ => rfl) (.cons (Sample.quarter_turned _ _ Sample.turned_B1 (some 4)) .nil)
    (wholeCycles_one (fun _ => rfl) _ (by decide))
  · intro q hq
    rw [List.mem_singleton] at hq
    subst hq
    rw [hn, hw]
    exact ⟨by decide, Sample.rows_wellFormed (by decide) (by decide) (by decide)⟩
  · intro q hq
    rw [List.mem_singleton] at hq
    subst hq
    rw [hn2, hw, hw2]
    exact ⟨by decide, rfl⟩

/-- Two calls, with the ends given. -/
example (w w2 : World) (hw : w.sheets 0 = Sample.quarterSheet) (hw2 : w2.sheets 0 = turned Sample.quarterSheet)
    (hn : w.nextSheet = 1) (hn2 : w2.nextSheet = 1) (hp : w.params 0 = Sample.paramsOf Sample.twoQuarters)
    (hp2 : w2.params 0 = Sample.paramsOf Sample.twoQuarterRows) :
    gives (getDataFrames Sample.ext0 [0] (.object 0) [] false true w2)
      (.dfs (unwrap [⟨c!"QS-JAN", [⟨2000, 7, 1, 0⟩, ⟨2000, 10, 1, 0⟩, ⟨2001, 1, 1, 0⟩], [c!"PBI", c!"IPC"],
        [[.fin 10, .fin 11, .fin 12], [.fin 1, .fin 2, .fin 3]]⟩])) Sample.quarterSheet.title := by
  obtain ⟨p1, s1, hres, hin⟩ := Sample.quarters_dates
  rw [← hw] at hres
  rw [← hw]
  refine (C101_call_dates_partial Sample.ext0 [0] w w2 (.object 0) (.object 0) [] false true 0
    (sps := Sample.twoQuarters) (sps' := Sample.twoQuarterRows)
    ⟨by simp, by simp, .inl ⟨rfl, rfl⟩⟩ ?_ ?_ (.inl ⟨0, rfl, hp⟩) (.inl ⟨0, rfl, hp2⟩) (by simp [Sample.twoQuarters])
    (fun _ => rfl) (fun _ => rfl) Sample.quarters_turned (fun sp hsp => (hin sp hsp).1)
    (fun sp hsp => (hin sp hsp).2.1) hres (fun sp hsp => (hin sp hsp).2.2)).2
  · intro q hq
    rw [List.mem_singleton] at hq
    subst hq
    rw [hn, hw]
    exact ⟨by decide, Sample.rows_wellFormed (by decide) (by decide) (by decide)⟩
  · intro q hq
    rw [List.mem_singleton] at hq
    subst hq
    rw [hn2, hw, hw2]
    exact ⟨by decide, rfl⟩

end Xls
