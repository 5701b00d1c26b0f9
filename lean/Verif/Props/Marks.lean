/-
C104: empty rows and columns that exist.
-/
import Verif.Lemmas.Marks
import Verif.Props.Turned

set_option autoImplicit false

namespace Xls

open Spec

theorem alike_of_values {s t : Sheet} (hs : WellFormed s) (ht : WellFormed t) (h : SameValues s t) :
    1 ≤ min s.maxRow t.maxRow ∧ Alike (min s.maxRow t.maxRow) s t := by
  have h1 := hs.rows
  have h2 := ht.rows
  refine ⟨by omega, h.cells, ?_, by omega, by omega⟩
  intro r c hr
  rcases Int.lt_or_le s.maxRow r with h3 | h3
  · exact hs.outside r c (by omega)
  · rw [← h.cells]
    exact ht.outside r c (by omega)

/-- C104. Two worksheets with the same values give the same data frames or the same error, the same parameters
and the same values afterwards, however many empty rows and columns exist in each. For series in columns that
start in rows that exist in both, and for series whose end is given. -/
theorem C104_empty_partial (ext : Ext) {p : Params} {sps : List SParams} (hp : HasSeries p sps) {s t : Sheet}
    (hs : WellFormed s) (ht : WellFormed t) (h : SameValues s t)
    (hin : Settled (min s.maxRow t.maxRow) sps) :
    (scrape ext p t).1 = (scrape ext p s).1 ∧ (scrape ext p t).2.1 = (scrape ext p s).2.1 ∧
      (scrape ext p t).2.2.cells = (scrape ext p s).2.2.cells := by
  obtain ⟨h1, h2⟩ := alike_of_values hs ht h
  exact scrape_alike ext h1 hp hin h2

/-- C104 for calls. Take two workbooks whose worksheets have the same titles and values. A call gives an answer
for one if and only if it gives one for the other, and the same one. -/
theorem C104_call_partial (ext : Ext) (wb : List Nat) (w w2 : World) (given given2 : Given) (name : Str)
    (safe preserve : Bool) (r : Nat) {p : Params} {sps : List SParams}
    (hreq : Requested ext wb w name r) (hwb : ∀ q ∈ wb, q < w.nextSheet ∧ WellFormed (w.sheets q))
    (hwb2 : ∀ q ∈ wb, q < w2.nextSheet ∧ WellFormed (w2.sheets q) ∧ SameValues (w.sheets q) (w2.sheets q))
    (hgiven : (∃ pr, given = .object pr ∧ w.params pr = p) ∨ (∃ x, given = .other x ∧ Params.new x = .ok p))
    (hgiven2 : (∃ pr, given2 = .object pr ∧ w2.params pr = p) ∨ (∃ x, given2 = .other x ∧ Params.new x = .ok p))
    (hne : sps ≠ []) (hp : HasSeries p sps)
    (hin : Settled (min (w.sheets r).maxRow (w2.sheets r).maxRow) sps) (a : Answer) (title : Str) :
    gives (getDataFrames ext wb given2 name safe preserve w2) a title ↔
      gives (getDataFrames ext wb given name safe preserve w) a title := by
  have hr := hreq.1
  have htr : (w2.sheets r).title = (w.sheets r).title := (hwb2 r hr).2.2.title
  have ht : (wb.map fun q => (w2.sheets q).title) = wb.map fun q => (w.sheets q).title :=
    List.map_congr_left fun q hq => (hwb2 q hq).2.2.title
  have hreq2 : Requested ext wb w2 name r := by
    unfold Requested
    rw [ht, htr]
    exact hreq
  obtain ⟨k1, _, _⟩ := C104_empty_partial ext hp (hwb r hr).2 (hwb2 r hr).2.1 (hwb2 r hr).2.2 hin
  obtain ⟨⟨x, q, u⟩, hres⟩ : ∃ res, scrape ext p (w.sheets r) = res := ⟨_, rfl⟩
  obtain ⟨⟨x', q', u'⟩, hres'⟩ : ∃ res, scrape ext p (w2.sheets r) = res := ⟨_, rfl⟩
  rw [hres, hres'] at k1
  dsimp only at k1
  subst k1
  obtain ⟨pr, w1, hc⟩ := call_result ext wb w given name safe preserve r hreq hwb hgiven (complete_series hp hne) hres
  obtain ⟨pr', w1', hc'⟩ := call_result ext wb w2 given2 name safe preserve r hreq2
    (fun q hq => ⟨(hwb2 q hq).1, (hwb2 q hq).2.1⟩) hgiven2 (complete_series hp hne) hres'
  rw [hc, hc', htr]
  cases x' with
  | error e =>
    constructor
    · rintro ⟨_, _, h⟩; cases h
    · rintro ⟨_, _, h⟩; cases h
  | ok fs =>
    constructor
    · rintro ⟨_, _, h⟩; cases h; exact ⟨_, _, rfl⟩
    · rintro ⟨_, _, h⟩; cases h; exact ⟨_, _, rfl⟩

/-! ### Examples -/

namespace Sample

/-- `quarterSheet` with 96 empty rows below and 10 empty columns on the right. -/
def longSheet : Sheet := { quarterSheet with maxRow := 100, maxCol := 13 }

theorem longSheet_wellFormed : WellFormed longSheet := by
  have h : WellFormed quarterSheet := rows_wellFormed (by decide) (by decide) (by decide)
  refine ⟨by decide, by decide, fun r c hn => h.outside r c ?_⟩
  have h1 : quarterSheet.maxRow ≤ 100 := by decide
  have h2 : quarterSheet.maxCol ≤ 13 := by decide
  intro k
  exact hn ⟨k.1, by show r ≤ (100 : Int); omega, k.2.2.1, by show c ≤ (13 : Int); omega⟩

/-- Three quarters in a row, nothing else. -/
def shortRow : Sheet := turned (rows
  [[.str c!"fecha", .str c!"PBI "],
   [.str c!"2000 III", .int 10],
   [.str c!"IV", .int 11],
   [.str c!"2001 I", .int 12]])

end Sample

/-- The quarters, without the end. -/
example : (scrape Sample.ext0 (Sample.paramsOf [Sample.quarterSeries c!"B1", Sample.quarterSeries c!"C1"])
    Sample.longSheet).1 = .ok [⟨c!"QS-JAN", [⟨2000, 7, 1, 0⟩, ⟨2000, 10, 1, 0⟩, ⟨2001, 1, 1, 0⟩],
      [c!"PBI", c!"IPC"], [[.fin 10, .fin 11, .fin 12], [.fin 1, .fin 2, .fin 3]]⟩] := by
  have h := C104_empty_partial Sample.ext0
    (p := Sample.paramsOf [Sample.quarterSeries c!"B1", Sample.quarterSeries c!"C1"])
    (sps := [Sample.quarterSeries c!"B1", Sample.quarterSeries c!"C1"]) (fun _ => rfl)
    (s := Sample.quarterSheet) (t := Sample.longSheet)
    (Sample.rows_wellFormed (by decide) (by decide) (by decide)) Sample.longSheet_wellFormed ⟨rfl, rfl⟩
    ⟨by
      intro sp hsp
      simp only [List.mem_cons, List.not_mem_nil, or_false] at hsp
      rcases hsp with rfl | rfl <;> exact .inl ⟨rfl, by decide⟩, .inl (by decide)⟩
  rw [h.1]
  decide +kernel

/-- Two frequencies. -/
example : (scrape Sample.ext0 (Sample.paramsOf [Sample.quarterly]) { Sample.totalSheet with maxRow := 60 }).1 =
    (scrape Sample.ext0 (Sample.paramsOf [Sample.quarterly]) Sample.totalSheet).1 := by
  have h : WellFormed Sample.totalSheet := Sample.rows_wellFormed (by decide) (by decide) (by decide)
  have h1 : Sample.totalSheet.maxRow ≤ 60 := by decide
  refine (C104_empty_partial Sample.ext0 (sps := [Sample.quarterly]) (fun _ => rfl)
    (s := Sample.totalSheet) (t := { Sample.totalSheet with maxRow := 60 }) h
    ⟨by decide, h.cols, fun r c hn => h.outside r c ?_⟩ ⟨rfl, rfl⟩
    ⟨by intro sp hsp; rw [List.mem_singleton] at hsp; subst hsp; exact .inl ⟨rfl, by decide⟩, .inr ?_⟩).1
  · intro k
    exact hn ⟨k.1, by show r ≤ (60 : Int); omega, k.2.2.1, k.2.2.2⟩
  · intro sp hsp
    rw [List.mem_singleton] at hsp
    subst hsp
    exact ⟨rfl, by decide, by decide, (fun e he => by cases he), by decide⟩

/-- Two calls. -/
example (w w2 : World) (hw : w.sheets 0 = Sample.quarterSheet) (hw2 : w2.sheets 0 = Sample.longSheet)
    (hn : w.nextSheet = 1) (hn2 : w2.nextSheet = 1)
    (hp : w.params 0 = Sample.paramsOf [Sample.quarterSeries c!"B1"])
    (hp2 : w2.params 0 = Sample.paramsOf [Sample.quarterSeries c!"B1"]) (a : Answer) (title : Str) :
    gives (getDataFrames Sample.ext0 [0] (.object 0) [] false true w2) a title ↔
      gives (getDataFrames Sample.ext0 [0] (.object 0) [] false true w) a title := by
  refine C104_call_partial Sample.ext0 [0] w w2 (.object 0) (.object 0) [] false true 0
    (sps := [Sample.quarterSeries c!"B1"]) ⟨by simp, by simp, .inl ⟨rfl, rfl⟩⟩ ?_ ?_ (.inl ⟨0, rfl, hp⟩)
    (.inl ⟨0, rfl, hp2⟩) (by simp) (fun _ => rfl) ?_ a title
  · intro q hq
    rw [List.mem_singleton] at hq
    subst hq
    rw [hn, hw]
    exact ⟨by decide, Sample.rows_wellFormed (by decide) (by decide) (by decide)⟩
  · intro q hq
    rw [List.mem_singleton] at hq
    subst hq
    rw [hn2, hw, hw2]
    exact ⟨by decide, Sample.longSheet_wellFormed, ⟨rfl, rfl⟩⟩
  · rw [hw, hw2]
    exact ⟨by intro sp hsp; rw [List.mem_singleton] at hsp; subst hsp; exact .inl ⟨rfl, by decide⟩, .inl (by decide)⟩

/-- C104. Violated: a table in rows, without the end, gives its data frame. With one more empty column, its
values unchanged, it gives an error. -/
theorem C104_empty_violated :
    let p := Sample.paramsOf [Sample.quarterRow c!"A2"]
    let s := Sample.shortRow
    let t := { s with maxCol := 5 }
    SameValues s t ∧
    (scrape Sample.ext0 p s).1 = .ok [⟨c!"QS-JAN", [⟨2000, 7, 1, 0⟩, ⟨2000, 10, 1, 0⟩, ⟨2001, 1, 1, 0⟩],
      [c!"PBI"], [[.fin 10, .fin 11, .fin 12]]⟩] ∧
    (scrape Sample.ext0 p t).1 = .error .typeError := by
  refine ⟨⟨rfl, rfl⟩, ?_⟩
  decide +kernel

end Xls
