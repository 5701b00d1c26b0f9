/-
C108: a table that stands elsewhere on a worksheet, among other things.
-/
import Verif.Lemmas.Moved3
import Verif.Props.Determined

set_option autoImplicit false

namespace Xls

open Spec

/-- The cells of the table are all that matters for its series. -/
theorem within_table {al : Align} {sps : List SParams} {sp : SParams} (h : sp ∈ sps) (ha : sp.alignment = al) :
    (∃ hi, WithinAt (InTable sps) al hi sp) ∧ (¬ (∀ sq ∈ sps, EndGiven sq) → WithinAt (InTable sps) al none sp) := by
  have head : ∀ a ∈ sp.headerCoord :: sp.composedHeaders.getD [], ∀ r c, coordOf a = .ok (r, c) → InTable sps r c :=
    fun a hm r c hc => ⟨sp, h, .inl ⟨a, hm, hc⟩⟩
  have line : ∀ a ∈ sp.headerCoord :: timeCoords sp.timeHeader, ∀ pos, InReach sps sp pos → LineIn (InTable sps) al a pos := by
    intro a hm pos hpos r c hc
    refine ⟨sp, h, .inr ⟨a, hm, r, c, pos, hc, hpos, ?_⟩⟩
    rw [ha]
    cases al <;> rfl
  have free : ¬ ((∀ sq ∈ sps, EndGiven sq) ∧ sp.frequency.length = 1) → WithinAt (InTable sps) al none sp := by
    intro hn
    exact ⟨head, fun a hm pos h1 _ => line a hm pos ⟨h1, fun k1 k2 => absurd ⟨k1, k2⟩ hn⟩, fun x hx => by cases hx⟩
  refine ⟨?_, fun hn => free fun k => hn k.1⟩
  by_cases hg : (∀ sq ∈ sps, EndGiven sq) ∧ sp.frequency.length = 1
  · obtain ⟨e, he⟩ := Option.ne_none_iff_exists'.1 (hg.1 sp h).1
    refine ⟨some (max (e + 1) (e + sp.timeAlignment)), head, ?_, ?_⟩
    · intro a hm pos h1 h2
      refine line a hm pos ⟨h1, fun _ _ x hx => ?_⟩
      rw [he] at hx
      cases hx
      exact h2 _ rfl
    · intro x hx
      cases hx
      exact ⟨e, he, by omega, by omega, hg.2⟩
  · exact ⟨none, free hg⟩

theorem moved1_table {al : Align} {dr dc : Int} {sps sps' : List SParams}
    (h : List.Forall₂ (Moved al dr dc) sps sps') (ho : ∀ sp ∈ sps, OnSheet sp) (ho' : ∀ sp ∈ sps', OnSheet sp) :
    List.Forall₂ (Moved1 (InTable sps) al dr dc) sps sps' := by
  rw [List.forall₂_iff_get] at h ⊢
  refine ⟨h.1, fun i h1 h2 => ?_⟩
  have hm := h.2 i h1 h2
  exact ⟨hm, ho _ (List.get_mem _ _), ho' _ (List.get_mem _ _), (within_table (List.get_mem _ _) hm.alignment).1⟩

/-- C108. Take a table and the same table elsewhere, on a worksheet that goes on as far after it, and the
parameters that say where it stands. Both give the same data frames or the same error, and corresponding cells of
the table hold the same values afterwards. Nothing else on the worksheets matters. -/
theorem C108_extent_partial (ext : Ext) {al : Align} {dr dc : Int} {p p' : Params} {sps sps' : List SParams}
    (hp : HasSeries p sps) (hp' : HasSeries p' sps') (h : List.Forall₂ (Moved al dr dc) sps sps')
    (ho : ∀ sp ∈ sps, OnSheet sp) (ho' : ∀ sp ∈ sps', OnSheet sp) {s t : Sheet}
    (hcells : ∀ r c, InTable sps r c → t.cells (r + dr) (c + dc) = s.cells r c)
    (hext : lastUsed al t = lastUsed al s + along al dr dc)
    (hw : ∀ sps1, HasSeries (scrape ext p s).2.1 sps1 → ∀ sp ∈ sps1, FullCycle sp) :
    (scrape ext p' t).1 = (scrape ext p s).1 ∧
      ∀ r c, InTable sps r c → (scrape ext p' t).2.2.cells (r + dr) (c + dc) = (scrape ext p s).2.2.cells r c := by
  have hall : (∀ sp ∈ sps, EndGiven sp) ∨ ∀ sp ∈ sps, WithinAt (InTable sps) al none sp := by
    by_cases hg : ∀ sp ∈ sps, EndGiven sp
    · exact .inl hg
    · refine .inr fun sp hsp => (within_table hsp ?_).2 hg
      obtain ⟨i, hi, rfl⟩ := List.getElem_of_mem hsp
      rw [List.forall₂_iff_get] at h
      exact (h.2 i hi (by rw [← h.1]; exact hi)).alignment
  obtain ⟨h1, h2⟩ := scrape_moved ext hp hp' (moved1_table h ho ho') hall ⟨hcells, hext⟩ hw
  exact ⟨h1, h2.cells⟩

/-- The worksheet with more rows or columns. -/
def reaching (s : Sheet) (row col : Int) : Sheet := { s with maxRow := row, maxCol := col }

theorem reaching_wellFormed {s : Sheet} (h : WellFormed s) {row col : Int} (h1 : s.maxRow ≤ row)
    (h2 : s.maxCol ≤ col) : WellFormed (reaching s row col) := by
  have r1 := h.rows
  have r2 := h.cols
  refine ⟨by show 1 ≤ row; omega, by show 1 ≤ col; omega, fun r c hn => h.outside r c fun k => hn ?_⟩
  exact ⟨k.1, by show r ≤ row; omega, k.2.2.1, by show c ≤ col; omega⟩

theorem settled_cycles {ext : Ext} {p : Params} {s : Sheet} {sps : List SParams} (hp : HasSeries p sps) {n : Int}
    (h : Settled n sps) : ∀ sps1, HasSeries (scrape ext p s).2.1 sps1 → ∀ sp ∈ sps1, FullCycle sp := by
  intro sps1 h1 sp hsp
  have key : ∀ m, m ≠ Name.dataEnds → sps1.map (rawValue · m) = sps.map (rawValue · m) := by
    intro m hm
    have := scrape_other ext p s hm
    rw [h1 m, hp m] at this
    exact PVal.list.inj this
  obtain ⟨i, hi, rfl⟩ := List.getElem_of_mem hsp
  have hlen : sps1.length = sps.length := by
    have := congrArg List.length (key .frequency (by decide))
    simpa using this
  have hi2 : i < sps.length := by omega
  have hget : ∀ m, m ≠ Name.dataEnds → rawValue sps1[i] m = rawValue sps[i] m := by
    intro m hm
    have := congrArg (fun l => l[i]?) (key m hm)
    simpa [hi, hi2] using this
  intro hv hf
  rcases h.several with hs | hs
  · have hfr := PVal.str.inj (hget .frequency (by decide))
    have := hs _ (List.getElem_mem hi2)
    rw [hfr] at hf
    omega
  · exfalso
    apply hv
    have ha := hget .alignment (by decide)
    have hvert := (hs _ (List.getElem_mem hi2)).1
    have := congrArg PVal.asAlign ha
    rw [asAlign_raw, asAlign_raw] at this
    rw [this, hvert]

/-- C108. Take a table and the same table elsewhere, among other things, and the parameters that say where it
stands. Both give the same data frames or the same error, and corresponding cells of the table hold the same values
afterwards. Nothing else on the worksheets matters, nor how far they reach. For series in columns, and for series in
rows whose end is given. -/
theorem C108_moved_partial (ext : Ext) {al : Align} {dr dc : Int} {p p' : Params} {sps sps' : List SParams}
    (hp : HasSeries p sps) (hp' : HasSeries p' sps') (h : List.Forall₂ (Moved al dr dc) sps sps')
    (ho : ∀ sp ∈ sps, OnSheet sp) (ho' : ∀ sp ∈ sps', OnSheet sp) {s t : Sheet} (hs : WellFormed s)
    (ht : WellFormed t) (hin : Settled s.maxRow sps) (hin' : Settled t.maxRow sps')
    (hcells : ∀ r c, InTable sps r c → t.cells (r + dr) (c + dc) = s.cells r c) :
    (scrape ext p' t).1 = (scrape ext p s).1 ∧
      ∀ r c, InTable sps r c → (scrape ext p' t).2.2.cells (r + dr) (c + dc) = (scrape ext p s).2.2.cells r c := by
  have hs2 : WellFormed (reaching s (max s.maxRow (t.maxRow - dr)) (max s.maxCol (t.maxCol - dc))) :=
    reaching_wellFormed hs (by omega) (by omega)
  have ht2 : WellFormed (reaching t (max s.maxRow (t.maxRow - dr) + dr) (max s.maxCol (t.maxCol - dc) + dc)) :=
    reaching_wellFormed ht (by omega) (by omega)
  obtain ⟨a1, a2, a3⟩ := C104_empty_partial ext hp hs hs2 ⟨rfl, rfl⟩
    (show Settled (min s.maxRow (max s.maxRow (t.maxRow - dr))) sps by rw [Int.min_eq_left (by omega)]; exact hin)
  obtain ⟨b1, b2, b3⟩ := C104_empty_partial ext hp' ht ht2 ⟨rfl, rfl⟩
    (show Settled (min t.maxRow (max s.maxRow (t.maxRow - dr) + dr)) sps' by
      rw [Int.min_eq_left (by omega)]; exact hin')
  rw [← a1, ← b1, ← a3, ← b3]
  refine C108_extent_partial ext hp hp' h ho ho' hcells ?_ (settled_cycles hp hin)
  unfold lastUsed along reaching
  split <;> rfl

/-- C108 for calls: the table is on the worksheet named in one call, and elsewhere on the worksheet named in the
other. -/
theorem C108_call_partial (ext : Ext) (wb wb2 : List Nat) (w w2 : World) (given given2 : Given) (name name2 : Str)
    (safe safe2 preserve preserve2 : Bool) (r r2 : Nat) {al : Align} {dr dc : Int} {p p' : Params}
    {sps sps' : List SParams} (hreq : Requested ext wb w name r) (hreq2 : Requested ext wb2 w2 name2 r2)
    (hwb : ∀ q ∈ wb, q < w.nextSheet ∧ WellFormed (w.sheets q))
    (hwb2 : ∀ q ∈ wb2, q < w2.nextSheet ∧ WellFormed (w2.sheets q)) (hgiven : GivenWith given w p)
    (hgiven2 : GivenWith given2 w2 p') (ht : (w2.sheets r2).title = (w.sheets r).title) (hne : sps ≠ [])
    (hp : HasSeries p sps) (hp' : HasSeries p' sps') (h : List.Forall₂ (Moved al dr dc) sps sps')
    (ho : ∀ sp ∈ sps, OnSheet sp) (ho' : ∀ sp ∈ sps', OnSheet sp) (hin : Settled (w.sheets r).maxRow sps)
    (hin' : Settled (w2.sheets r2).maxRow sps')
    (hcells : ∀ row col, InTable sps row col →
      (w2.sheets r2).cells (row + dr) (col + dc) = (w.sheets r).cells row col) :
    outcome (getDataFrames ext wb2 given2 name2 safe2 preserve2 w2) =
      outcome (getDataFrames ext wb given name safe preserve w) := by
  have hne' : sps' ≠ [] := by
    intro e
    have := h.length_eq
    rw [e] at this
    exact hne (List.length_eq_zero_iff.1 this)
  obtain ⟨h1, _⟩ := C108_moved_partial ext hp hp' h ho ho' (hwb r hreq.1).2 (hwb2 r2 hreq2.1).2 hin hin' hcells
  obtain ⟨pr, w1, e1⟩ := call_result ext wb w given name safe preserve r hreq hwb hgiven (complete_series hp hne)
    (show scrape ext p (w.sheets r) = ((scrape ext p (w.sheets r)).1, _, _) from rfl)
  obtain ⟨pr2, w12, e2⟩ := call_result ext wb2 w2 given2 name2 safe2 preserve2 r2 hreq2 hwb2 hgiven2
    (complete_series hp' hne')
    (show scrape ext p' (w2.sheets r2) = ((scrape ext p' (w2.sheets r2)).1, _, _) from rfl)
  rw [e1, e2, h1, ht]
  unfold outcome
  cases (scrape ext p (w.sheets r)).1 <;> rfl

/-! ### Examples -/

namespace Sample

/-- The quarters of `quarterSheet` two rows lower and one column to the right, with other things around them. -/
def quartersElsewhere : Sheet := rows
  [[.str c!"Informe", .none, .none, .none, .int 2016],
   [.none, .str c!"Cuadro 1", .none, .none, .none],
   [.str c!"nota", .str c!"fecha", .str c!"PBI ", .str c!"IPC", .str c!"2000 IV"],
   [.int 1, .str c!"2000 III", .int 10, .int 1, .str c!"x"],
   [.int 2, .str c!"IV", .int 11, .int 2, .none],
   [.int 3, .str c!"2001 I", .int 12, .int 3, .float .nan],
   [.int 4, .str c!" ", .none, .none, .str c!"II"],
   [.none, .str c!"Fuente: INDEC", .none, .none, .int 7],
   [.str c!"2005 I", .none, .none, .none, .none]]

def quartersLower (header : Str) : SParams :=
  { quarterSeries header with dataStarts := 4, timeHeader := .single c!"B3" }

theorem quarter_moved {a b : Str} (h : MovedCell 2 1 a b) : Moved .vertical 2 1 (quarterSeries a) (quartersLower b) :=
  ⟨rfl, h, .nil, .single ⟨1, 1, 3, 2, by decide, by decide, by decide, by decide, by decide, by decide, by decide, by decide⟩,
    rfl, rfl, rfl⟩

theorem quarters_moved : List.Forall₂ (Moved .vertical 2 1) [quarterSeries c!"B1", quarterSeries c!"C1"]
    [quartersLower c!"C3", quartersLower c!"D3"] :=
  .cons (quarter_moved ⟨1, 2, 3, 3, by decide, by decide, by decide, by decide, by decide, by decide, by decide, by decide⟩)
    (.cons (quarter_moved ⟨1, 3, 3, 4, by decide, by decide, by decide, by decide, by decide, by decide, by decide, by decide⟩)
      .nil)

theorem quarters_cells (r c : Int) (h : InTable [quarterSeries c!"B1", quarterSeries c!"C1"] r c) :
    quartersElsewhere.cells (r + 2) (c + 1) = quarterSheet.cells r c := by
  have hs : WellFormed quarterSheet := rows_wellFormed (by decide) (by decide) (by decide)
  have ht : WellFormed quartersElsewhere := rows_wellFormed (by decide) (by decide) (by decide)
  have h1 : 1 ≤ r ∧ 1 ≤ c ∧ c ≤ 3 := by
    have e1 : coordOf c!"A1" = .ok (1, 1) := by decide
    have e2 : coordOf c!"B1" = .ok (1, 2) := by decide
    have e3 : coordOf c!"C1" = .ok (1, 3) := by decide
    obtain ⟨sp, hsp, h⟩ := h
    simp only [List.mem_cons, List.not_mem_nil, or_false] at hsp
    rcases hsp with rfl | rfl
    · rcases h with ⟨a, ha, hc⟩ | ⟨a, ha, hr, hc, pos, hx, hpos, hrc⟩
      · simp only [quarterSeries, monthly, Option.getD_none, List.mem_cons, List.not_mem_nil, or_false] at ha
        subst ha
        rw [e2] at hc
        cases hc
        decide
      · have hpos := hpos.1
        simp only [quarterSeries, monthly, timeCoords, List.mem_cons, List.not_mem_nil, or_false] at ha hpos hrc
        simp only [if_true, Prod.mk.injEq] at hrc
        obtain ⟨rfl, rfl⟩ := hrc
        rcases ha with rfl | rfl
        · rw [e2] at hx
          cases hx
          omega
        · rw [e1] at hx
          cases hx
          omega
    · rcases h with ⟨a, ha, hc⟩ | ⟨a, ha, hr, hc, pos, hx, hpos, hrc⟩
      · simp only [quarterSeries, monthly, Option.getD_none, List.mem_cons, List.not_mem_nil, or_false] at ha
        subst ha
        rw [e3] at hc
        cases hc
        decide
      · have hpos := hpos.1
        simp only [quarterSeries, monthly, timeCoords, List.mem_cons, List.not_mem_nil, or_false] at ha hpos hrc
        simp only [if_true, Prod.mk.injEq] at hrc
        obtain ⟨rfl, rfl⟩ := hrc
        rcases ha with rfl | rfl
        · rw [e3] at hx
          cases hx
          omega
        · rw [e1] at hx
          cases hx
          omega
  by_cases h6 : r ≤ 6
  · obtain ⟨r, rfl⟩ := Int.eq_ofNat_of_zero_le (a := r) (by omega)
    obtain ⟨c, rfl⟩ := Int.eq_ofNat_of_zero_le (a := c) (by omega)
    obtain ⟨hr1, hr2⟩ : 1 ≤ r ∧ r ≤ 6 := by omega
    obtain ⟨hc1, hc2⟩ : 1 ≤ c ∧ c ≤ 3 := by omega
    interval_cases r <;> interval_cases c <;> decide
  · rw [hs.outside r c (by intro k; have : r ≤ 6 := k.2.1; omega)]
    by_cases h7 : r ≤ 7
    · have : r = 7 := by omega
      subst this
      obtain ⟨hc1, hc2⟩ : 1 ≤ c ∧ c ≤ 3 := by omega
      interval_cases c <;> decide
    · exact ht.outside _ _ (by intro k; have : r + 2 ≤ 9 := k.2.1; omega)

end Sample

/-- The quarters elsewhere give the data frame they give at the top left of a worksheet. -/
example : (scrape Sample.ext0 (Sample.paramsOf [Sample.quartersLower c!"C3", Sample.quartersLower c!"D3"])
      Sample.quartersElsewhere).1 =
    .ok [⟨c!"QS-JAN", [⟨2000, 7, 1, 0⟩, ⟨2000, 10, 1, 0⟩, ⟨2001, 1, 1, 0⟩], [c!"PBI", c!"IPC"],
      [[.fin 10, .fin 11, .fin 12], [.fin 1, .fin 2, .fin 3]]⟩] := by
  have hon : ∀ sp ∈ [Sample.quarterSeries c!"B1", Sample.quarterSeries c!"C1"], OnSheet sp := by
    intro sp hsp
    simp only [List.mem_cons, List.not_mem_nil, or_false] at hsp
    rcases hsp with rfl | rfl <;> exact ⟨by decide, by decide, fun e he => by cases he⟩
  have hon' : ∀ sp ∈ [Sample.quartersLower c!"C3", Sample.quartersLower c!"D3"], OnSheet sp := by
    intro sp hsp
    simp only [List.mem_cons, List.not_mem_nil, or_false] at hsp
    rcases hsp with rfl | rfl <;> exact ⟨by decide, by decide, fun e he => by cases he⟩
  rw [(C108_moved_partial Sample.ext0 (p := Sample.paramsOf [Sample.quarterSeries c!"B1", Sample.quarterSeries c!"C1"])
    (fun _ => rfl) (p' := Sample.paramsOf [Sample.quartersLower c!"C3", Sample.quartersLower c!"D3"])
    (fun _ => rfl) Sample.quarters_moved hon hon' (s := Sample.quarterSheet)
    (t := Sample.quartersElsewhere)
    (Sample.rows_wellFormed (by decide) (by decide) (by decide))
    (Sample.rows_wellFormed (by decide) (by decide) (by decide)) ⟨by
      intro sp hsp
      simp only [List.mem_cons, List.not_mem_nil, or_false] at hsp
      rcases hsp with rfl | rfl <;> exact .inl ⟨rfl, by decide⟩, .inl (by decide)⟩ ⟨by
      intro sp hsp
      simp only [List.mem_cons, List.not_mem_nil, or_false] at hsp
      rcases hsp with rfl | rfl <;> exact .inl ⟨rfl, by decide⟩, .inl (by decide)⟩ Sample.quarters_cells).1]
  decide +kernel

/-- Two calls. -/
example (w w2 : World) (hw : w.sheets 0 = Sample.quarterSheet) (hw2 : w2.sheets 0 = Sample.quartersElsewhere)
    (hn : w.nextSheet = 1) (hn2 : w2.nextSheet = 1)
    (hp : w.params 0 = Sample.paramsOf [Sample.quarterSeries c!"B1", Sample.quarterSeries c!"C1"])
    (hp2 : w2.params 0 = Sample.paramsOf [Sample.quartersLower c!"C3", Sample.quartersLower c!"D3"]) :
    outcome (getDataFrames Sample.ext0 [0] (.object 0) [] false true w2) =
      outcome (getDataFrames Sample.ext0 [0] (.object 0) [] false true w) := by
  refine C108_call_partial Sample.ext0 [0] [0] w w2 (.object 0) (.object 0) [] [] false false true true 0 0
    ⟨by simp, by simp, .inl ⟨rfl, rfl⟩⟩ ⟨by simp, by simp, .inl ⟨rfl, rfl⟩⟩ ?_ ?_ (.inl ⟨0, rfl, hp⟩)
    (.inl ⟨0, rfl, hp2⟩) (by rw [hw, hw2]; rfl) (by simp) (fun _ => rfl) (fun _ => rfl) Sample.quarters_moved ?_ ?_
    ?_ ?_ (by rw [hw, hw2]; exact Sample.quarters_cells)
  · intro q hq
    rw [List.mem_singleton] at hq
    subst hq
    rw [hn, hw]
    exact ⟨by decide, Sample.rows_wellFormed (by decide) (by decide) (by decide)⟩
  · intro q hq
    rw [List.mem_singleton] at hq
    subst hq
    rw [hn2, hw2]
    exact ⟨by decide, Sample.rows_wellFormed (by decide) (by decide) (by decide)⟩
  · intro sp hsp
    simp only [List.mem_cons, List.not_mem_nil, or_false] at hsp
    rcases hsp with rfl | rfl <;> exact ⟨by decide, by decide, fun e he => by cases he⟩
  · intro sp hsp
    simp only [List.mem_cons, List.not_mem_nil, or_false] at hsp
    rcases hsp with rfl | rfl <;> exact ⟨by decide, by decide, fun e he => by cases he⟩
  · rw [hw]
    refine ⟨fun sp hsp => ?_, .inl (by decide)⟩
    simp only [List.mem_cons, List.not_mem_nil, or_false] at hsp
    rcases hsp with rfl | rfl <;> exact .inl ⟨rfl, by decide⟩
  · rw [hw2]
    refine ⟨fun sp hsp => ?_, .inl (by decide)⟩
    simp only [List.mem_cons, List.not_mem_nil, or_false] at hsp
    rcases hsp with rfl | rfl <;> exact .inl ⟨rfl, by decide⟩

namespace Sample

/-- Two series in rows that stand in a group. -/
def groupRows : Sheet := rows
  [[.none, .none, .str c!"fecha", .str c!"2000 III", .str c!"IV", .str c!"2001 I"],
   [.none, .str c!"Total", .str c!"PBI", .int 10, .int 11, .int 12],
   [.none, .none, .str c!"IPC", .int 1, .int 2, .int 3]]

/-- The same 24 columns to the right. -/
def groupRowsRight : Sheet :=
  { groupRows with cells := fun r c => groupRows.cells r (c - 24), maxCol := 30 }

def groupDict (headers group time : Str) (starts ends : Int) : PDict :=
  [(.known .headersCoord, .str headers), (.known .dataStarts, .int starts), (.known .dataEnds, .int ends),
   (.known .frequency, .str c!"Q"), (.known .timeHeaderCoord, .str time), (.known .alignment, .str c!"horizontal"),
   (.known .continuity, .bool true), (.known .blankRows, .bool false), (.known .missings, .bool false),
   (.known .timeComposed, .bool true), (.known .missingValue, .list [.list [], .list []]),
   (.known .context, .dict [(c!"Total", .str group)])]

/-- `shortRow` one row lower, below a line that is longer than the table. -/
def shortRowBelow : Sheet := rows
  [[.str c!"Cuadro 1", .none, .none, .none, .none, .str c!"2016"],
   [.str c!"fecha", .str c!"2000 III", .str c!"IV", .str c!"2001 I"],
   [.str c!"PBI ", .int 10, .int 11, .int 12]]

end Sample

/-- C108. Violated for a group of series in rows: the table and the dictionary move 24 columns to the right, and the
names of the series lose the name of the group. -/
theorem C108_group_violated :
    (∀ r c, Sample.groupRowsRight.cells (r + 0) (c + 24) = Sample.groupRows.cells r c) ∧
    MovedCell 0 24 c!"C2" c!"AA2" ∧ MovedCell 0 24 c!"C3" c!"AA3" ∧ MovedCell 0 24 c!"B2" c!"Z2" ∧
    MovedCell 0 24 c!"B3" c!"Z3" ∧ MovedCell 0 24 c!"C1" c!"AA1" ∧
    outcome (getDataFrames Sample.ext0 [0] (.other (.dict (Sample.groupDict c!"C2-C3" c!"B2-B3" c!"C1" 4 6))) [] false
      true (Sample.world Sample.groupRows Params.empty)) =
      .ok (.dfs (.one ⟨c!"QS-JAN", [⟨2000, 7, 1, 0⟩, ⟨2000, 10, 1, 0⟩, ⟨2001, 1, 1, 0⟩],
        [c!"Total - PBI", c!"Total - IPC"], [[.fin 10, .fin 11, .fin 12], [.fin 1, .fin 2, .fin 3]]⟩), c!"S") ∧
    outcome (getDataFrames Sample.ext0 [0] (.other (.dict (Sample.groupDict c!"AA2-AA3" c!"Z2-Z3" c!"AA1" 28 30))) []
      false true (Sample.world Sample.groupRowsRight Params.empty)) =
      .ok (.dfs (.one ⟨c!"QS-JAN", [⟨2000, 7, 1, 0⟩, ⟨2000, 10, 1, 0⟩, ⟨2001, 1, 1, 0⟩],
        [c!"PBI", c!"IPC"], [[.fin 10, .fin 11, .fin 12], [.fin 1, .fin 2, .fin 3]]⟩), c!"S") := by
  refine ⟨fun r c => ?_, ⟨2, 3, 2, 27, by decide, by decide, by decide, by decide, by decide, by decide, by decide, by decide⟩,
    ⟨3, 3, 3, 27, by decide, by decide, by decide, by decide, by decide, by decide, by decide, by decide⟩,
    ⟨2, 2, 2, 26, by decide, by decide, by decide, by decide, by decide, by decide, by decide, by decide⟩,
    ⟨3, 2, 3, 26, by decide, by decide, by decide, by decide, by decide, by decide, by decide, by decide⟩,
    ⟨1, 3, 1, 27, by decide, by decide, by decide, by decide, by decide, by decide, by decide, by decide⟩, ?_, ?_⟩
  · show Sample.groupRows.cells (r + 0) (c + 24 - 24) = _
    rw [Int.add_zero, Int.add_sub_cancel]
  · decide +kernel
  · decide +kernel

/-- C108. Violated for a series in a row without its end: below a longer line it gives an error. -/
theorem C108_row_violated :
    Moved .horizontal 1 0 (Sample.quarterRow c!"A2") { Sample.quarterRow c!"A3" with timeHeader := .single c!"A2" } ∧
    (∀ r c, InTable [Sample.quarterRow c!"A2"] r c →
      Sample.shortRowBelow.cells (r + 1) (c + 0) = Sample.shortRow.cells r c) ∧
    (scrape Sample.ext0 (Sample.paramsOf [Sample.quarterRow c!"A2"]) Sample.shortRow).1 =
      .ok [⟨c!"QS-JAN", [⟨2000, 7, 1, 0⟩, ⟨2000, 10, 1, 0⟩, ⟨2001, 1, 1, 0⟩], [c!"PBI"],
        [[.fin 10, .fin 11, .fin 12]]⟩] ∧
    (scrape Sample.ext0
      (Sample.paramsOf [{ Sample.quarterRow c!"A3" with timeHeader := .single c!"A2" }]) Sample.shortRowBelow).1 =
      .error .typeError := by
  refine ⟨⟨rfl, ⟨2, 1, 3, 1, by decide, by decide, by decide, by decide, by decide, by decide, by decide, by decide⟩, .nil,
    .single ⟨1, 1, 2, 1, by decide, by decide, by decide, by decide, by decide, by decide, by decide, by decide⟩, rfl, rfl,
    rfl⟩, ?_, by decide +kernel, by decide +kernel⟩
  intro r c h
  have e1 : coordOf c!"A1" = .ok (1, 1) := by decide
  have e2 : coordOf c!"A2" = .ok (2, 1) := by decide
  have h1 : (r = 1 ∨ r = 2) ∧ 1 ≤ c := by
    obtain ⟨sp, hsp, h⟩ := h
    simp only [List.mem_cons, List.not_mem_nil, or_false] at hsp
    subst hsp
    rcases h with ⟨a, ha, hc⟩ | ⟨a, ha, hr, hc, pos, hx, hpos, hrc⟩
    · simp only [Sample.quarterRow, Sample.quarterSeries, Sample.monthly, Option.getD_none, List.mem_cons,
        List.not_mem_nil, or_false] at ha
      subst ha
      rw [e2] at hc
      cases hc
      decide
    · have hpos := hpos.1
      simp only [Sample.quarterRow, Sample.quarterSeries, Sample.monthly, timeCoords, List.mem_cons, List.not_mem_nil,
        or_false] at ha hpos hrc
      simp only [reduceCtorEq, if_false, Prod.mk.injEq] at hrc
      obtain ⟨rfl, rfl⟩ := hrc
      rcases ha with rfl | rfl
      · rw [e2] at hx
        cases hx
        omega
      · rw [e1] at hx
        cases hx
        omega
  have ht : WellFormed Sample.shortRowBelow := Sample.rows_wellFormed (by decide) (by decide) (by decide)
  obtain ⟨h1, h2⟩ := h1
  rw [Int.add_zero]
  by_cases hc : c ≤ 6
  · obtain ⟨c, rfl⟩ := Int.eq_ofNat_of_zero_le (a := c) (by omega)
    obtain ⟨hc1, hc2⟩ : 1 ≤ c ∧ c ≤ 6 := by omega
    rcases h1 with rfl | rfl <;> interval_cases c <;> decide
  · rw [ht.outside _ _ (by intro k; have : c ≤ 6 := k.2.2.2; omega)]
    have hs : WellFormed (Sample.rows
      [[.str c!"fecha", .str c!"PBI "],
       [.str c!"2000 III", .int 10],
       [.str c!"IV", .int 11],
       [.str c!"2001 I", .int 12]]) := Sample.rows_wellFormed (by decide) (by decide) (by decide)
    exact (hs.outside c r (by intro k; have : c ≤ 4 := k.2.1; omega)).symm

end Xls
