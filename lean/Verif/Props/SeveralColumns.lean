/-
C88: time indexes in several columns or rows.
-/
import Verif.Props.MixedTable
import Verif.Spec.WholeNumber

set_option autoImplicit false

namespace Xls

open Spec

/-- C88. A table whose dates are spread over several columns (rows): if what the cells of each row (column) say
together, from left to right with a blank between any two, are dates in one of the known ways, `get_data_frames`
gives the data frame with these dates. Empty cells, zeros and the text `None` say nothing; a number says its
whole part. The cleaned dates replace the cells of the first of the columns. Missing from the full claim: the end
given for the first series and not for another one. -/
theorem C88_several_columns_partial (ext : Ext) (wb : List Nat) (w : World) (given : Given) (name : Str)
    (safe preserve : Bool) (r : Nat) {p : Params} {sps : List SParams} {sp : SParams} {coords : List Str}
    {start : Int} {al : Align} {freq : Str} {style : Style} {tr tc last : Int} {ots : List (Option Time)}
    {grid : List Time} {series : List (Str × List Num)} (hreq : Requested ext wb w name r)
    (hwb : ∀ q ∈ wb, q < w.nextSheet ∧ WellFormed (w.sheets q))
    (hgiven : (∃ pr, given = .object pr ∧ w.params pr = p) ∨ (∃ x, given = .other x ∧ Params.new x = .ok p))
    (hp : HasSeries p sps) (h0 : sps.head? = some sp)
    (hshare : SharesIndex sps (.multi coords) freq start 0 al)
    (hends : EndGiven sp → ∀ sp' ∈ sps, EndGiven sp')
    (ht : TimeTable ext sp (w.sheets r) style tr tc last ots) (hg : OnPeriods sp grid (ots.filterMap id))
    (hser : List.Forall₂ (fun sp nv => SeriesIs ext (w.sheets r) tr tc last ots grid sp nv.1 nv.2) sps series) :
    ∃ columns p' s' pr w',
      scrape ext p (w.sheets r) = (.ok [⟨indexFreq freq, grid, columns, series.map Prod.snd⟩], p', s') ∧
      DatesWritten (w.sheets r) s' al tr tc start ots ∧
      getDataFrames ext wb given name safe preserve w =
        (.ok (.dfs (.one ⟨indexFreq freq, grid, columns, series.map Prod.snd⟩), (w.sheets r).title, pr), w') ∧
      ColumnsOf (series.map Prod.fst) columns := by
  have hsame : SameIndex sps (.multi coords) freq start 0 al :=
    ⟨hshare, fun _ _ x hx hgx => by
      rw [h0] at hx
      cases hx
      exact hends hgx⟩
  obtain ⟨columns, p', s', hscr, hco, hw⟩ := C76_table hp h0 hsame ht hg hser
  obtain ⟨pr, w', e⟩ := call_complete ext wb w given name safe preserve r hreq hwb hgiven
    (complete_series hp (by rintro rfl; cases h0)) hscr
  exact ⟨columns, p', s', pr, w', hscr, hw, e, hco⟩

/-! ### An example -/

namespace Sample

/-- Years in one column, where they change, and quarters in another. -/
def splitSheet : Sheet := rows
  [[.str c!"año", .str c!"trim", .str c!"PBI ", .str c!"IPC"],
   [.int 2000, .str c!"III", .int 10, .int 1],
   [.none, .str c!"IV", .int 11, .int 2],
   [.str c!"2001", .str c!"I", .int 12, .int 3]]

def splitSeries (header : Str) (ends : Option Int) : SParams :=
  { quarterSeries header with timeHeader := .multi [c!"A1", c!"B1"], timeMulticolumn := true, dataEnds := ends }

theorem split_read (ends : Option Int) : readsAlong ext0 (splitSeries c!"C1" ends) splitSheet 2 4 =
    [.str c!"2000 III", .str c!"IV", .str c!"2001 I"] := by
  show readsAlong ext0 (splitSeries c!"C1" none) splitSheet 2 4 = _
  decide +kernel

theorem split_table (ends : Option Int) (he : ends = none ∨ ends = some 4) :
    TimeTable ext0 (splitSeries c!"C1" ends) splitSheet .yearQuarter 1 1 4
    [some ⟨2000, 7, 1, 0⟩, some ⟨2000, 10, 1, 0⟩, some ⟨2001, 1, 1, 0⟩] where
  header := ⟨⟨fun _ => ⟨_, rfl⟩, fun _ => rfl⟩, show coordOf c!"A1" = .ok (1, 1) by decide, by
    intro coords h coord hc
    cases h
    simp only [List.mem_cons, List.not_mem_nil, or_false] at hc
    rcases hc with rfl | rfl
    · exact ⟨(1, 1), by decide⟩
    · exact ⟨(1, 2), by decide⟩⟩
  plain := by
    intro pos h1 h2 coords h coord hc t
    have h1 : (2 : Int) ≤ pos := h1
    have h2 : pos ≤ 6 := h2
    cases h
    simp only [List.mem_cons, List.not_mem_nil, or_false] at hc
    have hp : pos = 2 ∨ pos = 3 ∨ pos = 4 ∨ pos = 5 ∨ pos = 6 := by omega
    rcases hc with rfl | rfl <;> rcases hp with rfl | rfl | rfl | rfl | rfl <;> intro hx <;> cases hx
  fits := ⟨rfl, rfl⟩
  starts := show (1 : Int) ≤ 2 by decide
  two := show (2 : Int) < 4 by decide
  aligned := .inl rfl
  offset := rfl
  reads := by
    show Reads _ _ _ (readsAlong ext0 (splitSeries c!"C1" ends) splitSheet 2 4) _
    rw [split_read]
    exact quarter_reads
  first := ⟨_, rfl⟩
  ends := ⟨_, rfl⟩
  gaps := by intro h; simp at h
  shortGaps := by
    intro i h
    have := h 0 (show 0 < 1 by decide)
    rcases i with _ | _ | _ | i <;> simp at this
  within := by rcases he with rfl | rfl <;> decide
  after := .inl (by rcases he with rfl | rfl <;> decide)

theorem split_periods (ends : Option Int) : OnPeriods (splitSeries c!"C1" ends)
    [⟨2000, 7, 1, 0⟩, ⟨2000, 10, 1, 0⟩, ⟨2001, 1, 1, 0⟩]
    ([some ⟨2000, 7, 1, 0⟩, some ⟨2000, 10, 1, 0⟩, some ⟨2001, 1, 1, 0⟩].filterMap id) :=
  { quarter_periods with }

theorem split_series (col : Str) (ends : Option Int) (he : ends = none ∨ ends = some 4) (hc : Int)
    (hcol : coordOf col = .ok (1, hc)) (hne : hc ≠ 1) (name text : Str)
    (xs : List Num) (hcell : splitSheet.cells 1 hc = .str text) (hname : strip text = name)
    (hxs : (cellsAlong splitSheet .vertical 1 hc 2 4).map (numberIn ext0) = xs.map some)
    (hlen : xs.length = 3) :
    SeriesIs ext0 splitSheet 1 1 4 [some ⟨2000, 7, 1, 0⟩, some ⟨2000, 10, 1, 0⟩, some ⟨2001, 1, 1, 0⟩]
      [⟨2000, 7, 1, 0⟩, ⟨2000, 10, 1, 0⟩, ⟨2001, 1, 1, 0⟩] (splitSeries col ends) name xs where
  apart := by
    intro coord hm r c hrc
    have : coord = col := by simpa [splitSeries, quarterSeries, monthly] using hm
    rw [this, hcol] at hrc
    cases hrc
    exact hne
  cells := ⟨1, hc, hcol, .every rfl rfl rfl hxs⟩
  name := by
    have := NameIs.composed (ext := ext0) (sp := splitSeries col ends) (s := splitSheet) (r := 1) (c := hc)
      (texts := []) (.inl rfl) hcol .nil
    rw [hcell] at this
    rw [← hname]
    simpa [splitSeries, quarterSeries, monthly, shownAs, ext0] using this
  size := hlen
  ends := by
    rcases he with rfl | rfl
    · exact .inl rfl
    · exact .inr (.inr rfl)

theorem split_shares (e1 e2 : Option Int) :
    SharesIndex [splitSeries c!"C1" e1, splitSeries c!"D1" e2] (.multi [c!"A1", c!"B1"]) c!"Q" 2 0 .vertical where
  header := by
    intro sp h
    simp only [List.mem_cons, List.not_mem_nil, or_false] at h
    rcases h with rfl | rfl <;> rfl
  multicolumn := by
    intro sp h
    simp only [List.mem_cons, List.not_mem_nil, or_false] at h
    rcases h with rfl | rfl <;> exact ⟨fun _ => ⟨_, rfl⟩, fun _ => rfl⟩
  frequency := by
    intro sp h
    simp only [List.mem_cons, List.not_mem_nil, or_false] at h
    rcases h with rfl | rfl <;> rfl
  starts := by
    intro sp h
    simp only [List.mem_cons, List.not_mem_nil, or_false] at h
    rcases h with rfl | rfl <;> rfl
  timeAlignment := by
    intro sp h
    simp only [List.mem_cons, List.not_mem_nil, or_false] at h
    rcases h with rfl | rfl <;> rfl
  alignment := by
    intro sp h
    simp only [List.mem_cons, List.not_mem_nil, or_false] at h
    rcases h with rfl | rfl <;> rfl

theorem split_all (e1 e2 : Option Int) (h1 : e1 = none ∨ e1 = some 4) (h2 : e2 = none ∨ e2 = some 4) :
    List.Forall₂ (fun sp nv => SeriesIs ext0 splitSheet 1 1 4
        [some ⟨2000, 7, 1, 0⟩, some ⟨2000, 10, 1, 0⟩, some ⟨2001, 1, 1, 0⟩]
        [⟨2000, 7, 1, 0⟩, ⟨2000, 10, 1, 0⟩, ⟨2001, 1, 1, 0⟩] sp nv.1 nv.2)
      [splitSeries c!"C1" e1, splitSeries c!"D1" e2]
      [(c!"PBI", [.fin 10, .fin 11, .fin 12]), (c!"IPC", [.fin 1, .fin 2, .fin 3])] :=
  .cons (split_series _ _ h1 3 (by decide) (by decide) _ _ _ rfl (by decide) rfl rfl)
    (.cons (split_series _ _ h2 4 (by decide) (by decide) _ _ _ rfl (by decide) rfl rfl) .nil)

end Sample

/-- Two series with years in column A and quarters in column B. -/
example : ∃ columns p' s' pr w',
    scrape Sample.ext0 (Sample.paramsOf [Sample.splitSeries c!"C1" none, Sample.splitSeries c!"D1" (some 4)])
      Sample.splitSheet =
      (.ok [⟨c!"QS-JAN", [⟨2000, 7, 1, 0⟩, ⟨2000, 10, 1, 0⟩, ⟨2001, 1, 1, 0⟩], columns,
        [[.fin 10, .fin 11, .fin 12], [.fin 1, .fin 2, .fin 3]]⟩], p', s') ∧
    DatesWritten Sample.splitSheet s' .vertical 1 1 2
      [some ⟨2000, 7, 1, 0⟩, some ⟨2000, 10, 1, 0⟩, some ⟨2001, 1, 1, 0⟩] ∧
    getDataFrames Sample.ext0 [0] (.object 0) [] true true (Sample.world Sample.splitSheet
        (Sample.paramsOf [Sample.splitSeries c!"C1" none, Sample.splitSeries c!"D1" (some 4)])) =
      (.ok (.dfs (.one ⟨c!"QS-JAN", [⟨2000, 7, 1, 0⟩, ⟨2000, 10, 1, 0⟩, ⟨2001, 1, 1, 0⟩], columns,
        [[.fin 10, .fin 11, .fin 12], [.fin 1, .fin 2, .fin 3]]⟩), c!"S", pr), w') ∧
    ColumnsOf [c!"PBI", c!"IPC"] columns :=
  C88_several_columns_partial Sample.ext0 [0] (Sample.world Sample.splitSheet
      (Sample.paramsOf [Sample.splitSeries c!"C1" none, Sample.splitSeries c!"D1" (some 4)])) (.object 0) [] true true 0
    (p := Sample.paramsOf [Sample.splitSeries c!"C1" none, Sample.splitSeries c!"D1" (some 4)])
    ⟨by simp, by simp, .inl ⟨rfl, rfl⟩⟩
    (by
      intro q hq
      simp only [List.mem_cons, List.not_mem_nil, or_false] at hq
      subst hq
      exact ⟨Nat.zero_lt_one, show WellFormed Sample.splitSheet from
        Sample.rows_wellFormed (by decide) (by decide) (by decide)⟩)
    (.inl ⟨0, rfl, rfl⟩) (fun _ => rfl) rfl (Sample.split_shares _ _) (fun h => absurd rfl h.1)
    (Sample.split_table _ (.inl rfl)) (Sample.split_periods _) (Sample.split_all _ _ (.inl rfl) (.inr rfl))

/-- C88. Which texts count as whole numbers in such a column: digits, perhaps with single underscores between them,
after a sign or not, with blanks around them or not. Their number is written plainly; any other text is taken as it
is. -/
theorem C88_whole_number (ext : Ext) (t : Str) :
    (∀ i, WholeNumber t i → safeStr ext (.str t) = intStr i) ∧
      ((∀ i, ¬ WholeNumber t i) → safeStr ext (.str t) = t) := by
  constructor
  · intro i h
    unfold safeStr
    dsimp only
    rw [pyInt_iff.2 h]
  · intro h
    unfold safeStr
    dsimp only
    cases e : pyInt t with
    | none => rfl
    | some i => exact absurd (pyInt_iff.1 e) (h i)

/-- `2_001` is a whole number, `-_5` is not. -/
example : safeStr Sample.ext0 (.str c!" 2_001") = c!"2001" ∧ safeStr Sample.ext0 (.str c!"-_5") = c!"-_5" := by
  decide +kernel

/-! ### Ends given for some series only -/

/-- What one would like to hold: the end of the data, where it is the end of the dates, may be given for some of
the series only. -/
def Spec.EndsAtWill (ext : Ext) : Prop :=
  ∀ (p : Params) (s : Sheet) (sps : List SParams) (sp : SParams) (coords : List Str) (start : Int) (al : Align)
    (freq : Str) (style : Style) (tr tc last : Int) (ots : List (Option Time)) (grid : List Time)
    (series : List (Str × List Num)), HasSeries p sps → sps.head? = some sp →
    SharesIndex sps (.multi coords) freq start 0 al → TimeTable ext sp s style tr tc last ots →
    OnPeriods sp grid (ots.filterMap id) →
    List.Forall₂ (fun sp nv => SeriesIs ext s tr tc last ots grid sp nv.1 nv.2) sps series →
    ∃ frames, (scrape ext p s).1 = .ok frames

/-- C88. It does not hold: with an end for the first series only, the others stay without and an assertion
fails. -/
theorem C88_ends_violated : ¬ Spec.EndsAtWill Sample.ext0 := by
  intro h
  obtain ⟨frames, e⟩ := h (Sample.paramsOf [Sample.splitSeries c!"C1" (some 4), Sample.splitSeries c!"D1" none])
    Sample.splitSheet _ _ _ _ _ _ _ _ _ _ _ _ _ (fun _ => rfl) rfl (Sample.split_shares _ _)
    (Sample.split_table _ (.inr rfl)) (Sample.split_periods _) (Sample.split_all _ _ (.inr rfl) (.inl rfl))
  have : (scrape Sample.ext0 (Sample.paramsOf [Sample.splitSeries c!"C1" (some 4), Sample.splitSeries c!"D1" none])
    Sample.splitSheet).1 = .error .assertionError := by decide +kernel
  rw [this] at e
  cases e

end Xls
