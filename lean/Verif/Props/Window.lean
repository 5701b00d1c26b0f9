/-
C123: the part of a table from one row to another.
-/
import Verif.Lemmas.Window
import Verif.Props.Tables
import Verif.Spec.Determined

set_option autoImplicit false

namespace Xls

open Spec

/-- C123. A table whose series share one time index, written in any of the known ways, in a column or a row, with one
value per row. With `data_starts` and `data_ends` set to rows `m` and `n` of the table the call gives the part of the
table's data frame from the date of row `m` to the date of row `n`, provided the date of row `m` is written in full, so
that it can be read without the dates above. -/
theorem C123_window {ext : Ext} {p q : Params} {s : Sheet} {sps : List SParams} {sp : SParams} {timeHeader : TimeHeader}
    {start : Int} {al : Align} {freq : Str} {style : Style} {tr tc last m n : Int} {ots : List (Option Time)}
    {grid : List Time} {series : List (Str × List Num)} {a z : Time} (hp : HasSeries p sps)
    (hq : HasSeries q (sps.map (window m n))) (h0 : sps.head? = some sp)
    (hsame : SameIndex sps timeHeader freq start 0 al) (ht : TimeTable ext sp s style tr tc last ots)
    (hg : OnPeriods sp grid (ots.filterMap id))
    (hser : List.Forall₂ (fun sp nv => SeriesIs ext s tr tc last ots grid sp nv.1 nv.2) sps series)
    (hrow : ∀ x ∈ sps, OnePerRow x) (hm : start ≤ m) (hmn : m < n) (hn : n ≤ last)
    (ha : ots[(m - start).toNat]? = some (some a)) (hz : ots[(n - start).toNat]? = some (some z))
    (hfull : CellSays ext style none (readCell ext sp s m) a) :
    ∃ f f' p' s' q' s'', scrape ext p s = (.ok [f], p', s') ∧ scrape ext q s = (.ok [f'], q', s'') ∧
      PartOf f' f a z :=
  scrape_part (d := fun _ => some n) hp hq h0 hsame ht hg hser hrow hm hmn hn (.inl fun _ _ => rfl) ha hz hfull

/-- C123. With `data_starts` alone set to a later row `m` the call gives the rest of the table's data frame from the
date of row `m` on. -/
theorem C123_rest {ext : Ext} {p q : Params} {s : Sheet} {sps : List SParams} {sp : SParams} {timeHeader : TimeHeader}
    {start : Int} {al : Align} {freq : Str} {style : Style} {tr tc last m : Int} {ots : List (Option Time)}
    {grid : List Time} {series : List (Str × List Num)} {a z : Time} (hp : HasSeries p sps)
    (hq : HasSeries q (sps.map (startAt m))) (h0 : sps.head? = some sp)
    (hsame : SameIndex sps timeHeader freq start 0 al) (ht : TimeTable ext sp s style tr tc last ots)
    (hg : OnPeriods sp grid (ots.filterMap id))
    (hser : List.Forall₂ (fun sp nv => SeriesIs ext s tr tc last ots grid sp nv.1 nv.2) sps series)
    (hrow : ∀ x ∈ sps, OnePerRow x) (hm : start ≤ m) (hml : m < last)
    (ha : ots[(m - start).toNat]? = some (some a)) (hz : ots[(last - start).toNat]? = some (some z))
    (hfull : CellSays ext style none (readCell ext sp s m) a) :
    ∃ f f' p' s' q' s'', scrape ext p s = (.ok [f], p', s') ∧ scrape ext q s = (.ok [f'], q', s'') ∧
      PartOf f' f a z :=
  scrape_part (d := fun x => x.dataEnds) hp hq h0 hsame ht hg hser hrow hm hml (le_refl _) (.inr ⟨rfl, fun _ _ => rfl⟩)
    ha hz hfull

/-- C123. The same through the entry point, with parameters in any form, whether or not the workbooks are copied
first. -/
theorem C123_call (ext : Ext) (wb wb' : List Nat) (w w' : World) (given given' : Given) (name name' : Str)
    (safe safe' preserve preserve' : Bool) (r r' : Nat) {p q : Params} {sps : List SParams} {sp : SParams}
    {timeHeader : TimeHeader} {start : Int} {al : Align} {freq : Str} {style : Style} {tr tc last m n : Int}
    {ots : List (Option Time)} {grid : List Time} {series : List (Str × List Num)} {a z : Time}
    (hreq : Requested ext wb w name r) (hreq' : Requested ext wb' w' name' r')
    (hwb : ∀ q ∈ wb, q < w.nextSheet ∧ WellFormed (w.sheets q))
    (hwb' : ∀ q ∈ wb', q < w'.nextSheet ∧ WellFormed (w'.sheets q)) (hsheet : w'.sheets r' = w.sheets r)
    (hgiven : GivenWith given w p) (hgiven' : GivenWith given' w' q) (hp : HasSeries p sps)
    (hq : HasSeries q (sps.map (window m n))) (h0 : sps.head? = some sp)
    (hsame : SameIndex sps timeHeader freq start 0 al) (ht : TimeTable ext sp (w.sheets r) style tr tc last ots)
    (hg : OnPeriods sp grid (ots.filterMap id))
    (hser : List.Forall₂ (fun sp nv => SeriesIs ext (w.sheets r) tr tc last ots grid sp nv.1 nv.2) sps series)
    (hrow : ∀ x ∈ sps, OnePerRow x) (hm : start ≤ m) (hmn : m < n) (hn : n ≤ last)
    (ha : ots[(m - start).toNat]? = some (some a)) (hz : ots[(n - start).toNat]? = some (some z))
    (hfull : CellSays ext style none (readCell ext sp (w.sheets r) m) a) :
    ∃ f f' kept kept' w1 w1',
      getDataFrames ext wb given name safe preserve w = (.ok (.dfs (.one f), (w.sheets r).title, kept), w1) ∧
      getDataFrames ext wb' given' name' safe' preserve' w' =
        (.ok (.dfs (.one f'), (w.sheets r).title, kept'), w1') ∧ PartOf f' f a z := by
  have hne : sps ≠ [] := by rintro rfl; cases h0
  obtain ⟨f, f', p', s', q', s'', h1, h2, h3⟩ := C123_window hp hq h0 hsame ht hg hser hrow hm hmn hn ha hz hfull
  obtain ⟨kept, w1, e1⟩ := call_complete ext wb w given name safe preserve r hreq hwb hgiven (complete_series hp hne) h1
  obtain ⟨kept', w1', e2⟩ := call_complete ext wb' w' given' name' safe' preserve' r' hreq' hwb' hgiven'
    (complete_series hq (by simpa using hne)) (by rw [hsheet]; exact h2)
  rw [hsheet] at e2
  exact ⟨f, f', kept, kept', w1, w1', e1, e2, h3⟩

/-! ### Examples -/

namespace Sample

theorem gapRow_table : TimeTable ext0 gapRowSeries gapRowSheet .dates 1 1 4
    [some ⟨2000, 1, 1, 0⟩, some ⟨2000, 2, 1, 0⟩, some ⟨2000, 4, 1, 0⟩] where
  header := .single (coord := c!"A1") rfl rfl (by decide)
  plain := fun _ _ _ => plainAt_single (coord := c!"A1") rfl _ _
  fits := rfl
  starts := by decide
  two := by decide
  aligned := .inr rfl
  offset := rfl
  reads := .date .date (fun h => h) (.date .date (fun h => h) (.date .date (fun h => h) .nil))
  first := ⟨_, rfl⟩
  ends := ⟨_, rfl⟩
  gaps := by intro h; simp at h
  shortGaps := by
    intro i h
    have := h 0 (by decide)
    rcases i with _ | _ | _ | i <;> simp at this
  within := by decide
  after := .inl (by decide)

theorem gapRow_periods : OnPeriods gapRowSeries [⟨2000, 1, 1, 0⟩, ⟨2000, 2, 1, 0⟩, ⟨2000, 3, 1, 0⟩, ⟨2000, 4, 1, 0⟩]
    ([some ⟨2000, 1, 1, 0⟩, some ⟨2000, 2, 1, 0⟩, some ⟨2000, 4, 1, 0⟩].filterMap id) where
  frequency := .inl (by decide)
  valid := by decide
  representable := by decide
  start := by intro a h; cases h; rfl
  run := ⟨⟨_, rfl, rfl, rfl, rfl⟩, ⟨_, rfl, rfl, rfl, rfl⟩, ⟨_, rfl, rfl, rfl, rfl⟩, trivial⟩
  sub := by decide
  first := rfl
  last := rfl
  complete := fun h => by cases h
  marker := trivial

theorem gapRow_series : SeriesIs ext0 gapRowSheet 1 1 4
    [some ⟨2000, 1, 1, 0⟩, some ⟨2000, 2, 1, 0⟩, some ⟨2000, 4, 1, 0⟩]
    [⟨2000, 1, 1, 0⟩, ⟨2000, 2, 1, 0⟩, ⟨2000, 3, 1, 0⟩, ⟨2000, 4, 1, 0⟩] gapRowSeries c!"producto"
    [.fin 10, .nan, .nan, .fin 13] where
  apart := by
    intro coord hm r c hrc
    have : coord = c!"A2" := by simpa [gapRowSeries, rowSeries, monthly] using hm
    subst this
    have e : coordOf c!"A2" = .ok (2, 1) := by decide
    rw [e] at hrc
    cases hrc
    decide
  cells := ⟨2, 1, by decide, .implicit (xs := [.fin 10, .nan, .fin 13])
    (markers := [.str c!"...", .str c!"Implicit"]) rfl rfl rfl rfl (by simp) (by simp) (by decide) rfl
    { size := rfl
      observed := by
        intro t x h
        simp at h
        rcases h with ⟨rfl, rfl⟩ | ⟨rfl, rfl⟩ | ⟨rfl, rfl⟩
        · exact ⟨0, rfl, rfl⟩
        · exact ⟨1, rfl, rfl⟩
        · exact ⟨3, rfl, rfl⟩
      others := by
        intro i t h hn
        rcases i with _ | _ | _ | _ | i <;> simp at h
        · subst h; simp at hn
        · subst h; simp at hn
        · rfl
        · subst h; simp at hn }⟩
  name := .given (by decide) rfl
  size := rfl
  ends := .inl rfl

end Sample

/-- The last two of three dates in a row, a month left out between them: three of the four periods of the table. -/
example : ∃ f f' p' s' q' s'',
    scrape Sample.ext0 (Sample.paramsOf [Sample.gapRowSeries]) Sample.gapRowSheet = (.ok [f], p', s') ∧
    scrape Sample.ext0 (Sample.paramsOf [window 3 4 Sample.gapRowSeries]) Sample.gapRowSheet = (.ok [f'], q', s'') ∧
    PartOf f' f ⟨2000, 2, 1, 0⟩ ⟨2000, 4, 1, 0⟩ :=
  C123_window (p := Sample.paramsOf [Sample.gapRowSeries]) (q := Sample.paramsOf [window 3 4 Sample.gapRowSeries])
    (sps := [Sample.gapRowSeries]) (timeHeader := .single c!"A1") (start := 2) (al := .horizontal) (freq := c!"M") (fun _ => rfl) (fun _ => rfl) rfl
    (.ofSingle (by decide) (by decide) (by decide) (by decide) (by decide) (by decide)) Sample.gapRow_table
    Sample.gapRow_periods (.cons (b := (c!"producto", [.fin 10, .nan, .nan, .fin 13])) Sample.gapRow_series .nil)
    (by intro x hx; cases List.mem_singleton.1 hx; exact ⟨rfl, rfl⟩) (by decide) (by decide) (by decide) rfl rfl .date

/-- The same with the start alone. -/
example : ∃ f f' p' s' q' s'',
    scrape Sample.ext0 (Sample.paramsOf [Sample.gapRowSeries]) Sample.gapRowSheet = (.ok [f], p', s') ∧
    scrape Sample.ext0 (Sample.paramsOf [startAt 3 Sample.gapRowSeries]) Sample.gapRowSheet = (.ok [f'], q', s'') ∧
    PartOf f' f ⟨2000, 2, 1, 0⟩ ⟨2000, 4, 1, 0⟩ :=
  C123_rest (p := Sample.paramsOf [Sample.gapRowSeries]) (q := Sample.paramsOf [startAt 3 Sample.gapRowSeries])
    (sps := [Sample.gapRowSeries]) (timeHeader := .single c!"A1") (start := 2) (al := .horizontal) (freq := c!"M") (fun _ => rfl) (fun _ => rfl) rfl
    (.ofSingle (by decide) (by decide) (by decide) (by decide) (by decide) (by decide)) Sample.gapRow_table
    Sample.gapRow_periods (.cons (b := (c!"producto", [.fin 10, .nan, .nan, .fin 13])) Sample.gapRow_series .nil)
    (by intro x hx; cases List.mem_singleton.1 hx; exact ⟨rfl, rfl⟩) (by decide) (by decide) rfl rfl .date

/-- The first two quarters of two series, whose dates are texts, through the entry point. -/
example : ∃ f f' kept kept' w1 w1',
    getDataFrames Sample.ext0 [0] (.object 0) [] true true
      (Sample.world Sample.quarterSheet
        (Sample.paramsOf [Sample.quarterSeries c!"B1", Sample.quarterSeries c!"C1"])) =
      (.ok (.dfs (.one f), c!"S", kept), w1) ∧
    getDataFrames Sample.ext0 [0] (.object 0) [] false false
      (Sample.world Sample.quarterSheet
        (Sample.paramsOf [window 2 3 (Sample.quarterSeries c!"B1"), window 2 3 (Sample.quarterSeries c!"C1")])) =
      (.ok (.dfs (.one f'), c!"S", kept'), w1') ∧
    PartOf f' f ⟨2000, 7, 1, 0⟩ ⟨2000, 10, 1, 0⟩ :=
  C123_call Sample.ext0 [0] [0]
    (Sample.world Sample.quarterSheet (Sample.paramsOf [Sample.quarterSeries c!"B1", Sample.quarterSeries c!"C1"]))
    (Sample.world Sample.quarterSheet
      (Sample.paramsOf [window 2 3 (Sample.quarterSeries c!"B1"), window 2 3 (Sample.quarterSeries c!"C1")]))
    (.object 0) (.object 0) [] [] true false true false 0 0
    (p := Sample.paramsOf [Sample.quarterSeries c!"B1", Sample.quarterSeries c!"C1"])
    (q := Sample.paramsOf [window 2 3 (Sample.quarterSeries c!"B1"), window 2 3 (Sample.quarterSeries c!"C1")])
    (sps := [Sample.quarterSeries c!"B1", Sample.quarterSeries c!"C1"])
    (series := [(c!"PBI", [.fin 10, .fin 11, .fin 12]), (c!"IPC", [.fin 1, .fin 2, .fin 3])])
    (timeHeader := .single c!"A1") (start := 2) (al := .vertical) (freq := c!"Q")
    ⟨by simp, by simp, .inl ⟨rfl, rfl⟩⟩ ⟨by simp, by simp, .inl ⟨rfl, rfl⟩⟩
    (by
      intro q hq
      cases List.mem_singleton.1 hq
      exact ⟨Nat.zero_lt_one, Sample.rows_wellFormed (by decide) (by decide) (by decide)⟩)
    (by
      intro q hq
      cases List.mem_singleton.1 hq
      exact ⟨Nat.zero_lt_one, Sample.rows_wellFormed (by decide) (by decide) (by decide)⟩)
    rfl (.inl ⟨0, rfl, rfl⟩) (.inl ⟨0, rfl, rfl⟩) (fun _ => rfl) (fun _ => rfl) rfl
    (.ofSingle (by decide) (by decide) (by decide) (by decide) (by decide) (by decide))
    Sample.quarter_table Sample.quarter_periods
    (.cons (Sample.quarter_series _ 2 (by decide) (by decide) _ _ _ rfl (by decide) rfl rfl)
      (.cons (Sample.quarter_series _ 3 (by decide) (by decide) _ _ _ rfl (by decide) rfl rfl) .nil))
    (by
      intro x hx
      simp only [List.mem_cons, List.not_mem_nil, or_false] at hx
      rcases hx with rfl | rfl <;> exact ⟨rfl, rfl⟩)
    (by decide) (by decide) (by decide) rfl rfl
    (.yearAndQuarter (n := 2000) (q := 3) (f1 := []) (f2 := c!" ") (num := c!"III") (f3 := []) (notes := [])
      (by decide) (by decide) ⟨by decide, by decide, .inl (by decide)⟩ (by decide) (by decide) (by decide) (.inl rfl))

end Xls
