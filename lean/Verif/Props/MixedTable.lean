/-
C83, C84: time indexes with several frequencies, and the tables they belong to.
-/
import Verif.Lemmas.MixedData
import Verif.Props.Tables

set_option autoImplicit false

namespace Xls

open Spec

/-! ### C83 -/

/-- C83. A time index that cycles through several frequencies, written as dates, as years followed by their
quarters or as quarters followed by their total, is read as written: it ends where it ends, and exactly its
cells change, to the dates they say. What is missing: years before their quarters need `missings` to be
false. -/
theorem C83_index_partial {ext : Ext} {sp : SParams} {s : Sheet} {style : MixedStyle} {tr tc last : Int}
    {ts : List Time} (h : MixedIndex ext sp s style tr tc last ts)
    (hyears : style = .yearThenQuarters → sp.missings = false)
    (hletters : ∀ f ∈ sp.frequency, f ∈ c!"AQMWD")
    (hruns : ∀ f ∈ sp.frequency, LetterRun sp.frequency ts f) :
    ∃ s', cleanTimeIndex ext sp s = (.ok last, s') ∧
      DatesWritten s s' sp.alignment tr tc sp.dataStarts (ts.map some) :=
  clean_mixed h hyears hletters hruns

namespace Sample

/-- A series by years and quarters. -/
def yearly : SParams := { monthly with timeComposed := true, frequency := c!"AQQQQ" }

/-- The same where missing values are marked. -/
def yearlyMissing : SParams := { yearly with missings := true, missingValue := .list [.str c!"..."] }

/-- Two years followed by their quarters. -/
def yearSheet : Sheet := rows
  [[.str c!"fecha", .str c!"PBI "],
   [.str c!"2007 Total", .int 100],
   [.str c!"Trim. I", .int 21],
   [.str c!"II", .int 22],
   [.str c!"III", .int 23],
   [.str c!"IV", .int 24],
   [.int 2008, .int 200],
   [.str c!"I", .int 31],
   [.str c!"II", .int 32],
   [.str c!"III", .int 33],
   [.str c!"IV (1)", .int 34]]

/-- Its dates. -/
def yearDates : List Time :=
  [⟨2007, 1, 1, 0⟩, ⟨2007, 1, 1, 0⟩, ⟨2007, 4, 1, 0⟩, ⟨2007, 7, 1, 0⟩, ⟨2007, 10, 1, 0⟩,
   ⟨2008, 1, 1, 0⟩, ⟨2008, 1, 1, 0⟩, ⟨2008, 4, 1, 0⟩, ⟨2008, 7, 1, 0⟩, ⟨2008, 10, 1, 0⟩]

theorem filled {raw : Str} (h : ¬ ∀ c ∈ raw, isSpace c = true) : ¬ BlankCell (.str raw) := h

theorem quarterSays {style : MixedStyle} {raw : Str} {q n m : Nat} (hs : style ≠ .dates)
    (hraw : strip (ext0.unidecode raw) = roman q) (hq : 1 ≤ q ∧ q ≤ 4) (hv : ValidTime ⟨n, m, 1, 0⟩) :
    MixedSays ext0 style 'Q' (some ⟨n, m, 1, 0⟩) (.str raw) ⟨n, 3 * q - 2, 1, 0⟩ :=
  .quarter (l := ⟨n, m, 1, 0⟩) (f1 := []) (f3 := []) (notes := []) hs (by rw [hraw]; simp) hv hq
    (fun _ h => by cases h) (fun _ h => by cases h) (.inl rfl)

theorem year_reads : MixedReads ext0 .yearThenQuarters c!"AQQQQ" 0 none
    (cellsAlong yearSheet .vertical 1 1 2 11) yearDates :=
  .cons rfl (.year (n := 2007) (f := []) (g := c!" Total") (by decide) (by decide) (by decide) (by decide))
      (filled (by decide))
  (.cons rfl (.quarter (l := ⟨2007, 1, 1, 0⟩) (q := 1) (f1 := c!"Trim. ") (f3 := []) (notes := [])
      (by decide) (by decide) (by decide) (by decide) (by decide) (by decide) (.inl rfl)) (filled (by decide))
  (.cons rfl (quarterSays (q := 2) (by decide) (by decide) (by decide) (by decide)) (filled (by decide))
  (.cons rfl (quarterSays (q := 3) (by decide) (by decide) (by decide) (by decide)) (filled (by decide))
  (.cons rfl (quarterSays (q := 4) (by decide) (by decide) (by decide) (by decide)) (filled (by decide))
  (.cons rfl (.yearNumber (n := 2008) rfl (by decide)) (fun h => h)
  (.cons rfl (quarterSays (q := 1) (by decide) (by decide) (by decide) (by decide)) (filled (by decide))
  (.cons rfl (quarterSays (q := 2) (by decide) (by decide) (by decide) (by decide)) (filled (by decide))
  (.cons rfl (quarterSays (q := 3) (by decide) (by decide) (by decide) (by decide)) (filled (by decide))
  (.cons rfl (.quarter (l := ⟨2008, 7, 1, 0⟩) (q := 4) (f1 := []) (f3 := c!" ") (notes := c!"(1)")
      (by decide) (by decide) (by decide) (by decide) (by decide) (by decide)
      (.inr ⟨c!"(1)", [], ⟨c!"1", by decide, by decide, by decide, by decide⟩, by decide, .inl (by decide)⟩))
      (filled (by decide))
  .nil)))))))))

theorem year_index (sp : SParams) (h : sp = yearly ∨ sp = yearlyMissing) :
    MixedIndex ext0 sp yearSheet .yearThenQuarters 1 1 11 yearDates := by
  rcases h with rfl | rfl <;> exact
    { header := .single (coord := c!"A1") rfl rfl (by decide), plain := fun _ _ _ => plainAt_single (coord := c!"A1") rfl _ _, fits := ⟨rfl, rfl⟩, several := by decide
      starts := by decide, two := by decide, aligned := .inl rfl, offset := rfl, reads := year_reads
      inUse := by decide, within := by decide, after := .inl (by decide) }

theorem year_runs : ∀ f ∈ c!"AQQQQ", LetterRun c!"AQQQQ" yearDates f := by
  intro f hf
  have : f = 'A' ∨ f = 'Q' := by simpa using hf
  rcases this with rfl | rfl
  · exact
      { valid := by decide, run := ⟨⟨_, rfl, rfl, rfl, rfl⟩, trivial⟩
        start := by intro a h; cases h; exact ⟨⟨rfl, rfl⟩, by decide⟩
        stop := by intro a h; cases h; decide }
  · exact
      { valid := by decide
        run := ⟨⟨_, rfl, rfl, rfl, rfl⟩, ⟨_, rfl, rfl, rfl, rfl⟩, ⟨_, rfl, rfl, rfl, rfl⟩, ⟨_, rfl, rfl, rfl, rfl⟩,
          ⟨_, rfl, rfl, rfl, rfl⟩, ⟨_, rfl, rfl, rfl, rfl⟩, ⟨_, rfl, rfl, rfl, rfl⟩, trivial⟩
        start := by intro a h; cases h; exact ⟨⟨by decide, rfl⟩, by decide⟩
        stop := by intro a h; cases h; decide }

end Sample

/-- Years and quarters. -/
example : ∃ s', cleanTimeIndex Sample.ext0 Sample.yearly Sample.yearSheet = (.ok 11, s') ∧
    DatesWritten Sample.yearSheet s' .vertical 1 1 2 (Sample.yearDates.map some) :=
  C83_index_partial (Sample.year_index _ (.inl rfl)) (fun _ => rfl) (by decide) Sample.year_runs

/-- C83 fails as stated: in a series with missing values a year takes the month of the quarter before it, so
that the year 2008 is read as October 2008. -/
theorem C83_year_month_violated :
    ¬ ∀ (ext : Ext) (sp : SParams) (s : Sheet) (style : MixedStyle) (tr tc last : Int) (ts : List Time),
      MixedIndex ext sp s style tr tc last ts → (∀ f ∈ sp.frequency, f ∈ c!"AQMWD") →
      (∀ f ∈ sp.frequency, LetterRun sp.frequency ts f) →
      ∃ s', cleanTimeIndex ext sp s = (.ok last, s') ∧
        DatesWritten s s' sp.alignment tr tc sp.dataStarts (ts.map some) := by
  intro h
  obtain ⟨s', h1, h2⟩ := h Sample.ext0 Sample.yearlyMissing Sample.yearSheet .yearThenQuarters 1 1 11
    Sample.yearDates (Sample.year_index _ (.inr rfl)) (by decide) Sample.year_runs
  have h3 := h2.dates 5 ⟨2008, 1, 1, 0⟩ rfl
  have h4 : (cleanTimeIndex Sample.ext0 Sample.yearlyMissing Sample.yearSheet).2.cells 7 1 =
      .dt ⟨2008, 10, 1, 0⟩ := by decide +kernel
  rw [h1] at h4
  have h5 : s'.cells 7 1 = .dt ⟨2008, 1, 1, 0⟩ := h3
  rw [h5] at h4
  revert h4
  decide

/-- C83 does not extend to numbered footnotes on a year (quarters may have them): the index ends before the
year, without any error. -/
theorem C83_year_note_violated :
    (cleanTimeIndex Sample.ext0 Sample.yearly (Sample.yearSheet.set 7 1 (.str c!"2008 Total (1)"))).1 = .ok 6 := by
  decide +kernel

namespace Sample

/-- A series by quarters and years. -/
def quarterly : SParams := { monthly with timeComposed := true, frequency := c!"QQQQA" }

/-- Quarters followed by the total of the year, the year with the first quarter; a footnote below. -/
def totalSheet : Sheet := rows
  [[.str c!"fecha", .str c!"PBI "],
   [.str c!"2003 I", .int 21],
   [.str c!"II", .int 22],
   [.str c!"III", .int 23],
   [.str c!"IV", .int 24],
   [.str c!"Total (2)", .int 90],
   [.str c!"2004 Trim. I", .int 31],
   [.str c!"II", .int 32],
   [.str c!"III", .int 33],
   [.str c!"IV", .int 34],
   [.str c!"Total", .int 130],
   [.none, .none],
   [.str c!"Fuente: INDEC", .none]]

def totalDates : List Time :=
  [⟨2003, 1, 1, 0⟩, ⟨2003, 4, 1, 0⟩, ⟨2003, 7, 1, 0⟩, ⟨2003, 10, 1, 0⟩, ⟨2003, 1, 1, 0⟩,
   ⟨2004, 1, 1, 0⟩, ⟨2004, 4, 1, 0⟩, ⟨2004, 7, 1, 0⟩, ⟨2004, 10, 1, 0⟩, ⟨2004, 1, 1, 0⟩]

theorem letter_T : Letter 'T' := by decide

theorem total_reads : MixedReads ext0 .quartersThenYear c!"QQQQA" 0 none
    (cellsAlong totalSheet .vertical 1 1 2 11) totalDates :=
  .cons rfl (.firstQuarter (n := 2003) (f1 := []) (f2 := c!" ") (f3 := []) (by decide) (by decide) (by decide)
      (by decide) (by decide) (by intro l h; cases h)) (filled (by decide))
  (.cons rfl (quarterSays (q := 2) (by decide) (by decide) (by decide) (by decide)) (filled (by decide))
  (.cons rfl (quarterSays (q := 3) (by decide) (by decide) (by decide) (by decide)) (filled (by decide))
  (.cons rfl (quarterSays (q := 4) (by decide) (by decide) (by decide) (by decide)) (filled (by decide))
  (.cons rfl (.total (l := ⟨2003, 10, 1, 0⟩)
      ⟨c!"Total ", c!"(2)", by decide, ⟨'T', c!"otal ", rfl, letter_T⟩, by decide,
        .inr ⟨c!"2", by decide, by decide, by decide, by decide⟩⟩ (by decide) rfl) (filled (by decide))
  (.cons rfl (.firstQuarter (n := 2004) (f1 := []) (f2 := c!" Trim. ") (f3 := []) (by decide) (by decide)
      (by decide) (by decide) (by decide) (by intro l h; cases h; rfl)) (filled (by decide))
  (.cons rfl (quarterSays (q := 2) (by decide) (by decide) (by decide) (by decide)) (filled (by decide))
  (.cons rfl (quarterSays (q := 3) (by decide) (by decide) (by decide) (by decide)) (filled (by decide))
  (.cons rfl (quarterSays (q := 4) (by decide) (by decide) (by decide) (by decide)) (filled (by decide))
  (.cons rfl (.total (l := ⟨2004, 10, 1, 0⟩)
      ⟨c!"Total", [], by decide, ⟨'T', c!"otal", rfl, letter_T⟩, by decide, .inl rfl⟩ (by decide) rfl)
      (filled (by decide))
  .nil)))))))))

theorem total_index : MixedIndex ext0 quarterly totalSheet .quartersThenYear 1 1 11 totalDates where
  header := .single (coord := c!"A1") rfl rfl (by decide)
  plain := fun _ _ _ => plainAt_single (coord := c!"A1") rfl _ _
  fits := ⟨rfl, rfl⟩
  several := by decide
  starts := by decide
  two := by decide
  aligned := .inl rfl
  offset := rfl
  reads := total_reads
  inUse := by decide
  within := by decide
  after := by
    refine .inr ⟨rfl, ?_⟩
    intro pos h1 h2 h3
    have : gapLimit quarterly = 1 := rfl
    have : pos = 12 := by omega
    subst this
    exact trivial

theorem total_runs : ∀ f ∈ c!"QQQQA", LetterRun c!"QQQQA" totalDates f := by
  intro f hf
  have : f = 'Q' ∨ f = 'A' := by simpa using hf
  rcases this with rfl | rfl
  · exact
      { valid := by decide
        run := ⟨⟨_, rfl, rfl, rfl, rfl⟩, ⟨_, rfl, rfl, rfl, rfl⟩, ⟨_, rfl, rfl, rfl, rfl⟩, ⟨_, rfl, rfl, rfl, rfl⟩,
          ⟨_, rfl, rfl, rfl, rfl⟩, ⟨_, rfl, rfl, rfl, rfl⟩, ⟨_, rfl, rfl, rfl, rfl⟩, trivial⟩
        start := by intro a h; cases h; exact ⟨⟨by decide, rfl⟩, by decide⟩
        stop := by intro a h; cases h; decide }
  · exact
      { valid := by decide, run := ⟨⟨_, rfl, rfl, rfl, rfl⟩, trivial⟩
        start := by intro a h; cases h; exact ⟨⟨rfl, rfl⟩, by decide⟩
        stop := by intro a h; cases h; decide }

end Sample

/-- Quarters and totals, the latter with a footnote reference. -/
example : ∃ s', cleanTimeIndex Sample.ext0 Sample.quarterly Sample.totalSheet = (.ok 11, s') ∧
    DatesWritten Sample.totalSheet s' .vertical 1 1 2 (Sample.totalDates.map some) :=
  C83_index_partial Sample.total_index (by intro h; cases h) (by decide) Sample.total_runs

/-- C83 does not extend to a year written with every quarter: where the totals come last, `2003 II` is read as
January 2003 when there may be missing values. -/
theorem C83_every_year_violated :
    (cleanTimeIndex Sample.ext0 { Sample.quarterly with missings := true, missingValue := .list [.str c!"..."] }
      (Sample.totalSheet.set 3 1 (.str c!"2003 II"))).2.cells 3 1 = .dt ⟨2003, 1, 1, 0⟩ := by
  decide +kernel

/-! ### C84 -/

/-- C84. A table of series that share a time index with several frequencies (in a column its last cycle has
all of them): cleaning and extraction give one data frame per frequency, in the order in which the
frequencies appear. Its index has the dates of that frequency and its columns the values beside them, under
the names of the series. In the worksheet only the cells with dates change: they hold these dates. -/
theorem C84_table {ext : Ext} {p : Params} {s : Sheet} {sps : List SParams} {sp : SParams} {timeHeader : TimeHeader}
    {start : Int} {al : Align} {freq : Str} {style : MixedStyle} {tr tc last : Int} {ts : List Time}
    {series : List (Str × List Num)} (hp : HasSeries p sps) (h0 : sps.head? = some sp)
    (hsame : SameIndex sps timeHeader freq start 0 al) (ht : MixedIndex ext sp s style tr tc last ts)
    (hyears : style = .yearThenQuarters → sp.missings = false) (hg : OnPattern al freq ts)
    (hmarkers : ∀ sp ∈ sps, ExplicitMarkers sp)
    (hser : List.Forall₂ (fun sp nv => SeriesIs ext s tr tc last (ts.map some) ts sp nv.1 nv.2) sps series) :
    ∃ frames p' s', scrape ext p s = (.ok frames, p', s') ∧
      List.Forall₂ (FrameOfLetter freq ts series) freq.eraseDups frames ∧
      DatesWritten s s' al tr tc start (ts.map some) := by
  obtain ⟨frames, p', s', h1, h2, _, h4⟩ := scrape_mixed hp h0 hsame ht hyears hg hmarkers hser
  exact ⟨frames, p', s', h1, h2, h4⟩

/-- C84. The same through the entry point, with a `Parameters` object, a dictionary or a file that stands for
these parameters, whether or not the workbook is copied first: the answer is the list of these frames (the
frame itself if the pattern repeats one frequency). -/
theorem C84_call (ext : Ext) (wb : List Nat) (w : World) (given : Given) (name : Str) (safe preserve : Bool)
    (r : Nat) {p : Params} {sps : List SParams} {sp : SParams} {timeHeader : TimeHeader} {start : Int} {al : Align}
    {freq : Str} {style : MixedStyle} {tr tc last : Int} {ts : List Time} {series : List (Str × List Num)}
    (hreq : Requested ext wb w name r) (hwb : ∀ q ∈ wb, q < w.nextSheet ∧ WellFormed (w.sheets q))
    (hgiven : (∃ pr, given = .object pr ∧ w.params pr = p) ∨ (∃ x, given = .other x ∧ Params.new x = .ok p))
    (hp : HasSeries p sps) (h0 : sps.head? = some sp) (hsame : SameIndex sps timeHeader freq start 0 al)
    (ht : MixedIndex ext sp (w.sheets r) style tr tc last ts)
    (hyears : style = .yearThenQuarters → sp.missings = false) (hg : OnPattern al freq ts)
    (hmarkers : ∀ sp ∈ sps, ExplicitMarkers sp)
    (hser : List.Forall₂ (fun sp nv => SeriesIs ext (w.sheets r) tr tc last (ts.map some) ts sp nv.1 nv.2) sps
      series) :
    ∃ answer pr w', getDataFrames ext wb given name safe preserve w =
        (.ok (.dfs answer, (w.sheets r).title, pr), w') ∧
      ((∃ f frame, freq.eraseDups = [f] ∧ answer = .one frame ∧ FrameOfLetter freq ts series f frame) ∨
        ∃ frames, 2 ≤ frames.length ∧ answer = .many frames ∧
          List.Forall₂ (FrameOfLetter freq ts series) freq.eraseDups frames) := by
  obtain ⟨frames, p', s', h1, h2, _⟩ := C84_table hp h0 hsame ht hyears hg hmarkers hser
  obtain ⟨pr, w', e⟩ := call_complete ext wb w given name safe preserve r hreq hwb hgiven
    (complete_series hp (by rintro rfl; cases h0)) h1
  refine ⟨unwrap frames, pr, w', e, ?_⟩
  have hne : freq.eraseDups ≠ [] := by
    intro hn
    have := ht.several
    rw [hsame.frequency sp (List.mem_of_head? h0)] at this
    cases freq with
    | nil => simp at this
    | cons c cs => rw [List.eraseDups_cons] at hn; cases hn
  generalize freq.eraseDups = letters at h2 hne
  cases h2 with
  | nil => exact absurd rfl hne
  | @cons f frame fs frames q1 q2 =>
    cases q2 with
    | nil => exact .inl ⟨f, frame, rfl, rfl, q1⟩
    | cons q2 q3 => exact .inr ⟨_, by simp, rfl, .cons q1 (.cons q2 q3)⟩

namespace Sample

theorem year_pattern : OnPattern .vertical c!"AQQQQ" yearDates where
  letters := by decide
  runs := year_runs
  cycle := by decide
  lastCycle := by
    intro _ f hf
    have : f = 'A' ∨ f = 'Q' := by simpa using hf
    rcases this with rfl | rfl
    · exact ⟨5, by decide, by decide, rfl⟩
    · exact ⟨6, by decide, by decide, rfl⟩

theorem total_pattern : OnPattern .vertical c!"QQQQA" totalDates where
  letters := by decide
  runs := total_runs
  cycle := by decide
  lastCycle := by
    intro _ f hf
    have : f = 'Q' ∨ f = 'A' := by simpa using hf
    rcases this with rfl | rfl
    · exact ⟨5, by decide, by decide, rfl⟩
    · exact ⟨9, by decide, by decide, rfl⟩

theorem mixed_series (s : Sheet) (sp : SParams) (ts : List Time) (xs : List Num)
    (h : sp = yearly ∨ sp = quarterly) (hcell : s.cells 1 2 = .str c!"PBI ")
    (hxs : (cellsAlong s .vertical 1 2 2 11).map (numberIn ext0) = xs.map some)
    (hlen : xs.length = ts.length) :
    SeriesIs ext0 s 1 1 11 (ts.map some) ts sp c!"PBI" xs := by
  have e : coordOf c!"B1" = .ok (1, 2) := by decide
  have hb : sp.headerCoord = c!"B1" ∧ sp.composedHeaders = none ∧ sp.alignment = .vertical ∧
      sp.dataStarts = 2 ∧ sp.continuity = true ∧ sp.blankRows = false ∧ sp.missings = false ∧
      sp.seriesName = none ∧ sp.dataEnds = none ∧ sp.context = none := by
    rcases h with rfl | rfl <;> exact ⟨rfl, rfl, rfl, rfl, rfl, rfl, rfl, rfl, rfl, rfl⟩
  obtain ⟨b1, b2, b3, b4, b5, b6, b7, b8, b9, b10⟩ := hb
  refine
    { apart := ?_, cells := ⟨1, 2, by rw [b1]; exact e, .every b5 b6 b7 (by rw [b3, b4]; exact hxs)⟩
      name := ?_, size := hlen, ends := .inl b9 }
  · intro coord hm r c hrc
    have : coord = c!"B1" := by simpa [b1, b2] using hm
    rw [this, e] at hrc
    cases hrc
    rw [b3]
    decide
  · have := NameIs.composed (ext := ext0) (sp := sp) (s := s) (r := 1) (c := 2) (texts := []) (.inl b8)
      (by rw [b1]; exact e) (by rw [b2]; exact .nil)
    rw [hcell] at this
    simpa [shownAs, ext0, b10, show strip c!"PBI " = c!"PBI" by decide] using this

end Sample

/-- Two years and their quarters become an annual and a quarterly frame. -/
example : ∃ frames p' s',
    scrape Sample.ext0 (Sample.paramsOf [Sample.yearly]) Sample.yearSheet = (.ok frames, p', s') ∧
    List.Forall₂ (FrameOfLetter c!"AQQQQ" Sample.yearDates
      [(c!"PBI", [.fin 100, .fin 21, .fin 22, .fin 23, .fin 24, .fin 200, .fin 31, .fin 32, .fin 33, .fin 34])])
      c!"AQ" frames ∧
    DatesWritten Sample.yearSheet s' .vertical 1 1 2 (Sample.yearDates.map some) :=
  C84_table (sps := [Sample.yearly]) (timeHeader := .single c!"A1") (fun _ => rfl) rfl
    (.ofSingle (by decide) (by decide) (by decide) (by decide) (by decide) (by decide)) (Sample.year_index _ (.inl rfl))
    (fun _ => rfl) Sample.year_pattern
    (by
      intro sp hsp markers hm
      simp only [List.mem_cons, List.not_mem_nil, or_false] at hsp
      subst hsp
      cases hm)
    (.cons (Sample.mixed_series _ _ _ _ (.inl rfl) rfl rfl rfl) .nil)

/-- Quarters and totals, read through the entry point from a copy of the workbook. -/
example : ∃ answer pr w',
    getDataFrames Sample.ext0 [0] (.object 0) [] true true
      (Sample.world Sample.totalSheet (Sample.paramsOf [Sample.quarterly])) =
      (.ok (.dfs answer, c!"S", pr), w') ∧
    ((∃ f frame, c!"QA" = [f] ∧ answer = .one frame ∧ FrameOfLetter c!"QQQQA" Sample.totalDates
        [(c!"PBI", [.fin 21, .fin 22, .fin 23, .fin 24, .fin 90, .fin 31, .fin 32, .fin 33, .fin 34, .fin 130])]
        f frame) ∨
      ∃ frames, 2 ≤ frames.length ∧ answer = .many frames ∧
        List.Forall₂ (FrameOfLetter c!"QQQQA" Sample.totalDates
          [(c!"PBI", [.fin 21, .fin 22, .fin 23, .fin 24, .fin 90, .fin 31, .fin 32, .fin 33, .fin 34, .fin 130])])
          c!"QA" frames) :=
  C84_call Sample.ext0 [0] (Sample.world Sample.totalSheet (Sample.paramsOf [Sample.quarterly])) (.object 0) [] true
    true 0 (sps := [Sample.quarterly]) (timeHeader := .single c!"A1") (start := 2) (al := .vertical)
    ⟨by decide, by decide, .inl ⟨rfl, rfl⟩⟩
    (by
      intro q hq
      simp only [List.mem_cons, List.not_mem_nil, or_false] at hq
      subst hq
      exact ⟨by decide, Sample.rows_wellFormed (by decide) (by decide) (by decide)⟩)
    (.inl ⟨0, rfl, rfl⟩) (fun _ => rfl) rfl
    (.ofSingle (by decide) (by decide) (by decide) (by decide) (by decide) (by decide)) Sample.total_index
    (by intro h; cases h) Sample.total_pattern
    (by
      intro sp hsp markers hm
      simp only [List.mem_cons, List.not_mem_nil, or_false] at hsp
      subst hsp
      cases hm)
    (.cons (Sample.mixed_series _ _ _ _ (.inr rfl) rfl rfl rfl) .nil)

end Xls
