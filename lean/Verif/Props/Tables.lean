/-
C76: tables of series with one time index, in any layout the parameters can describe.
-/
import Verif.Lemmas.LayoutData
import Verif.Props.Call

set_option autoImplicit false

namespace Xls

open Spec

/-- C76. A table whose series share one time index, written in any of the known ways, in a column or a row,
with blank cells or missing values as the parameters of each series say: cleaning and extraction give one
data frame. Its index is the grid of periods of the dates, its columns are the series with their names and
values. In the worksheet only the cells with dates change: they hold these dates. -/
theorem C76_table {ext : Ext} {p : Params} {s : Sheet} {sps : List SParams} {sp : SParams} {timeHeader : TimeHeader}
    {start : Int} {al : Align} {freq : Str} {style : Style} {tr tc last : Int} {ots : List (Option Time)}
    {grid : List Time} {series : List (Str × List Num)} (hp : HasSeries p sps) (h0 : sps.head? = some sp)
    (hsame : SameIndex sps timeHeader freq start 0 al) (ht : TimeTable ext sp s style tr tc last ots)
    (hg : OnPeriods sp grid (ots.filterMap id))
    (hser : List.Forall₂ (fun sp nv => SeriesIs ext s tr tc last ots grid sp nv.1 nv.2) sps series) :
    ∃ columns p' s', scrape ext p s =
        (.ok [⟨indexFreq freq, grid, columns, series.map Prod.snd⟩], p', s') ∧
      ColumnsOf (series.map Prod.fst) columns ∧ DatesWritten s s' al tr tc start ots := by
  obtain ⟨cols, p', s', h1, h2, _, h4⟩ := scrape_table hp h0 hsame ht hg hser
  exact ⟨cols, p', s', h1, h2, h4⟩

/-- Parameters with a value for every series are complete. -/
theorem complete_series {p : Params} {sps : List SParams} (hp : HasSeries p sps) (hne : sps ≠ []) :
    p.isComplete = .ok true := by
  have hnum : p.num = some sps.length := by
    rw [Params.num_eq_some]
    refine ⟨⟨.headersCoord, _, hp _, by decide, by simp⟩, ?_⟩
    intro n vs hv _
    rw [hp n] at hv
    cases hv
    simp
  unfold Params.isComplete
  rw [hnum, completeFrom_true]
  intro n _
  unfold Params.completeAt
  rw [hp n]
  split
  · rfl
  · simp only [PVal.isNone, Params.len, List.length_map]
    split
    · next h => cases h
    · split <;> simp

/-- What the entry point does with complete parameters: it gives the frames of the worksheet asked for,
or the error. -/
theorem call_result (ext : Ext) (wb : List Nat) (w : World) (given : Given) (name : Str) (safe preserve : Bool)
    (r : Nat) {p p' : Params} {s' : Sheet} {res : Except Err (List Frame)} (hreq : Requested ext wb w name r)
    (hwb : ∀ q ∈ wb, q < w.nextSheet ∧ WellFormed (w.sheets q))
    (hgiven : (∃ pr, given = .object pr ∧ w.params pr = p) ∨ (∃ x, given = .other x ∧ Params.new x = .ok p))
    (hcomp : p.isComplete = .ok true) (hscr : scrape ext p (w.sheets r) = (res, p', s')) :
    ∃ pr w', getDataFrames ext wb given name safe preserve w =
      (res.map fun frames => (.dfs (unwrap frames), (w.sheets r).title, pr), w') := by
  have key : ∀ (wb1 : List Nat) (w1 : World) (r1 : Nat), Requested ext wb1 w1 name r1 →
      w1.sheets r1 = w.sheets r → w1.params = w.params →
      ∃ pr w', getDataFrames ext wb1 given name safe false w1 =
        (res.map fun frames => (.dfs (unwrap frames), (w.sheets r).title, pr), w') := by
    intro wb1 w1 r1 hr1 hs1 hp1
    obtain ⟨e1, e2⟩ := requested_found hr1
    obtain ⟨pr, w2, hgp, hw2, hs2⟩ : ∃ pr w2, givenParams given w1 = (.ok pr, w2) ∧ w2.params pr = p ∧
        w2.sheets = w1.sheets := by
      rcases hgiven with ⟨pr, rfl, h1⟩ | ⟨x, rfl, h1⟩
      · exact ⟨pr, w1, rfl, by rw [hp1]; exact h1, rfl⟩
      · refine ⟨w1.nextParams, (w1.newParams p).2, ?_, by simp [World.newParams], rfl⟩
        unfold givenParams
        dsimp only
        rw [h1]
        rfl
    have hrun : runOn ext r1 pr w2 = (res, w2.update r1 pr s' p') := by
      unfold runOn
      rw [hw2, hs2, hs1, hscr]
    refine ⟨pr, w2.update r1 pr s' p', ?_⟩
    unfold getDataFrames
    rw [if_neg (by decide)]
    dsimp only
    rw [e1]
    dsimp only
    rw [e2]
    dsimp only
    rw [hgp]
    dsimp only
    unfold scraperFrames discoverParameters
    rw [hw2, hcomp]
    dsimp only
    rw [hrun]
    cases res with
    | error e => rfl
    | ok frames => dsimp only; rw [hs1]; rfl
  cases preserve with
  | false => exact key wb w r hreq rfl rfl
  | true =>
    obtain ⟨c1, c2, c3, c4, c5, c6⟩ := copyBook_spec wb w hwb
    rcases hc : copyBook wb w with ⟨wb1, w1⟩
    rw [hc] at c1 c2 c3 c4 c5 c6
    dsimp only at c1 c2 c3 c4 c5 c6
    obtain ⟨r1, hr1, hs1⟩ := requested_copy hreq c6
    obtain ⟨pr, w', e⟩ := key wb1 w1 r1 hr1 hs1 c4
    refine ⟨pr, w', ?_⟩
    rw [← e]
    unfold getDataFrames
    rw [if_pos rfl, if_neg (by decide), hc]

/-- What the entry point does with complete parameters that work. -/
theorem call_complete (ext : Ext) (wb : List Nat) (w : World) (given : Given) (name : Str) (safe preserve : Bool)
    (r : Nat) {p p' : Params} {s' : Sheet} {frames : List Frame} (hreq : Requested ext wb w name r)
    (hwb : ∀ q ∈ wb, q < w.nextSheet ∧ WellFormed (w.sheets q))
    (hgiven : (∃ pr, given = .object pr ∧ w.params pr = p) ∨ (∃ x, given = .other x ∧ Params.new x = .ok p))
    (hcomp : p.isComplete = .ok true) (hscr : scrape ext p (w.sheets r) = (.ok frames, p', s')) :
    ∃ pr w', getDataFrames ext wb given name safe preserve w =
      (.ok (.dfs (unwrap frames), (w.sheets r).title, pr), w') :=
  call_result ext wb w given name safe preserve r hreq hwb hgiven hcomp hscr

/-- C76. The same through the entry point, with a `Parameters` object, a dictionary or a file that stands for
these parameters, whether or not the workbook is copied first. -/
theorem C76_call (ext : Ext) (wb : List Nat) (w : World) (given : Given) (name : Str) (safe preserve : Bool)
    (r : Nat) {p : Params} {sps : List SParams} {sp : SParams} {timeHeader : TimeHeader} {start : Int} {al : Align}
    {freq : Str} {style : Style} {tr tc last : Int} {ots : List (Option Time)} {grid : List Time}
    {series : List (Str × List Num)} (hreq : Requested ext wb w name r)
    (hwb : ∀ q ∈ wb, q < w.nextSheet ∧ WellFormed (w.sheets q))
    (hgiven : (∃ pr, given = .object pr ∧ w.params pr = p) ∨ (∃ x, given = .other x ∧ Params.new x = .ok p))
    (hp : HasSeries p sps) (h0 : sps.head? = some sp) (hsame : SameIndex sps timeHeader freq start 0 al)
    (ht : TimeTable ext sp (w.sheets r) style tr tc last ots) (hg : OnPeriods sp grid (ots.filterMap id))
    (hser : List.Forall₂ (fun sp nv => SeriesIs ext (w.sheets r) tr tc last ots grid sp nv.1 nv.2) sps series) :
    ∃ columns pr w', getDataFrames ext wb given name safe preserve w =
        (.ok (.dfs (.one ⟨indexFreq freq, grid, columns, series.map Prod.snd⟩), (w.sheets r).title, pr), w') ∧
      ColumnsOf (series.map Prod.fst) columns := by
  obtain ⟨columns, p', s', hscr, hco, _⟩ := C76_table hp h0 hsame ht hg hser
  obtain ⟨pr, w', e⟩ := call_complete ext wb w given name safe preserve r hreq hwb hgiven
    (complete_series hp (by rintro rfl; cases h0)) hscr
  exact ⟨columns, pr, w', e, hco⟩

/-! ### Examples -/

namespace Sample

/-- Quarters written as texts, the year only where it changes, and a footnote below. -/
def quarterSheet : Sheet := rows
  [[.str c!"fecha", .str c!"PBI ", .str c!"IPC"],
   [.str c!"2000 III", .int 10, .int 1],
   [.str c!"IV", .int 11, .int 2],
   [.str c!"2001 I", .int 12, .int 3],
   [.str c!" ", .none, .none],
   [.str c!"Fuente: INDEC", .none, .none]]

def quarterSeries (header : Str) : SParams :=
  { monthly with headerCoord := header, timeComposed := true, frequency := c!"Q" }

/-- Parameters of the given series. -/
def paramsOf (sps : List SParams) : Params := fun n => .list (sps.map fun sp => rawValue sp n)

theorem quarter_reads : Reads ext0 .yearQuarter none
    (cellsAlong quarterSheet .vertical 1 1 2 4)
    [some ⟨2000, 7, 1, 0⟩, some ⟨2000, 10, 1, 0⟩, some ⟨2001, 1, 1, 0⟩] :=
  .date (.yearAndQuarter (n := 2000) (q := 3) (f1 := []) (f2 := c!" ") (num := c!"III") (f3 := []) (notes := [])
      (by decide) (by decide) ⟨by decide, by decide, .inl (by decide)⟩ (by decide) (by decide) (by decide) (.inl rfl))
    (show ¬ ∀ c ∈ c!"2000 III", isSpace c = true by decide)
  (.date (.quarterAlone (l := ⟨2000, 7, 1, 0⟩) (q := 4) (f1 := []) (num := c!"IV") (f3 := []) (notes := [])
      (by decide) (by decide) ⟨by decide, by decide, .inl (by decide)⟩ (by decide) (by decide) (.inl rfl))
    (show ¬ ∀ c ∈ c!"IV", isSpace c = true by decide)
  (.date (.yearAndQuarter (n := 2001) (q := 1) (f1 := []) (f2 := c!" ") (num := c!"I") (f3 := []) (notes := [])
      (by decide) (by decide) ⟨by decide, by decide, .inl (by decide)⟩ (by decide) (by decide) (by decide) (.inl rfl))
    (show ¬ ∀ c ∈ c!"2001 I", isSpace c = true by decide) .nil))

theorem quarter_table : TimeTable ext0 (quarterSeries c!"B1") quarterSheet .yearQuarter 1 1 4
    [some ⟨2000, 7, 1, 0⟩, some ⟨2000, 10, 1, 0⟩, some ⟨2001, 1, 1, 0⟩] where
  header := .single (coord := c!"A1") rfl rfl (by decide)
  plain := fun _ _ _ => plainAt_single (coord := c!"A1") rfl _ _
  fits := ⟨rfl, rfl⟩
  starts := by decide
  two := by decide
  aligned := .inl rfl
  offset := rfl
  reads := quarter_reads
  first := ⟨_, rfl⟩
  ends := ⟨_, rfl⟩
  gaps := by intro h; simp at h
  shortGaps := by
    intro i h
    have := h 0 (by decide)
    rcases i with _ | _ | _ | i <;> simp at this
  within := by decide
  after := by
    refine .inr ⟨rfl, ?_⟩
    intro pos h1 h2 h3
    have : gapLimit (quarterSeries c!"B1") = 1 := rfl
    have : pos = 5 := by omega
    subst this
    show BlankCell (.str c!" ")
    unfold BlankCell
    decide

theorem quarter_periods : OnPeriods (quarterSeries c!"B1")
    [⟨2000, 7, 1, 0⟩, ⟨2000, 10, 1, 0⟩, ⟨2001, 1, 1, 0⟩]
    ([some ⟨2000, 7, 1, 0⟩, some ⟨2000, 10, 1, 0⟩, some ⟨2001, 1, 1, 0⟩].filterMap id) where
  frequency := .inl (by decide)
  valid := by decide
  representable := by decide
  start := by intro a h; cases h; exact ⟨.inr (.inr (.inl rfl)), rfl⟩
  run := ⟨⟨_, rfl, rfl, rfl, rfl⟩, ⟨_, rfl, rfl, rfl, rfl⟩, trivial⟩
  sub := List.Sublist.refl _
  first := rfl
  last := rfl
  complete := fun _ => rfl
  marker := trivial

theorem quarter_series (col : Str) (hc : Int) (hcol : coordOf col = .ok (1, hc)) (hne : hc ≠ 1) (name text : Str)
    (xs : List Num) (hcell : quarterSheet.cells 1 hc = .str text) (hname : strip text = name)
    (hxs : (cellsAlong quarterSheet .vertical 1 hc 2 4).map (numberIn ext0) = xs.map some)
    (hlen : xs.length = 3) :
    SeriesIs ext0 quarterSheet 1 1 4 [some ⟨2000, 7, 1, 0⟩, some ⟨2000, 10, 1, 0⟩, some ⟨2001, 1, 1, 0⟩]
      [⟨2000, 7, 1, 0⟩, ⟨2000, 10, 1, 0⟩, ⟨2001, 1, 1, 0⟩] (quarterSeries col) name xs where
  apart := by
    intro coord hm r c hrc
    have : coord = col := by simpa [quarterSeries, monthly] using hm
    rw [this, hcol] at hrc
    cases hrc
    exact hne
  cells := ⟨1, hc, hcol, .every rfl rfl rfl hxs⟩
  name := by
    have := NameIs.composed (ext := ext0) (sp := quarterSeries col) (s := quarterSheet) (r := 1) (c := hc)
      (texts := []) (.inl rfl) hcol .nil
    rw [hcell] at this
    rw [← hname]
    simpa [quarterSeries, monthly, shownAs, ext0] using this
  size := hlen
  ends := .inl rfl

end Sample

/-- Three quarters of two series. -/
example : ∃ columns p' s',
    scrape Sample.ext0 (Sample.paramsOf [Sample.quarterSeries c!"B1", Sample.quarterSeries c!"C1"])
      Sample.quarterSheet =
      (.ok [⟨c!"QS-JAN", [⟨2000, 7, 1, 0⟩, ⟨2000, 10, 1, 0⟩, ⟨2001, 1, 1, 0⟩], columns,
        [[.fin 10, .fin 11, .fin 12], [.fin 1, .fin 2, .fin 3]]⟩], p', s') ∧
    ColumnsOf [c!"PBI", c!"IPC"] columns ∧
    DatesWritten Sample.quarterSheet s' .vertical 1 1 2
      [some ⟨2000, 7, 1, 0⟩, some ⟨2000, 10, 1, 0⟩, some ⟨2001, 1, 1, 0⟩] :=
  C76_table (series := [(c!"PBI", [.fin 10, .fin 11, .fin 12]), (c!"IPC", [.fin 1, .fin 2, .fin 3])])
    (timeHeader := .single c!"A1") (freq := c!"Q") (fun _ => rfl) rfl
    (.ofSingle (by decide) (by decide) (by decide) (by decide) (by decide) (by decide))
    Sample.quarter_table Sample.quarter_periods
    (.cons (Sample.quarter_series _ 2 (by decide) (by decide) _ _ _ rfl (by decide) rfl rfl)
      (.cons (Sample.quarter_series _ 3 (by decide) (by decide) _ _ _ rfl (by decide) rfl rfl) .nil))

namespace Sample

/-- Years written as numbers, whole or with decimals, and as a text. -/
def yearNumbersSheet : Sheet := rows
  [[.str c!"anio", .str c!"PBI"],
   [.int 1998, .int 10],
   [.float (.fin 1999), .int 11],
   [.str c!"2000*", .int 12]]

def yearNumbersSeries : SParams :=
  { monthly with timeComposed := true, frequency := c!"A", seriesName := some c!"producto" }

end Sample

/-- Three years, two of them numbers. -/
example : ∃ columns p' s',
    scrape Sample.ext0 (Sample.paramsOf [Sample.yearNumbersSeries]) Sample.yearNumbersSheet =
      (.ok [⟨c!"AS-JAN", [⟨1998, 1, 1, 0⟩, ⟨1999, 1, 1, 0⟩, ⟨2000, 1, 1, 0⟩], columns,
        [[.fin 10, .fin 11, .fin 12]]⟩], p', s') ∧
    ColumnsOf [c!"producto"] columns ∧
    DatesWritten Sample.yearNumbersSheet s' .vertical 1 1 2
      [some ⟨1998, 1, 1, 0⟩, some ⟨1999, 1, 1, 0⟩, some ⟨2000, 1, 1, 0⟩] :=
  C76_table (series := [(c!"producto", [.fin 10, .fin 11, .fin 12])])
    (timeHeader := .single c!"A1") (freq := c!"A") (style := .year) (last := 4) (fun _ => rfl) rfl
    (.ofSingle (by decide) (by decide) (by decide) (by decide) (by decide) (by decide))
    { header := .single (coord := c!"A1") rfl rfl (by decide)
      plain := fun _ _ _ => plainAt_single (coord := c!"A1") rfl _ _
      fits := ⟨rfl, rfl⟩, starts := by decide, two := by decide
      aligned := .inl rfl, offset := rfl
      reads := .date (.yearNumber (n := 1998) rfl (by decide)) (fun h => h)
        (.date (.yearNumber (n := 1999) (by constructor <;> norm_num) (by decide)) (fun h => h)
        (.date (.year (n := 2000) (lead := []) (f := []) (g := c!"*") (r := []) (g' := []) (by decide) (by decide)
            (.inl rfl) (by decide) (by decide) (.inl rfl) (by decide) (fun _ => rfl))
          (show ¬ ∀ c ∈ c!"2000*", isSpace c = true by decide) .nil))
      first := ⟨_, rfl⟩, ends := ⟨_, rfl⟩
      gaps := by intro h; simp at h
      shortGaps := by
        intro i h
        have := h 0 (by decide)
        rcases i with _ | _ | _ | i <;> simp at this
      within := by decide, after := .inl (by decide) }
    { frequency := .inl (by decide), valid := by decide, representable := by decide
      start := by intro a h; cases h; exact ⟨rfl, rfl⟩
      run := ⟨⟨_, rfl, rfl, rfl, rfl⟩, ⟨_, rfl, rfl, rfl, rfl⟩, trivial⟩
      sub := List.Sublist.refl _
      first := rfl, last := rfl, complete := fun _ => rfl
      marker := trivial }
    (.cons
      { apart := by
          intro coord hm r c hrc
          have : coord = c!"B1" := by simpa [Sample.yearNumbersSeries, Sample.monthly] using hm
          subst this
          have e : coordOf c!"B1" = .ok (1, 2) := by decide
          rw [e] at hrc
          cases hrc
          decide
        cells := ⟨1, 2, by decide, .every rfl rfl rfl rfl⟩
        name := .given (by decide) rfl
        size := rfl, ends := .inl rfl } .nil)

namespace Sample

/-- Dates in a row with a blank cell between them. -/
def rowSheet : Sheet := rows
  [[.str c!"fecha", day 2000 1 1, .none, day 2000 2 1, day 2000 3 1],
   [.str c!"PBI", .int 10, .int 99, .str c!"...", .int 13]]

/-- A series that is not continuous, in a row. -/
def rowSeries : SParams :=
  { monthly with
    alignment := .horizontal, headerCoord := c!"A2", continuity := false, missings := true
    missingValue := .list [.str c!"..."], seriesName := some c!"producto" }

/-- Dates in a row, one month left out. -/
def gapRowSheet : Sheet := rows
  [[.str c!"fecha", day 2000 1 1, day 2000 2 1, day 2000 4 1],
   [.str c!"PBI", .int 10, .str c!"...", .int 13]]

/-- A continuous series where months are left out. -/
def gapRowSeries : SParams :=
  { rowSeries with continuity := true, missingValue := .list [.str c!"...", .str c!"Implicit"] }

end Sample

/-- A series in a row with a month left out: NaN there and at the marker. -/
example : ∃ columns p' s',
    scrape Sample.ext0 (Sample.paramsOf [Sample.gapRowSeries]) Sample.gapRowSheet =
      (.ok [⟨c!"MS", [⟨2000, 1, 1, 0⟩, ⟨2000, 2, 1, 0⟩, ⟨2000, 3, 1, 0⟩, ⟨2000, 4, 1, 0⟩], columns,
        [[.fin 10, .nan, .nan, .fin 13]]⟩], p', s') ∧
    ColumnsOf [c!"producto"] columns ∧
    DatesWritten Sample.gapRowSheet s' .horizontal 1 1 2
      [some ⟨2000, 1, 1, 0⟩, some ⟨2000, 2, 1, 0⟩, some ⟨2000, 4, 1, 0⟩] :=
  C76_table (series := [(c!"producto", [.fin 10, .nan, .nan, .fin 13])])
    (timeHeader := .single c!"A1") (freq := c!"M") (style := .dates) (last := 4) (fun _ => rfl) rfl
    (.ofSingle (by decide) (by decide) (by decide) (by decide) (by decide) (by decide))
    { header := .single (coord := c!"A1") rfl rfl (by decide), plain := fun _ _ _ => plainAt_single (coord := c!"A1") rfl _ _, fits := rfl, starts := by decide, two := by decide
      aligned := .inr rfl, offset := rfl
      reads := .date .date (fun h => h) (.date .date (fun h => h) (.date .date (fun h => h) .nil))
      first := ⟨_, rfl⟩, ends := ⟨_, rfl⟩
      gaps := by intro h; simp at h
      shortGaps := by
        intro i h
        have := h 0 (by decide)
        rcases i with _ | _ | _ | i <;> simp at this
      within := by decide, after := .inl (by decide) }
    { frequency := .inl (by decide), valid := by decide, representable := by decide
      start := by intro a h; cases h; rfl
      run := ⟨⟨_, rfl, rfl, rfl, rfl⟩, ⟨_, rfl, rfl, rfl, rfl⟩, ⟨_, rfl, rfl, rfl, rfl⟩, trivial⟩
      sub := by decide
      first := rfl, last := rfl, complete := fun h => by cases h
      marker := trivial }
    (.cons
      { apart := by
          intro coord hm r c hrc
          have : coord = c!"A2" := by simpa [Sample.gapRowSeries, Sample.rowSeries, Sample.monthly] using hm
          subst this
          have e : coordOf c!"A2" = .ok (2, 1) := by decide
          rw [e] at hrc
          cases hrc
          decide
        cells := ⟨2, 1, by decide, .implicit (xs := [.fin 10, .nan, .fin 13])
          (markers := [.str c!"...", .str c!"Implicit"]) rfl rfl rfl rfl (by simp) (by simp) (by decide) rfl
          { size := rfl
            observed := by
              intro t x h
              simp at h
              rcases h with ⟨rfl, rfl⟩ | ⟨rfl, rfl⟩ | ⟨rfl, rfl⟩
              · exact ⟨0, rfl, rfl⟩
              · exact ⟨1, rfl, rfl⟩
              · exact ⟨3, rfl, rfl⟩
            others := by
              intro i t h hn
              rcases i with _ | _ | _ | _ | i <;> simp at h
              · subst h; simp at hn
              · subst h; simp at hn
              · rfl
              · subst h; simp at hn }⟩
        name := .given (by decide) rfl
        size := rfl, ends := .inl rfl } .nil)

namespace Sample

theorem row_table : TimeTable ext0 rowSeries rowSheet .dates 1 1 5
    [some ⟨2000, 1, 1, 0⟩, none, some ⟨2000, 2, 1, 0⟩, some ⟨2000, 3, 1, 0⟩] where
  header := .single (coord := c!"A1") rfl rfl (by decide)
  plain := fun _ _ _ => plainAt_single (coord := c!"A1") rfl _ _
  fits := rfl
  starts := by decide
  two := by decide
  aligned := .inr rfl
  offset := rfl
  reads := .date .date (fun h => h) (.blank trivial (.date .date (fun h => h) (.date .date (fun h => h) .nil)))
  first := ⟨_, rfl⟩
  ends := ⟨_, rfl⟩
  gaps := fun _ => .inl rfl
  shortGaps := by
    intro i h
    have := h 0 (by decide)
    have := h 1 (by decide)
    rcases i with _ | _ | _ | _ | i <;> simp at *
  within := by decide
  after := .inl (by decide)

theorem row_periods : OnPeriods rowSeries [⟨2000, 1, 1, 0⟩, ⟨2000, 2, 1, 0⟩, ⟨2000, 3, 1, 0⟩]
    ([some ⟨2000, 1, 1, 0⟩, none, some ⟨2000, 2, 1, 0⟩, some ⟨2000, 3, 1, 0⟩].filterMap id) where
  frequency := .inl (by decide)
  valid := by decide
  representable := by decide
  start := by intro a h; cases h; rfl
  run := ⟨⟨_, rfl, rfl, rfl, rfl⟩, ⟨_, rfl, rfl, rfl, rfl⟩, trivial⟩
  sub := List.Sublist.refl _
  first := rfl
  last := rfl
  complete := fun _ => rfl
  marker := trivial

theorem row_series : SeriesIs ext0 rowSheet 1 1 5
    [some ⟨2000, 1, 1, 0⟩, none, some ⟨2000, 2, 1, 0⟩, some ⟨2000, 3, 1, 0⟩]
    [⟨2000, 1, 1, 0⟩, ⟨2000, 2, 1, 0⟩, ⟨2000, 3, 1, 0⟩] rowSeries c!"producto" [.fin 10, .nan, .fin 13] where
  apart := by
    intro coord hm r c hrc
    have : coord = c!"A2" := by simpa [rowSeries, monthly] using hm
    subst this
    have e : coordOf c!"A2" = .ok (2, 1) := by decide
    rw [e] at hrc
    cases hrc
    decide
  cells := ⟨2, 1, by decide, .dated (markers := [.str c!"..."]) rfl (fun _ => rfl) (by simp) rfl⟩
  name := .given (by decide) rfl
  size := rfl
  ends := .inl rfl

end Sample

/-- A series in a row, read with a `Parameters` object from a copy of the workbook: the value beside the blank
cell is left out, the marker stands for a missing value. -/
example : ∃ columns pr w',
    getDataFrames Sample.ext0 [0] (.object 0) [] true true
      (Sample.world Sample.rowSheet (Sample.paramsOf [Sample.rowSeries])) =
      (.ok (.dfs (.one ⟨c!"MS", [⟨2000, 1, 1, 0⟩, ⟨2000, 2, 1, 0⟩, ⟨2000, 3, 1, 0⟩], columns,
        [[.fin 10, .nan, .fin 13]]⟩), c!"S", pr), w') ∧
    ColumnsOf [c!"producto"] columns :=
  C76_call Sample.ext0 [0] (Sample.world Sample.rowSheet (Sample.paramsOf [Sample.rowSeries])) (.object 0) [] true
    true 0 (timeHeader := .single c!"A1") (freq := c!"M") (start := 2) (al := .horizontal) (sps := [Sample.rowSeries])
    (series := [(c!"producto", [.fin 10, .nan, .fin 13])])
    ⟨by decide, by decide, .inl ⟨rfl, rfl⟩⟩
    (by
      intro q hq
      simp only [List.mem_cons, List.not_mem_nil, or_false] at hq
      subst hq
      exact ⟨by decide, Sample.rows_wellFormed (by decide) (by decide) (by decide)⟩)
    (.inl ⟨0, rfl, rfl⟩) (fun _ => rfl) rfl
    (.ofSingle (by decide) (by decide) (by decide) (by decide) (by decide) (by decide))
    Sample.row_table Sample.row_periods (.cons Sample.row_series .nil)

end Xls
