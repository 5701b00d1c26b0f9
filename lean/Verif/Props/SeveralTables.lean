/-
C103: several tables on one worksheet.
-/
import Verif.Lemmas.SeveralRows
import Verif.Props.MixedTable

set_option autoImplicit false

namespace Xls

open Spec

/-- C103. A worksheet with any number of tables of the kind of C76, anywhere on it, each with its own dates and
series: `get_data_frames` gives one data frame for each index, in the order in which the indexes first appear
in the parameters; series of different tables with the same index are in the same data frame. The dates of all
tables are cleaned and nothing else is changed. Missing from the full claim: tables in rows whose end is not
given, and time indexes in several columns. -/
theorem C103_tables_partial (ext : Ext) (wb : List Nat) (w : World) (given : Given) (name : Str)
    (safe preserve : Bool) (r : Nat) {p : Params} {ms : List Member} (hreq : Requested ext wb w name r)
    (hwb : ∀ q ∈ wb, q < w.nextSheet ∧ WellFormed (w.sheets q))
    (hgiven : (∃ pr, given = .object pr ∧ w.params pr = p) ∨ (∃ x, given = .other x ∧ Params.new x = .ok p))
    (hp : HasSeries p (ms.map Member.sp)) (hne : ms ≠ []) (h : TablesOn ext (w.sheets r) ms)
    (hends : EndsKnown ms) :
    ∃ frames p' s' answer pr w',
      scrape ext p (w.sheets r) = (.ok frames, p', s') ∧ FramesOfTables ms frames ∧
      AllDatesWritten (w.sheets r) s' ms ∧ GivenAs frames answer ∧
      getDataFrames ext wb given name safe preserve w = (.ok (.dfs answer, (w.sheets r).title, pr), w') := by
  have hwf := (hwb r hreq.1).2
  obtain ⟨frames, p', s', hscr, hf, _, hw⟩ := scrape_tables h hne hends
    (fun r c hr => hwf.outside r c fun hx => by omega) hp
  obtain ⟨pr, w', e⟩ := call_complete ext wb w given name safe preserve r hreq hwb hgiven
    (complete_series hp (by simpa using hne)) hscr
  exact ⟨frames, p', s', unwrap frames, pr, w', hscr, hf, hw, (givenAs_iff _ _).2 rfl, e⟩

/-- C103. The parameters after it are those of the series, each with the end of its table. -/
theorem C103_parameters {ext : Ext} {s : Sheet} {ms : List Member} (h : TablesOn ext s ms) (hne : ms ≠ [])
    (hends : EndsKnown ms) (hwf : WellFormed s) {p : Params} (hp : HasSeries p (ms.map Member.sp)) :
    HasSeries (scrape ext p s).2.1 (ms.map fun m => endingAt m.table.last m.sp) := by
  obtain ⟨frames, p', s', hscr, _, hps, _⟩ := scrape_tables h hne hends
    (fun r c hr => hwf.outside r c fun hx => by omega) hp
  rw [hscr]
  exact hps

/-- C103 (violation). Two tables in rows that reach to the last used column, the second without its end given:
cleaning the first looks up the column after it, which then is in use and blank, so that the end of the second
is not found. There is never a data frame. -/
theorem C103_rows_violated {ext : Ext} {s : Sheet} {ms mid post : List Member} {m0 m1 : Member}
    (h : TablesOn ext s ms) (hms : ms = m0 :: mid ++ m1 :: post) (hmid : ∀ m ∈ mid, m.table = m0.table)
    (hother : m1.table ≠ m0.table) (h0 : m0.table.al = .horizontal) (hfull : m0.table.last = s.maxCol)
    (h1 : m1.table.al = .horizontal) (hopen : ¬ EndGiven m1.sp) (hwf : WellFormed s) {p : Params}
    (hp : HasSeries p (ms.map Member.sp)) : (scrape ext p s).1 = .error .typeError :=
  scrape_rows h hms hmid hother h0 hfull h1 hopen (fun r c hr => hwf.outside r c fun hx => by omega) hp

/-- C14 (violation). Any index in a row, dates in whatever way: with its end given it is found; without, and blank
cells between it and the last used column, cleaning always raises `TypeError`. In a column the same index is
found without the end as well. -/
theorem C14_rows_violated {ext : Ext} {sp : SParams} {s : Sheet} {style : Style} {tr tc last : Int}
    {ots : List (Option Time)} {grid : List Time}
    (h : TimeTable ext { sp with dataEnds := some last } s style tr tc last ots)
    (hg : OnPeriods sp grid (ots.filterMap id)) (hlt : last < lastPosition sp s)
    (hblank : ∀ pos, last < pos → pos ≤ lastPosition sp s → pos ≤ last + gapLimit sp →
      BlankCell (readCell ext sp s pos)) :
    (cleanTimeIndex ext { sp with dataEnds := some last } s).1 = .ok last ∧
    (sp.alignment = .vertical → (cleanTimeIndex ext sp s).1 = .ok last) ∧
    (sp.alignment = .horizontal → (cleanTimeIndex ext sp s).1 = .error .typeError) := by
  have hf := (notY_of_periods hg).2.1
  have hp := progresses_of hg
  have hc : TimeCells ext sp s style tr tc last ots :=
    ⟨⟨h.header.kind, h.header.first, h.header.readable⟩, h.fits, h.starts, h.two, h.aligned, h.offset, h.reads,
      h.plain, h.first, h.ends, h.gaps, h.shortGaps⟩
  refine ⟨?_, ?_, ?_⟩
  · obtain ⟨s1, e, _⟩ := clean_table h hf hp
    rw [e]
  · intro hv
    obtain ⟨s1, e, _⟩ := clean_table (s := s) (sp := sp) { hc with within := by omega, after := .inr ⟨hv, hblank⟩ } hf hp
    rw [e]
  · exact fun hal => clean_row_tail hc hf hp hal hlt hblank

/-! ### Examples -/

namespace Sample

/-- Quarters in the first column, months in the fourth and once more in the seventh. -/
def tablesSheet : Sheet := rows
  [[.str c!"fecha", .str c!"PBI ", .none, .str c!"mes", .str c!"IPC", .none, .str c!"mes", .str c!"M1"],
   [.str c!"2000 III", .int 10, .none, .dt ⟨2000, 1, 1, 0⟩, .int 1, .none, .dt ⟨2000, 1, 1, 0⟩, .int 7],
   [.str c!"IV", .int 11, .none, .dt ⟨2000, 2, 1, 0⟩, .int 2, .none, .dt ⟨2000, 2, 1, 0⟩, .int 8],
   [.str c!"2001 I", .int 12, .none, .dt ⟨2000, 3, 1, 0⟩, .int 3, .none, .dt ⟨2000, 3, 1, 0⟩, .int 9]]

/-- A series with months in plain dates. -/
def monthSeries (th hd : Str) (al : Align) (ends : Option Int) : SParams :=
  { monthly with timeHeader := .single th, headerCoord := hd, alignment := al, dataEnds := ends }

def monthTable (th : Str) (al : Align) (tr tc : Int) (y : Nat) : DateTable where
  header := th
  freq := c!"M"
  start := 2
  al := al
  style := .dates
  tr := tr
  tc := tc
  last := 4
  ots := [some ⟨y, 1, 1, 0⟩, some ⟨y, 2, 1, 0⟩, some ⟨y, 3, 1, 0⟩]
  grid := [⟨y, 1, 1, 0⟩, ⟨y, 2, 1, 0⟩, ⟨y, 3, 1, 0⟩]

def quarterTable : DateTable where
  header := c!"A1"
  freq := c!"Q"
  start := 2
  al := .vertical
  style := .yearQuarter
  tr := 1
  tc := 1
  last := 4
  ots := [some ⟨2000, 7, 1, 0⟩, some ⟨2000, 10, 1, 0⟩, some ⟨2001, 1, 1, 0⟩]
  grid := [⟨2000, 7, 1, 0⟩, ⟨2000, 10, 1, 0⟩, ⟨2001, 1, 1, 0⟩]

theorem month_time {th hd : Str} {al : Align} {ends : Option Int} {s : Sheet} {tr tc : Int} {y : Nat}
    (hth : coordOf th = .ok (tr, tc)) (hal : al = .vertical ∨ al = .horizontal)
    (hread : readsAlong ext0 (monthSeries th hd al ends) s 2 4 =
      [.dt ⟨y, 1, 1, 0⟩, .dt ⟨y, 2, 1, 0⟩, .dt ⟨y, 3, 1, 0⟩])
    (hlast : lastPosition (monthSeries th hd al ends) s = 4) :
    TimeTable ext0 (monthSeries th hd al ends) s .dates tr tc 4
      [some ⟨y, 1, 1, 0⟩, some ⟨y, 2, 1, 0⟩, some ⟨y, 3, 1, 0⟩] where
  header := .single (coord := th) rfl rfl hth
  plain := fun _ _ _ => plainAt_single (coord := th) rfl _ _
  fits := rfl
  starts := by show (1 : Int) ≤ 2; decide
  two := by show (2 : Int) < 4; decide
  aligned := hal
  offset := rfl
  reads := by
    show Reads _ _ _ (readsAlong ext0 (monthSeries th hd al ends) s 2 4) _
    rw [hread]
    exact .date .date (fun h => h) (.date .date (fun h => h) (.date .date (fun h => h) .nil))
  first := ⟨_, rfl⟩
  ends := ⟨_, rfl⟩
  gaps := by intro h; simp at h
  shortGaps := by
    intro i h
    have := h 0 (show 0 < gapLimit monthly by decide)
    rcases i with _ | _ | _ | i <;> simp at this
  within := by rw [hlast]
  after := .inl hlast.symm

theorem month_periods {th hd : Str} {al : Align} {ends : Option Int} {y : Nat} (hy : y = 2000 ∨ y = 2001) :
    OnPeriods (monthSeries th hd al ends) [⟨y, 1, 1, 0⟩, ⟨y, 2, 1, 0⟩, ⟨y, 3, 1, 0⟩]
      ([some ⟨y, 1, 1, 0⟩, some ⟨y, 2, 1, 0⟩, some ⟨y, 3, 1, 0⟩].filterMap id) where
  frequency := .inl (by show c!"M" ∈ _; decide)
  valid := by rcases hy with rfl | rfl <;> decide
  representable := by rcases hy with rfl | rfl <;> decide
  start := by intro a h; cases h; rfl
  run := by rcases hy with rfl | rfl <;> exact ⟨⟨_, rfl, rfl, rfl, rfl⟩, ⟨_, rfl, rfl, rfl, rfl⟩, trivial⟩
  sub := List.Sublist.refl _
  first := rfl
  last := rfl
  complete := fun _ => rfl
  marker := trivial

theorem month_series {th hd : Str} {al : Align} {ends : Option Int} {s : Sheet} {tr tc hr hc : Int} {y : Nat}
    (hhd : coordOf hd = .ok (hr, hc)) (hapart : if al = .vertical then hc ≠ tc else hr ≠ tr)
    (he : ends = none ∨ ends = some 4) {name text : Str} {xs : List Num} (hcell : s.cells hr hc = .str text)
    (hname : strip text = name) (hxs : (cellsAlong s al hr hc 2 4).map (numberIn ext0) = xs.map some)
    (hlen : xs.length = 3) :
    SeriesIs ext0 s tr tc 4 [some ⟨y, 1, 1, 0⟩, some ⟨y, 2, 1, 0⟩, some ⟨y, 3, 1, 0⟩]
      [⟨y, 1, 1, 0⟩, ⟨y, 2, 1, 0⟩, ⟨y, 3, 1, 0⟩] (monthSeries th hd al ends) name xs where
  apart := by
    intro coord hm r c hrc
    have : coord = hd := by simpa [monthSeries, monthly] using hm
    rw [this, hhd] at hrc
    cases hrc
    exact hapart
  cells := ⟨hr, hc, hhd, .every rfl rfl rfl hxs⟩
  name := by
    have := NameIs.composed (ext := ext0) (sp := monthSeries th hd al ends) (s := s) (r := hr) (c := hc)
      (texts := []) (.inl rfl) hhd .nil
    rw [hcell] at this
    rw [← hname]
    simpa [monthSeries, monthly, shownAs, ext0] using this
  size := hlen
  ends := by
    show ends = none ∨ ends = some 0 ∨ ends = some 4
    rcases he with rfl | rfl
    · exact .inl rfl
    · exact .inr (.inr rfl)

theorem quarter_column : TimeTable ext0 (quarterSeries c!"B1") tablesSheet .yearQuarter 1 1 4 quarterTable.ots :=
  { quarter_table with reads := quarter_reads, plain := fun _ _ _ => plainAt_single (coord := c!"A1") rfl _ _
                       within := by decide, after := .inl (by decide) }

theorem quarter_member : SeriesIs ext0 tablesSheet 1 1 4 quarterTable.ots quarterTable.grid (quarterSeries c!"B1")
    c!"PBI" [.fin 10, .fin 11, .fin 12] where
  apart := by
    intro coord hm r c hrc
    have : coord = c!"B1" := by simpa [quarterSeries, monthly] using hm
    rw [this, show coordOf c!"B1" = .ok (1, 2) by decide] at hrc
    cases hrc
    show (2 : Int) ≠ 1
    decide
  cells := ⟨1, 2, by decide, .every rfl rfl rfl rfl⟩
  name := by
    have := NameIs.composed (ext := ext0) (sp := quarterSeries c!"B1") (s := tablesSheet) (r := 1) (c := 2)
      (texts := []) (.inl rfl) (by decide) .nil
    rw [show tablesSheet.cells 1 2 = .str c!"PBI " from rfl] at this
    have hs : strip c!"PBI " = c!"PBI" := by decide
    rw [← hs]
    simpa [quarterSeries, monthly, shownAs, ext0] using this
  size := rfl
  ends := .inl rfl

/-- The series of `tablesSheet`. -/
def members : List Member :=
  [⟨quarterSeries c!"B1", quarterTable, c!"PBI", [.fin 10, .fin 11, .fin 12]⟩,
   ⟨monthSeries c!"D1" c!"E1" .vertical none, monthTable c!"D1" .vertical 1 4 2000, c!"IPC", [.fin 1, .fin 2, .fin 3]⟩,
   ⟨monthSeries c!"G1" c!"H1" .vertical none, monthTable c!"G1" .vertical 1 7 2000, c!"M1", [.fin 7, .fin 8, .fin 9]⟩]

/-- Tables side by side. -/
theorem columns_apart {m m' : Member} {r' c' : Int} (hv : m.table.al = .vertical) (hv' : m'.table.al = .vertical)
    (hcomp : m'.sp.composedHeaders = none) (hc' : coordOf m'.sp.headerCoord = .ok (r', c'))
    (h1 : m.table.tc ≠ m'.table.tc) (h2 : m.table.tc ≠ c') : ∀ r c, m.table.Dated r c → ¬ m'.UsesCell r c := by
  rintro r c ⟨i, d, _, hat⟩
  have hc : c = m.table.tc := by
    rw [hv] at hat
    have := hat.2
    simpa [colOf] using this
  rintro (⟨pos, _, _, h⟩ | ⟨coord, hm, h⟩ | ⟨hr, hcc, pos, h0, _, _, h⟩)
  · rw [hv'] at h
    exact h1 (hc.symm.trans (by simpa [colOf] using h.2))
  · rw [hcomp] at hm
    simp only [Option.getD_none, List.mem_singleton] at hm
    rw [hm, hc'] at h
    cases h
    exact h2 hc.symm
  · rw [hc'] at h0
    cases h0
    rw [hv'] at h
    exact h2 (hc.symm.trans (by simpa [colOf] using h.2))

/-- Tables one below the other. -/
theorem rows_apart {m m' : Member} {r' c' : Int} (hv : m.table.al = .horizontal) (hv' : m'.table.al = .horizontal)
    (hcomp : m'.sp.composedHeaders = none) (hc' : coordOf m'.sp.headerCoord = .ok (r', c'))
    (h1 : m.table.tr ≠ m'.table.tr) (h2 : m.table.tr ≠ r') : ∀ r c, m.table.Dated r c → ¬ m'.UsesCell r c := by
  rintro r c ⟨i, d, _, hat⟩
  have hc : r = m.table.tr := by
    rw [hv] at hat
    have := hat.1
    simpa [rowOf] using this
  rintro (⟨pos, _, _, h⟩ | ⟨coord, hm, h⟩ | ⟨hr, hcc, pos, h0, _, _, h⟩)
  · rw [hv'] at h
    exact h1 (hc.symm.trans (by simpa [rowOf] using h.1))
  · rw [hcomp] at hm
    simp only [Option.getD_none, List.mem_singleton] at hm
    rw [hm, hc'] at h
    cases h
    exact h2 hc.symm
  · rw [hc'] at h0
    cases h0
    rw [hv'] at h
    exact h2 (hc.symm.trans (by simpa [rowOf] using h.1))

/-- The conditions for a list of three with different tables. -/
theorem tablesOn_three {ext : Ext} {s : Sheet} {a b c : Member}
    (hd : a.table.header ≠ b.table.header ∧ a.table.header ≠ c.table.header ∧ b.table.header ≠ c.table.header)
    (hb : ∀ m ∈ [a, b, c], BelongsTo m.sp m.table)
    (hi : ∀ m ∈ [a, b, c], TimeTable ext m.sp s m.table.style m.table.tr m.table.tc m.table.last m.table.ots ∧
      OnPeriods m.sp m.table.grid (m.table.ots.filterMap id))
    (hs : ∀ m ∈ [a, b, c], SeriesIs ext s m.table.tr m.table.tc m.table.last m.table.ots m.table.grid m.sp m.name m.values)
    (hap : ∀ m ∈ [a, b, c], ∀ m' ∈ [a, b, c], m.table ≠ m'.table → ∀ r c, m.table.Dated r c → ¬ m'.UsesCell r c) :
    TablesOn ext s [a, b, c] where
  belong := hb
  oneHeader := by
    obtain ⟨h1, h2, h3⟩ := hd
    intro m hm m' hm' e
    simp only [List.mem_cons, List.not_mem_nil, or_false] at hm hm'
    rcases hm with rfl | rfl | rfl <;> rcases hm' with rfl | rfl | rfl <;>
      first | rfl | exact absurd e ‹_› | exact absurd e.symm ‹_›
  index := fun pre m post h _ => hi m (by rw [h]; simp)
  series := hs
  apart := hap

theorem members_on : TablesOn ext0 tablesSheet members := by
  refine tablesOn_three (by decide) ?_ ?_ ?_ ?_
  · intro m hm
    simp only [List.mem_cons, List.not_mem_nil, or_false] at hm
    rcases hm with rfl | rfl | rfl <;> exact ⟨rfl, rfl, rfl, rfl, rfl, rfl⟩
  · intro m hm
    simp only [List.mem_cons, List.not_mem_nil, or_false] at hm
    rcases hm with rfl | rfl | rfl
    · exact ⟨quarter_column, quarter_periods⟩
    · exact ⟨month_time (by decide) (.inl rfl) (by decide +kernel) (by decide), month_periods (.inl rfl)⟩
    · exact ⟨month_time (by decide) (.inl rfl) (by decide +kernel) (by decide), month_periods (.inl rfl)⟩
  · intro m hm
    simp only [List.mem_cons, List.not_mem_nil, or_false] at hm
    rcases hm with rfl | rfl | rfl
    · exact quarter_member
    · exact month_series (hr := 1) (hc := 5) (by decide) (by decide) (.inl rfl) (text := c!"IPC") (by decide) (by decide) rfl rfl
    · exact month_series (hr := 1) (hc := 8) (by decide) (by decide) (.inl rfl) (text := c!"M1") (by decide) (by decide) rfl rfl
  · intro m hm m' hm' hne
    simp only [List.mem_cons, List.not_mem_nil, or_false] at hm hm'
    rcases hm with rfl | rfl | rfl <;> rcases hm' with rfl | rfl | rfl
    · exact absurd rfl hne
    · exact columns_apart (r' := 1) (c' := 5) rfl rfl rfl (by decide) (by decide) (by decide)
    · exact columns_apart (r' := 1) (c' := 8) rfl rfl rfl (by decide) (by decide) (by decide)
    · exact columns_apart (r' := 1) (c' := 2) rfl rfl rfl (by decide) (by decide) (by decide)
    · exact absurd rfl hne
    · exact columns_apart (r' := 1) (c' := 8) rfl rfl rfl (by decide) (by decide) (by decide)
    · exact columns_apart (r' := 1) (c' := 2) rfl rfl rfl (by decide) (by decide) (by decide)
    · exact columns_apart (r' := 1) (c' := 5) rfl rfl rfl (by decide) (by decide) (by decide)
    · exact absurd rfl hne

/-- The same months in rows. -/
def rowsSheet : Sheet := rows
  [[.str c!"mes", .dt ⟨2000, 1, 1, 0⟩, .dt ⟨2000, 2, 1, 0⟩, .dt ⟨2000, 3, 1, 0⟩],
   [.str c!"IPC", .int 1, .int 2, .int 3],
   [.str c!"EMAE", .int 4, .int 5, .int 6],
   [.str c!"mes", .dt ⟨2001, 1, 1, 0⟩, .dt ⟨2001, 2, 1, 0⟩, .dt ⟨2001, 3, 1, 0⟩],
   [.str c!"PBI", .int 7, .int 8, .int 9]]

/-- The series of `rowsSheet`. -/
def rowMembers (e0 e1 : Option Int) : List Member :=
  [⟨monthSeries c!"A1" c!"A2" .horizontal e0, monthTable c!"A1" .horizontal 1 1 2000, c!"IPC", [.fin 1, .fin 2, .fin 3]⟩,
   ⟨monthSeries c!"A1" c!"A3" .horizontal e0, monthTable c!"A1" .horizontal 1 1 2000, c!"EMAE", [.fin 4, .fin 5, .fin 6]⟩,
   ⟨monthSeries c!"A4" c!"A5" .horizontal e1, monthTable c!"A4" .horizontal 4 1 2001, c!"PBI", [.fin 7, .fin 8, .fin 9]⟩]

theorem rowMembers_on {e0 e1 : Option Int} (he0 : e0 = none ∨ e0 = some 4) (he1 : e1 = none ∨ e1 = some 4) :
    TablesOn ext0 rowsSheet (rowMembers e0 e1) := by
  rcases he0 with rfl | rfl <;> rcases he1 with rfl | rfl <;> exact {
    belong := by
      intro m hm
      simp only [rowMembers, List.mem_cons, List.not_mem_nil, or_false] at hm
      rcases hm with rfl | rfl | rfl <;> exact ⟨rfl, rfl, rfl, rfl, rfl, rfl⟩
    oneHeader := by
      intro m hm m' hm' e
      simp only [rowMembers, List.mem_cons, List.not_mem_nil, or_false] at hm hm'
      rcases hm with rfl | rfl | rfl <;> rcases hm' with rfl | rfl | rfl <;> first | rfl | exact absurd e (by decide)
    index := by
      intro pre m post h _
      have hm := h ▸ List.mem_append_right pre (List.mem_cons_self (a := m) (l := post))
      simp only [rowMembers, List.mem_cons, List.not_mem_nil, or_false] at hm
      rcases hm with rfl | rfl | rfl
      · exact ⟨month_time (by decide) (.inr rfl) rfl (by decide), month_periods (.inl rfl)⟩
      · exact ⟨month_time (by decide) (.inr rfl) rfl (by decide), month_periods (.inl rfl)⟩
      · exact ⟨month_time (by decide) (.inr rfl) rfl (by decide), month_periods (.inr rfl)⟩
    series := by
      intro m hm
      simp only [rowMembers, List.mem_cons, List.not_mem_nil, or_false] at hm
      rcases hm with rfl | rfl | rfl
      · exact month_series (hr := 2) (hc := 1) (by decide) (by decide) (by decide) (text := c!"IPC") (by decide) (by decide) rfl rfl
      · exact month_series (hr := 3) (hc := 1) (by decide) (by decide) (by decide) (text := c!"EMAE") (by decide) (by decide) rfl rfl
      · exact month_series (hr := 5) (hc := 1) (by decide) (by decide) (by decide) (text := c!"PBI") (by decide) (by decide) rfl rfl
    apart := by
      intro m hm m' hm' hne
      simp only [rowMembers, List.mem_cons, List.not_mem_nil, or_false] at hm hm'
      rcases hm with rfl | rfl | rfl <;> rcases hm' with rfl | rfl | rfl
      · exact absurd rfl hne
      · exact absurd rfl hne
      · exact rows_apart (r' := 5) (c' := 1) rfl rfl rfl (by decide) (by decide) (by decide)
      · exact absurd rfl hne
      · exact absurd rfl hne
      · exact rows_apart (r' := 5) (c' := 1) rfl rfl rfl (by decide) (by decide) (by decide)
      · exact rows_apart (r' := 2) (c' := 1) rfl rfl rfl (by decide) (by decide) (by decide)
      · exact rows_apart (r' := 3) (c' := 1) rfl rfl rfl (by decide) (by decide) (by decide)
      · exact absurd rfl hne }

theorem rowsSheet_wellFormed : WellFormed rowsSheet := rows_wellFormed (by decide) (by decide) (by decide)

end Sample

/-- Three tables side by side, two of them with the same months: two data frames. -/
example : ∃ frames p' s', scrape Sample.ext0 (Sample.paramsOf (Sample.members.map Member.sp)) Sample.tablesSheet =
      (.ok frames, p', s') ∧ FramesOfTables Sample.members frames ∧
      frames.map (fun f => (f.freq, f.data)) =
        [(c!"QS-JAN", [[.fin 10, .fin 11, .fin 12]]), (c!"MS", [[.fin 1, .fin 2, .fin 3], [.fin 7, .fin 8, .fin 9]])] := by
  obtain ⟨frames, p', s', h, hf, _, _⟩ := scrape_tables Sample.members_on (by decide)
    (fun m hm => by
      simp only [Sample.members, List.mem_cons, List.not_mem_nil, or_false] at hm
      rcases hm with rfl | rfl | rfl <;> exact .inl rfl)
    (fun r c hr => (Sample.rows_wellFormed (vs := _) (by decide) (by decide) (by decide)).outside r c (fun hx => by
      have : Sample.tablesSheet.maxRow < r := hr
      exact absurd hx.2.1 (Int.not_le.2 this))) (p := Sample.paramsOf (Sample.members.map Member.sp)) (fun _ => rfl)
  refine ⟨frames, p', s', h, hf, ?_⟩
  have h2 : ((scrape Sample.ext0 (Sample.paramsOf (Sample.members.map Member.sp)) Sample.tablesSheet).1.toOption.getD []).map
      (fun f => (f.freq, f.data)) =
        [(c!"QS-JAN", [[.fin 10, .fin 11, .fin 12]]), (c!"MS", [[.fin 1, .fin 2, .fin 3], [.fin 7, .fin 8, .fin 9]])] := by
    decide +kernel
  rw [h] at h2
  exact h2

/-- Two tables in rows, the end of the second given: as for columns. -/
example : ∃ frames p' s', scrape Sample.ext0 (Sample.paramsOf ((Sample.rowMembers (some 4) (some 4)).map Member.sp))
      Sample.rowsSheet = (.ok frames, p', s') ∧ FramesOfTables (Sample.rowMembers (some 4) (some 4)) frames := by
  obtain ⟨frames, p', s', h, hf, _, _⟩ := scrape_tables (Sample.rowMembers_on (.inr rfl) (.inr rfl)) (by simp [Sample.rowMembers])
    (fun m hm => by
      simp only [Sample.rowMembers, List.mem_cons, List.not_mem_nil, or_false] at hm
      rcases hm with rfl | rfl | rfl <;> exact .inr ⟨by simp [Sample.monthSeries], by simp [Sample.monthSeries]⟩)
    (fun r c hr => Sample.rowsSheet_wellFormed.outside r c fun hx => by omega)
    (p := Sample.paramsOf ((Sample.rowMembers (some 4) (some 4)).map Member.sp)) (fun _ => rfl)
  exact ⟨frames, p', s', h, hf⟩

/-- The end of the second not given: no data frame, although each table alone gives one. -/
example (e0 : Option Int) (he0 : e0 = none ∨ e0 = some 4) :
    (scrape Sample.ext0 (Sample.paramsOf ((Sample.rowMembers e0 none).map Member.sp)) Sample.rowsSheet).1 =
      .error .typeError :=
  C103_rows_violated (Sample.rowMembers_on he0 (.inl rfl)) (mid := [_]) (post := []) rfl
    (by intro m hm; rw [List.mem_singleton.1 hm]) (by
      show Sample.monthTable c!"A4" .horizontal 4 1 2001 ≠ Sample.monthTable c!"A1" .horizontal 1 1 2000
      intro h
      cases congrArg DateTable.tr h) rfl rfl rfl (fun h => h.1 rfl)
    Sample.rowsSheet_wellFormed (fun _ => rfl)

/-- An index of three months in a row with two blank columns after it. -/
example : (cleanTimeIndex Sample.ext0 (Sample.monthSeries c!"A1" c!"A2" .horizontal none)
    (Sample.rowsSheet.touch 1 6)).1 = .error .typeError :=
  (C14_rows_violated (ext := Sample.ext0) (sp := Sample.monthSeries c!"A1" c!"A2" .horizontal none)
    (s := Sample.rowsSheet.touch 1 6) (style := .dates) (tr := 1) (tc := 1) (last := 4)
    (Sample.month_time (y := 2000) (ends := some 4) (by decide) (.inr rfl) rfl (by decide))
    (Sample.month_periods (.inl rfl)) (by decide) (by
      intro pos h1 h2 h3
      have h2 : pos ≤ 6 := h2
      have : pos = 5 ∨ pos = 6 := by omega
      rcases this with rfl | rfl <;> trivial)).2.2 rfl

/-- Each of the two tables alone. -/
example :
    (scrape Sample.ext0 (Sample.paramsOf (((Sample.rowMembers none none).take 2).map Member.sp)) Sample.rowsSheet).1 =
      .ok [⟨c!"MS", [⟨2000, 1, 1, 0⟩, ⟨2000, 2, 1, 0⟩, ⟨2000, 3, 1, 0⟩], [c!"IPC", c!"EMAE"],
        [[.fin 1, .fin 2, .fin 3], [.fin 4, .fin 5, .fin 6]]⟩] ∧
    (scrape Sample.ext0 (Sample.paramsOf (((Sample.rowMembers none none).drop 2).map Member.sp)) Sample.rowsSheet).1 =
      .ok [⟨c!"MS", [⟨2001, 1, 1, 0⟩, ⟨2001, 2, 1, 0⟩, ⟨2001, 3, 1, 0⟩], [c!"PBI"], [[.fin 7, .fin 8, .fin 9]]⟩] := by
  decide +kernel

end Xls
