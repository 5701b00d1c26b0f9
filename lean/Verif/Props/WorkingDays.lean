/-
C87: tables with other numbers of values than periods, such as daily tables that leave days out.
-/
import Verif.Spec.WorkingDays
import Verif.Props.Tables
import Verif.Props.Result

set_option autoImplicit false

namespace Xls

open Spec

theorem indexFreq_D {freq : Str} (h : freq ∈ [c!"A", c!"Q", c!"M", c!"W", c!"D"] ∨ freq = c!"S") :
    indexFreq freq = c!"D" ↔ freq = c!"D" := by
  simp only [List.mem_cons, List.not_mem_nil, or_false] at h
  rcases h with (rfl | rfl | rfl | rfl | rfl) | rfl <;> decide

/-- C87, the part that holds. A daily table that leaves days out: if the days in it are those `pandas` takes
for the working days between the first and the last, and each series has one value for each day, the call
returns one data frame with these days and, under them, these values. Missing: tables that leave out other
days (`C87_other_days_violated`) and tables whose parameters do not allow for missing values
(`C87_moved_violated`). -/
theorem C87_working_days_partial (ext : Ext) (wb : List Nat) (w : World) (given : Given) (name : Str)
    (safe preserve : Bool) (r : Nat) {p : Params} {sps : List SParams} {sp : SParams} {timeHeader : TimeHeader}
    {start : Int} {al : Align} {style : Style} {tr tc last : Int} {ots : List (Option Time)}
    {grid : List Time} {series : List (Str × List Num)} {a z : Time} (hreq : Requested ext wb w name r)
    (hwb : ∀ q ∈ wb, q < w.nextSheet ∧ WellFormed (w.sheets q))
    (hgiven : (∃ pr, given = .object pr ∧ w.params pr = p) ∨ (∃ x, given = .other x ∧ Params.new x = .ok p))
    (hp : HasSeries p sps) (h0 : sps.head? = some sp) (hsame : SameIndex sps timeHeader c!"D" start 0 al)
    (ht : TimeTable ext sp (w.sheets r) style tr tc last ots) (hg : OnPeriods sp grid (ots.filterMap id))
    (hser : List.Forall₂ (fun sp nv => SeriesOn ext (w.sheets r) tr tc last ots grid sp nv.1 nv.2) sps series)
    (hsize : ∀ nv ∈ series, nv.2.length = (ots.filterMap id).length)
    (hleft : ots.filterMap id ≠ grid) (ha : grid.head? = some a) (hz : grid.getLast? = some z)
    (hdays : ext.businessDays a z = ots.filterMap id) :
    ∃ columns pr w', getDataFrames ext wb given name safe preserve w =
        (.ok (.dfs (.one ⟨c!"B", ots.filterMap id, columns, series.map Prod.snd⟩), (w.sheets r).title, pr), w') ∧
      ColumnsOf (series.map Prod.fst) columns := by
  have hne : series ≠ [] := forall₂_nonempty hser (by rintro rfl; cases h0)
  have hpos : 0 < (ots.filterMap id).length := by
    obtain ⟨x, hx⟩ := ht.first
    exact List.length_pos_of_mem (List.mem_filterMap.2 ⟨some x, List.mem_of_head? hx, rfl⟩)
  obtain ⟨a', z', p', s', e1, e2, e3, _, _⟩ := scrape_table_any hp h0 hsame ht hg (nvs := series)
    (forall₂_of_get hser.length_eq fun i sp nv h1 h2 => by
      obtain ⟨hi1, rfl⟩ := List.getElem?_eq_some_iff.1 h1
      obtain ⟨hi2, rfl⟩ := List.getElem?_eq_some_iff.1 h2
      refine ⟨hser.get hi1 hi2, fun he => ?_⟩
      have := hsize _ (List.getElem_mem hi2)
      rw [he] at this
      rw [← this] at hpos
      exact Nat.lt_irrefl _ hpos)
  rw [ha] at e1
  rw [hz] at e2
  cases e1
  cases e2
  have hlt : (ots.filterMap id).length ≠ grid.length := fun h => hleft (hg.sub.eq_of_length h)
  have hfr : frameOf ext (tableBucket c!"D" grid a z series) =
      .ok ⟨c!"B", ots.filterMap id, addNames [] (series.map Prod.fst), series.map Prod.snd⟩ := by
    unfold frameOf tableBucket
    dsimp only
    rw [mkFrame_refused _ _ fun h => by
      cases series with
      | nil => exact hne rfl
      | cons nv rest => exact hlt ((hsize nv (by simp)).symm.trans (h nv (by simp)))]
    dsimp only
    rw [if_pos (by decide), hdays, mkFrame_table _ _ hne hsize]
  rw [framesOf_of (.cons hfr .nil)] at e3
  obtain ⟨pr, w', e⟩ := call_complete ext wb w given name safe preserve r hreq hwb hgiven
    (complete_series hp (by rintro rfl; cases h0)) e3
  exact ⟨_, pr, w', e, table_columns series⟩

/-- C87. If some series has neither as many values as there are periods between the first and the last date
nor, for days, as many as there are working days, the call raises `ValueError`: values are never spread over
an index of another size. -/
theorem C87_refused (ext : Ext) (wb : List Nat) (w : World) (given : Given) (name : Str)
    (safe preserve : Bool) (r : Nat) {p : Params} {sps : List SParams} {sp : SParams} {timeHeader : TimeHeader} {freq : Str}
    {start : Int} {al : Align} {style : Style} {tr tc last : Int} {ots : List (Option Time)}
    {grid : List Time} {series : List (Str × List Num)} {a z : Time} (hreq : Requested ext wb w name r)
    (hwb : ∀ q ∈ wb, q < w.nextSheet ∧ WellFormed (w.sheets q))
    (hgiven : (∃ pr, given = .object pr ∧ w.params pr = p) ∨ (∃ x, given = .other x ∧ Params.new x = .ok p))
    (hp : HasSeries p sps) (h0 : sps.head? = some sp) (hsame : SameIndex sps timeHeader freq start 0 al)
    (ht : TimeTable ext sp (w.sheets r) style tr tc last ots) (hg : OnPeriods sp grid (ots.filterMap id))
    (hser : List.Forall₂ (fun sp nv => SeriesOn ext (w.sheets r) tr tc last ots grid sp nv.1 nv.2 ∧ nv.2 ≠ [])
      sps series) (ha : grid.head? = some a) (hz : grid.getLast? = some z)
    (hperiods : ∃ nv ∈ series, nv.2.length ≠ grid.length)
    (hdays : freq = c!"D" → ∃ nv ∈ series, nv.2.length ≠ (ext.businessDays a z).length) :
    ∃ w', getDataFrames ext wb given name safe preserve w = (.error .valueError, w') := by
  obtain ⟨a', z', p', s', e1, e2, e3, _, _⟩ := scrape_table_any hp h0 hsame ht hg (nvs := series) hser
  rw [ha] at e1
  rw [hz] at e2
  cases e1
  cases e2
  have hfr : frameOf ext (tableBucket freq grid a z series) = .error .valueError := by
    unfold frameOf tableBucket
    dsimp only
    obtain ⟨nv, hm, hn⟩ := hperiods
    rw [mkFrame_refused _ _ fun h => hn (h nv hm)]
    dsimp only
    split
    next hf =>
      have hfreq : freq = c!"D" := by
        have hfe := hsame.frequency sp (List.mem_of_head? h0)
        have hf5 := hg.frequency
        rw [hfe] at hf5
        exact (indexFreq_D (hf5.imp id And.left)).1 hf
      obtain ⟨nv', hm', hn'⟩ := hdays hfreq
      rw [mkFrame_refused _ _ fun h => hn' (h nv' hm')]
    · rfl
  have he : framesOf ext [tableBucket freq grid a z series] = .error .valueError := by
    unfold framesOf
    rw [hfr]
  rw [he] at e3
  obtain ⟨pr, w', e⟩ := call_result ext wb w given name safe preserve r hreq hwb hgiven
    (complete_series hp (by rintro rfl; cases h0)) e3
  exact ⟨w', e⟩

namespace Sample

/-- A daily series that may have missing values, marked. -/
def weekSeries (header : Str) : SParams :=
  { monthly with
    headerCoord := header, frequency := c!"D", missings := true, missingValue := .list [.str c!"..."] }

/-- The libraries of the examples, with any working days. -/
def extDays (days : Time → Time → List Time) : Ext := { ext0 with businessDays := days }

/-- Thursday, Friday, Monday and Tuesday. -/
def weekDays : List Time := [⟨2018, 1, 4, 0⟩, ⟨2018, 1, 5, 0⟩, ⟨2018, 1, 8, 0⟩, ⟨2018, 1, 9, 0⟩]

/-- All days from the first to the last. -/
def weekGrid : List Time :=
  [⟨2018, 1, 4, 0⟩, ⟨2018, 1, 5, 0⟩, ⟨2018, 1, 6, 0⟩, ⟨2018, 1, 7, 0⟩, ⟨2018, 1, 8, 0⟩, ⟨2018, 1, 9, 0⟩]

theorem week_table (days : Time → Time → List Time) : TimeTable (extDays days) (weekSeries c!"B1") weekSheet .dates 1 1 5 (weekDays.map some) where
  header := .single (coord := c!"A1") rfl rfl (by decide)
  plain := fun _ _ _ => plainAt_single (coord := c!"A1") rfl _ _
  fits := rfl
  starts := by decide
  two := by decide
  aligned := .inl rfl
  offset := rfl
  reads := .date .date (fun h => h) (.date .date (fun h => h) (.date .date (fun h => h)
    (.date .date (fun h => h) .nil)))
  first := ⟨_, rfl⟩
  ends := ⟨_, rfl⟩
  gaps := by intro h; simp [weekDays] at h
  shortGaps := by
    intro i h
    have := h 0 (by decide)
    rcases i with _ | _ | _ | _ | i <;> simp [weekDays] at this
  within := by decide
  after := .inl (by decide)

theorem next_day {a b : Time} (h : instant b = instant a + usPerDay) :
    ∃ sh, periodShift c!"D" = some sh ∧ IsShifted a 1 b sh := ⟨_, rfl, h⟩

theorem week_periods : OnPeriods (weekSeries c!"B1") weekGrid ((weekDays.map some).filterMap id) where
  frequency := .inl (by decide)
  valid := by decide
  representable := by decide
  start := by intro a h; cases h; trivial
  run := ⟨next_day (by decide +kernel), next_day (by decide +kernel), next_day (by decide +kernel),
    next_day (by decide +kernel), next_day (by decide +kernel), trivial⟩
  sub := by decide
  first := rfl
  last := rfl
  complete := fun h => by cases h
  marker := trivial

theorem week_series (days : Time → Time → List Time) (col : Str) (hc : Int) (hcol : coordOf col = .ok (1, hc)) (hne : hc ≠ 1) (name : Str)
    (xs : List Num) (hcell : weekSheet.cells 1 hc = .str name) (hname : strip name = name)
    (hxs : (cellsAlong weekSheet .vertical 1 hc 2 5).map (valueOf (extDays days) [.str c!"..."]) = xs.map some) :
    SeriesOn (extDays days) weekSheet 1 1 5 (weekDays.map some) weekGrid (weekSeries col) name xs where
  apart := by
    intro coord hm r c hrc
    have : coord = col := by simpa [weekSeries, monthly] using hm
    rw [this, hcol] at hrc
    cases hrc
    exact hne
  cells := ⟨1, hc, hcol, .marked (markers := [.str c!"..."]) rfl rfl rfl rfl (by simp) hxs⟩
  name := by
    have := NameIs.composed (ext := extDays days) (sp := weekSeries col) (s := weekSheet) (r := 1) (c := hc)
      (texts := []) (.inl rfl) hcol .nil
    rw [hcell] at this
    rw [← hname]
    simpa [weekSeries, monthly, shownAs, extDays, ext0] using this
  ends := .inl rfl

theorem week_requested (days : Time → Time → List Time) (p : Params) : Requested (extDays days) [0] (world weekSheet p) [] 0 :=
  ⟨by simp, by simp, .inl ⟨rfl, rfl⟩⟩

theorem week_book (p : Params) : ∀ q ∈ [0], q < (world weekSheet p).nextSheet ∧
    WellFormed ((world weekSheet p).sheets q) := by
  intro q hq
  simp only [List.mem_cons, List.not_mem_nil, or_false] at hq
  subst hq
  exact ⟨Nat.zero_lt_one, rows_wellFormed (by decide) (by decide) (by decide)⟩

end Sample

/-- Two series of four working days. -/
example : ∃ columns pr w',
    getDataFrames Sample.extWeek [0] (.object 0) [] false true
      (Sample.world Sample.weekSheet (Sample.paramsOf [Sample.weekSeries c!"B1", Sample.weekSeries c!"C1"])) =
      (.ok (.dfs (.one ⟨c!"B", Sample.weekDays, columns,
        [[.fin 10, .fin 11, .fin 12, .fin 13], [.fin 5, .fin 3, .fin 4, .fin 2]]⟩), c!"S", pr), w') ∧
    ColumnsOf [c!"PBI", c!"IPC"] columns :=
  C87_working_days_partial Sample.extWeek [0] _ (.object 0) [] false true 0
    (sps := [Sample.weekSeries c!"B1", Sample.weekSeries c!"C1"]) (timeHeader := .single c!"A1") (start := 2) (al := .vertical)
    (series := [(c!"PBI", [.fin 10, .fin 11, .fin 12, .fin 13]), (c!"IPC", [.fin 5, .fin 3, .fin 4, .fin 2])])
    (Sample.week_requested _ _) (Sample.week_book _) (.inl ⟨0, rfl, rfl⟩) (fun _ => rfl) rfl
    (.ofSingle (by decide) (by decide) (by decide) (by decide) (by decide) (by decide)) (Sample.week_table _) Sample.week_periods
    (.cons (Sample.week_series _ _ 2 (by decide) (by decide) _ _ rfl (by decide) rfl)
      (.cons (Sample.week_series _ _ 3 (by decide) (by decide) _ _ rfl (by decide) rfl) .nil))
    (by decide) (by decide) rfl rfl (by decide)

/-- The same days if all days were working days: an error. -/
example : ∃ w', getDataFrames (Sample.extDays fun _ _ => Sample.weekGrid) [0] (.object 0) [] false true
      (Sample.world Sample.weekSheet (Sample.paramsOf [Sample.weekSeries c!"B1", Sample.weekSeries c!"C1"])) =
      (.error .valueError, w') :=
  C87_refused _ [0] _ (.object 0) [] false true 0
    (sps := [Sample.weekSeries c!"B1", Sample.weekSeries c!"C1"]) (timeHeader := .single c!"A1") (freq := c!"D") (start := 2)
    (al := .vertical)
    (series := [(c!"PBI", [.fin 10, .fin 11, .fin 12, .fin 13]), (c!"IPC", [.fin 5, .fin 3, .fin 4, .fin 2])])
    (Sample.week_requested _ _) (Sample.week_book _) (.inl ⟨0, rfl, rfl⟩) (fun _ => rfl) rfl
    (.ofSingle (by decide) (by decide) (by decide) (by decide) (by decide) (by decide)) (Sample.week_table _) Sample.week_periods
    (.cons ⟨Sample.week_series _ _ 2 (by decide) (by decide) _ _ rfl (by decide) rfl, by simp⟩
      (.cons ⟨Sample.week_series _ _ 3 (by decide) (by decide) _ _ rfl (by decide) rfl, by simp⟩ .nil))
    rfl rfl ⟨_, List.mem_cons_self, by decide⟩ (fun _ => ⟨_, List.mem_cons_self, by decide⟩)

/-! ### Where the dates are not kept -/

/-- What one would like to hold of a table of days in column A and numbers in columns B and C, from row 2 on:
if a data frame is returned, the numbers stand under their dates. -/
def Spec.DatesKept (ext : Ext) (p : Params) : Prop :=
  ∀ (s : Sheet) (last : Int) (f : Frame) (nm : Str) (pr : Nat), WellFormed s → 2 < last → last = s.maxRow →
    DaysDown s 1 2 last →
    (getDataFrames ext [0] (.object 0) [] false true (Sample.world s p)).1 = .ok (.dfs (.one f), nm, pr) →
    UnderOwnDates s 1 2 2 last 0 f ∧ UnderOwnDates s 1 3 2 last 1 f

theorem Sample.days_down {s : Sheet} {d1 d2 d3 d4 : Time} (h1 : s.cells 2 1 = .dt d1) (h2 : s.cells 3 1 = .dt d2)
    (h3 : s.cells 4 1 = .dt d3) (h4 : s.cells 5 1 = .dt d4)
    (hv : ∀ d ∈ [d1, d2, d3, d4], ValidTime d ∧ d.us = 0) (hlt : d1 < d2 ∧ d2 < d3 ∧ d3 < d4) :
    DaysDown s 1 2 5 := by
  constructor
  · intro row hr1 hr2
    have : row = 2 ∨ row = 3 ∨ row = 4 ∨ row = 5 := by omega
    rcases this with rfl | rfl | rfl | rfl
    · exact ⟨d1, h1, hv d1 (by simp)⟩
    · exact ⟨d2, h2, hv d2 (by simp)⟩
    · exact ⟨d3, h3, hv d3 (by simp)⟩
    · exact ⟨d4, h4, hv d4 (by simp)⟩
  · intro row hr1 hr2 t t' e e'
    have : row = 2 ∨ row = 3 ∨ row = 4 := by omega
    rcases this with rfl | rfl | rfl
    · rw [h1] at e; rw [show (2 : Int) + 1 = 3 from rfl, h2] at e'; cases e; cases e'; exact hlt.1
    · rw [h2] at e; rw [show (3 : Int) + 1 = 4 from rfl, h3] at e'; cases e; cases e'; exact hlt.2.1
    · rw [h3] at e; rw [show (4 : Int) + 1 = 5 from rfl, h4] at e'; cases e; cases e'; exact hlt.2.2

/-- C87, violated: without missing values declared, a Monday after a Friday is taken for a mistake and becomes
the Saturday; its value comes under the Saturday. -/
theorem C87_moved_violated : ¬ DatesKept Sample.extWeek (Sample.weekTable false) := by
  intro h
  have h1 := (h Sample.weekSheet 5
    ⟨c!"D", [⟨2018, 1, 4, 0⟩, ⟨2018, 1, 5, 0⟩, ⟨2018, 1, 6, 0⟩, ⟨2018, 1, 7, 0⟩],
      [c!"PBI", c!"IPC"], [[.fin 10, .fin 11, .fin 12, .fin 13], [.fin 5, .fin 3, .fin 4, .fin 2]]⟩ c!"S" 0
    (Sample.rows_wellFormed (by decide) (by decide) (by decide)) (by decide) (by decide)
    (Sample.days_down (d1 := ⟨2018, 1, 4, 0⟩) (d2 := ⟨2018, 1, 5, 0⟩) (d3 := ⟨2018, 1, 8, 0⟩)
      (d4 := ⟨2018, 1, 9, 0⟩) rfl rfl rfl rfl (by decide) (by decide)) (by decide +kernel)).1
  obtain ⟨j, col, hj, _, _⟩ := h1 4 (by decide) (by decide) ⟨2018, 1, 8, 0⟩ 12 rfl rfl
  rcases j with _ | _ | _ | _ | j <;> simp at hj

/-- Thursday, Friday, Saturday and Tuesday. -/
def Sample.openSheet : Sheet := Sample.rows
  [[.str c!"fecha", .str c!"PBI", .str c!"IPC"],
   [Sample.day 2018 1 4, .int 10, .int 5],
   [Sample.day 2018 1 5, .int 11, .int 3],
   [Sample.day 2018 1 6, .int 12, .int 4],
   [Sample.day 2018 1 9, .int 13, .int 2]]

/-- C87, violated: with missing values declared, days other than the working days come out as working days if
they are equally many: the value of the Saturday comes under the Monday. -/
theorem C87_other_days_violated : ¬ DatesKept Sample.extWeek (Sample.weekTable true) := by
  intro h
  have h1 := (h Sample.openSheet 5
    ⟨c!"B", [⟨2018, 1, 4, 0⟩, ⟨2018, 1, 5, 0⟩, ⟨2018, 1, 8, 0⟩, ⟨2018, 1, 9, 0⟩],
      [c!"PBI", c!"IPC"], [[.fin 10, .fin 11, .fin 12, .fin 13], [.fin 5, .fin 3, .fin 4, .fin 2]]⟩ c!"S" 0
    (Sample.rows_wellFormed (by decide) (by decide) (by decide)) (by decide) (by decide)
    (Sample.days_down (d1 := ⟨2018, 1, 4, 0⟩) (d2 := ⟨2018, 1, 5, 0⟩) (d3 := ⟨2018, 1, 6, 0⟩)
      (d4 := ⟨2018, 1, 9, 0⟩) rfl rfl rfl rfl (by decide) (by decide)) (by decide +kernel)).1
  obtain ⟨j, col, hj, _, _⟩ := h1 4 (by decide) (by decide) ⟨2018, 1, 6, 0⟩ 12 rfl rfl
  rcases j with _ | _ | _ | _ | j <;> simp at hj

end Xls
