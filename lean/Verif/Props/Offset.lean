/-
C97: series whose dates stand one position before or after their values.
-/
import Verif.Lemmas.InTurn
import Verif.Props.Tables

set_option autoImplicit false

namespace Xls

open Spec

/-- C97, for series that are not to be filled up where a date is left out. The series of a worksheet have one
time index of date cells, in a column or a row, and `time_alignment` says where the date of a value stands:
beside it (0), one position before it (-1) or after it (1). Cleaning and extraction give one data frame. Its
index is the grid of periods of these dates, its columns are the series with their names and the values that
have a date. No cell of the worksheet changes. -/
theorem C97_offset_partial {ext : Ext} {p : Params} {s : Sheet} {sps : List SParams} {sp : SParams}
    {timeHeader : TimeHeader} {start ta : Int} {al : Align} {freq : Str} {tr tc last : Int} {grid : List Time}
    {series : List (Str × List Num)} (hp : HasSeries p sps) (h0 : sps.head? = some sp)
    (hsame : SameIndex sps timeHeader freq start ta al) (ht : OffsetIndex sp s tr tc last)
    (hg : OnPeriods sp grid ((datesOf sp s tr tc last).filterMap id))
    (hser : List.Forall₂ (fun sp nv => OffsetSeries ext s tr tc last grid sp nv.1 nv.2) sps series) :
    ∃ columns p' s', scrape ext p s =
        (.ok [⟨indexFreq freq, grid, columns, series.map Prod.snd⟩], p', s') ∧
      ColumnsOf (series.map Prod.fst) columns ∧ s'.cells = s.cells := by
  obtain ⟨cols, p', s', h1, h2, _, h4⟩ := scrape_offset hp h0 hsame ht hg hser
  exact ⟨cols, p', s', h1, h2, h4⟩

/-- C97, the same through the entry point. -/
theorem C97_call_partial (ext : Ext) (wb : List Nat) (w : World) (given : Given) (name : Str) (safe preserve : Bool)
    (r : Nat) {p : Params} {sps : List SParams} {sp : SParams} {timeHeader : TimeHeader} {start ta : Int} {al : Align}
    {freq : Str} {tr tc last : Int} {grid : List Time} {series : List (Str × List Num)}
    (hreq : Requested ext wb w name r) (hwb : ∀ q ∈ wb, q < w.nextSheet ∧ WellFormed (w.sheets q))
    (hgiven : (∃ pr, given = .object pr ∧ w.params pr = p) ∨ (∃ x, given = .other x ∧ Params.new x = .ok p))
    (hp : HasSeries p sps) (h0 : sps.head? = some sp) (hsame : SameIndex sps timeHeader freq start ta al)
    (ht : OffsetIndex sp (w.sheets r) tr tc last)
    (hg : OnPeriods sp grid ((datesOf sp (w.sheets r) tr tc last).filterMap id))
    (hser : List.Forall₂ (fun sp nv => OffsetSeries ext (w.sheets r) tr tc last grid sp nv.1 nv.2) sps series) :
    ∃ columns pr w', getDataFrames ext wb given name safe preserve w =
        (.ok (.dfs (.one ⟨indexFreq freq, grid, columns, series.map Prod.snd⟩), (w.sheets r).title, pr), w') ∧
      ColumnsOf (series.map Prod.fst) columns := by
  obtain ⟨columns, p', s', hscr, hco, _⟩ := C97_offset_partial hp h0 hsame ht hg hser
  obtain ⟨pr, w', e⟩ := call_complete ext wb w given name safe preserve r hreq hwb hgiven
    (complete_series hp (by rintro rfl; cases h0)) hscr
  exact ⟨columns, pr, w', e, hco⟩

/-- C97, dates and values in turn in one column: every value that is a number with a decimal point appears in
the data frame under the date that stands before (after) it. -/
theorem C97_in_turn_partial {ext : Ext} {p : Params} {s : Sheet} {sp : SParams} {hr hc : Int} {es : List Entry}
    {z : Entry} {name : Str} (hp : HasSeries p [sp]) (h : InTurn sp s hr hc es) (hz : es.getLast? = some z)
    (hg : OnPeriods sp (es.map Entry.date) (es.map Entry.date)) (hname : NameIs ext sp s name)
    (hends : sp.dataEnds = none ∨ sp.dataEnds = some 0 ∨ sp.dataEnds = some z.pos) :
    ∃ p' s', scrape ext p s =
        (.ok [⟨indexFreq sp.frequency, es.map Entry.date, [name], [es.map Entry.value]⟩], p', s') ∧
      s'.cells = s.cells := by
  have hsame : SameIndex [sp] (.single sp.headerCoord) sp.frequency sp.dataStarts sp.timeAlignment sp.alignment :=
    .ofSingle (by simp [h.time]) (by simp [h.single]) (by simp) (by simp) (by simp) (by simp)
  obtain ⟨cols, p', s', h1, h2, h3⟩ := C97_offset_partial (series := [(name, es.map Entry.value)]) hp rfl hsame
    (offset_in_turn h hz) (by rw [dates_in_turn h hz]; exact hg)
    (.cons { cells := ⟨hr, hc, h.header, values_in_turn h hz _⟩
             notImplicit := fun hm => by rw [h.noMissings] at hm; cases hm
             name := hname, ends := hends, size := by simp } .nil)
  have hcols : cols = [name] := by
    have h2 : ColumnsOf ([] ++ [name]) cols := h2
    generalize hn : ([] ++ [name] : List Str) = ns at h2
    cases h2 with
    | nil => cases hn
    | @snoc names cols' n c h21 h22 =>
      obtain ⟨rfl, e⟩ := List.append_inj' hn rfl
      cases e
      generalize hn : ([] : List Str) = ns at h21
      cases h21 with
      | nil =>
        obtain ⟨k, k1, k2, _, k4⟩ := h22
        have hk : k = 1 := by
          by_contra hne
          have := k4 1 (by omega) (by omega)
          cases this
        rw [k2, hk]
        rfl
      | snoc => simp at hn
  exact ⟨p', s', by rw [h1, hcols]; rfl, h3⟩

/-! ### Examples -/

namespace Sample

/-- Dates and values in turn. -/
def turnSheet : Sheet := rows
  [[.str c!"PBI"], [day 2000 1 1], [.float (.fin 10)], [.none], [day 2000 2 1], [.float (.fin 20)],
   [day 2000 3 1], [.float (.fin 30)]]

def turnSeries : SParams :=
  { monthly with
    headerCoord := c!"A1", continuity := false, blankRows := true, timeAlignment := -1, dataStarts := 3 }

def turnEntries : List Entry :=
  [⟨3, ⟨2000, 1, 1, 0⟩, .fin 10⟩, ⟨6, ⟨2000, 2, 1, 0⟩, .fin 20⟩, ⟨8, ⟨2000, 3, 1, 0⟩, .fin 30⟩]

theorem turn_in_turn : InTurn turnSeries turnSheet 1 1 turnEntries where
  header := by decide
  time := rfl
  single := rfl
  plain := rfl
  vertical := rfl
  loose := rfl
  noMissings := rfl
  beside := .inl rfl
  starts := by decide
  first := rfl
  several := by decide
  ordered := by decide
  close := by
    intro i e e' h1 h2
    rcases i with _ | _ | _ | i <;> simp [turnEntries] at h1 h2 <;> subst h1 h2 <;> decide
  value := by
    intro e h
    simp only [turnEntries, List.mem_cons, List.not_mem_nil, or_false] at h
    rcases h with rfl | rfl | rfl <;> rfl
  date := by
    intro e h
    simp only [turnEntries, List.mem_cons, List.not_mem_nil, or_false] at h
    rcases h with rfl | rfl | rfl <;> rfl
  blank := by
    intro pos h1 h2 _ h4
    have h1 : 3 ≤ pos := h1
    have h2 : pos ≤ 8 := h2
    have e1 := h4 ⟨3, ⟨2000, 1, 1, 0⟩, .fin 10⟩ (by simp [turnEntries])
    have e2 := h4 ⟨6, ⟨2000, 2, 1, 0⟩, .fin 20⟩ (by simp [turnEntries])
    have e3 := h4 ⟨8, ⟨2000, 3, 1, 0⟩, .fin 30⟩ (by simp [turnEntries])
    have h5 : turnSeries.timeAlignment = -1 := rfl
    rw [h5] at e1 e2 e3
    dsimp only at e1 e2 e3
    have : pos = 4 := by omega
    subst this
    trivial
  within := by
    intro e h
    simp only [turnEntries, List.mem_cons, List.not_mem_nil, or_false] at h
    rcases h with rfl | rfl | rfl <;> decide

theorem turn_periods : OnPeriods turnSeries (turnEntries.map Entry.date) (turnEntries.map Entry.date) where
  frequency := .inl (by decide)
  valid := by decide
  representable := by decide
  start := by intro a h; cases h; rfl
  run := ⟨⟨_, rfl, rfl, rfl, rfl⟩, ⟨_, rfl, rfl, rfl, rfl⟩, trivial⟩
  sub := List.Sublist.refl _
  first := rfl
  last := rfl
  complete := fun _ => rfl
  marker := trivial

/-- The same with a whole number as second value. -/
def wholeSheet : Sheet := rows
  [[.str c!"PBI"], [day 2000 1 1], [.float (.fin 10)], [.none], [day 2000 2 1], [.int 20],
   [day 2000 3 1], [.float (.fin 30)]]

/-- The date of a value is in the row above, in the next column; March is left out. -/
def belowSheet : Sheet := rows
  [[.str c!"fecha", .str c!"PBI"], [day 2000 1 1, .none], [day 2000 2 1, .int 10], [day 2000 4 1, .int 20],
   [.none, .int 40]]

def belowSeries : SParams :=
  { monthly with
    timeAlignment := -1, dataStarts := 3, missings := true, missingValue := .list [.str c!"Implicit"]
    seriesName := some c!"PBI" }

end Sample

/-- Three values with their dates above them. -/
example : ∃ p' s', scrape Sample.ext0 (Sample.paramsOf [Sample.turnSeries]) Sample.turnSheet =
      (.ok [⟨c!"MS", [⟨2000, 1, 1, 0⟩, ⟨2000, 2, 1, 0⟩, ⟨2000, 3, 1, 0⟩], [c!"PBI"],
        [[.fin 10, .fin 20, .fin 30]]⟩], p', s') ∧ s'.cells = Sample.turnSheet.cells := by
  have hn : NameIs Sample.ext0 Sample.turnSeries Sample.turnSheet c!"PBI" :=
    .composed (ext := Sample.ext0) (sp := Sample.turnSeries) (s := Sample.turnSheet) (r := 1) (c := 1)
      (texts := []) (.inl rfl) (by decide) .nil
  exact C97_in_turn_partial (es := Sample.turnEntries) (fun _ => rfl) Sample.turn_in_turn rfl Sample.turn_periods hn
    (.inl rfl)

/-- The same through the entry point. -/
example : ∃ columns pr w', getDataFrames Sample.ext0 [0] (.object 0) [] false true
        (Sample.world Sample.turnSheet (Sample.paramsOf [Sample.turnSeries])) =
      (.ok (.dfs (.one ⟨c!"MS", [⟨2000, 1, 1, 0⟩, ⟨2000, 2, 1, 0⟩, ⟨2000, 3, 1, 0⟩], columns,
        [[.fin 10, .fin 20, .fin 30]]⟩), c!"S", pr), w') ∧ ColumnsOf [c!"PBI"] columns := by
  have hn : NameIs Sample.ext0 Sample.turnSeries Sample.turnSheet c!"PBI" :=
    .composed (ext := Sample.ext0) (sp := Sample.turnSeries) (s := Sample.turnSheet) (r := 1) (c := 1)
      (texts := []) (.inl rfl) (by decide) .nil
  exact C97_call_partial Sample.ext0 [0] _ (.object 0) [] false true 0
    (sps := [Sample.turnSeries]) (timeHeader := .single c!"A1") (freq := c!"M") (start := 3) (ta := -1)
    (al := .vertical) (series := [(c!"PBI", [.fin 10, .fin 20, .fin 30])])
    ⟨by simp, by simp, .inl ⟨rfl, rfl⟩⟩
    (by
      intro q hq
      simp only [List.mem_cons, List.not_mem_nil, or_false] at hq
      subst hq
      exact ⟨Nat.zero_lt_one, Sample.rows_wellFormed (by decide) (by decide) (by decide)⟩)
    (.inl ⟨0, rfl, rfl⟩) (fun _ => rfl) rfl
    (.ofSingle (by simp [Sample.turnSeries, Sample.monthly]) (by decide) (by decide) (by decide) (by decide) (by decide))
    (offset_in_turn (es := Sample.turnEntries) Sample.turn_in_turn rfl)
    (by
      show OnPeriods _ _ ((datesOf Sample.turnSeries Sample.turnSheet 1 1 8).filterMap id)
      have : (datesOf Sample.turnSeries Sample.turnSheet 1 1 8).filterMap id = _ :=
        dates_in_turn (es := Sample.turnEntries) Sample.turn_in_turn rfl
      rw [this]
      exact Sample.turn_periods)
    (.cons { cells := ⟨1, 1, by decide, values_in_turn (es := Sample.turnEntries) Sample.turn_in_turn rfl _⟩
             notImplicit := fun hm => by cases hm
             name := hn, ends := .inl rfl, size := rfl } .nil)

/-- C97, violated: the dates are in a row, one column before the values. The same table with rows and columns
exchanged is read; this one is not. -/
theorem C97_row_violated : ∃ (ext : Ext) (p p1 : Params) (sp : SParams) (s : Sheet) (f : Frame),
    HasSeries p [sp] ∧ sp.timeAlignment = -1 ∧ sp.alignment = .vertical ∧ sp.timeHeader = .single c!"A1" ∧
    sp.headerCoord = c!"B1" ∧ (scrape ext p s).1 = .ok [f] ∧
    HasSeries p1 [{ sp with alignment := .horizontal, headerCoord := c!"A2" }] ∧
    (scrape ext p1 { s with cells := fun r c => s.cells c r, maxRow := s.maxCol, maxCol := s.maxRow }).1 =
      .error .typeError :=
  ⟨Sample.ext0, Sample.paramsOf [{ Sample.monthly with timeAlignment := -1, dataStarts := 3 }],
    Sample.paramsOf [{ Sample.monthly with
      timeAlignment := -1, dataStarts := 3, alignment := .horizontal, headerCoord := c!"A2" }],
    { Sample.monthly with timeAlignment := -1, dataStarts := 3 },
    Sample.rows [[.str c!"fecha", .str c!"PBI"], [Sample.day 2000 1 1, .none], [Sample.day 2000 2 1, .int 10],
      [Sample.day 2000 3 1, .int 20], [.none, .int 40]],
    ⟨c!"MS", [⟨2000, 1, 1, 0⟩, ⟨2000, 2, 1, 0⟩, ⟨2000, 3, 1, 0⟩], [c!"PBI"], [[.fin 10, .fin 20, .fin 40]]⟩,
    fun _ => rfl, rfl, rfl, rfl, rfl, by decide +kernel, fun _ => rfl, by decide +kernel⟩

/-- C97, violated: in the column of dates and values in turn above, the second value is the whole number 20
instead of 20.0. It is taken for a date that cannot be, the series ends there, and the third value is lost. -/
theorem C97_whole_number_violated : ∃ (ext : Ext) (p : Params) (sp : SParams) (s s' : Sheet) (es : List Entry)
    (e : Entry) (f : Frame) (p' : Params) (s'' : Sheet),
    HasSeries p [sp] ∧ InTurn sp s 1 1 es ∧ OnPeriods sp (es.map Entry.date) (es.map Entry.date) ∧ e ∈ es ∧
    e.value = .fin 20 ∧ s'.cells e.pos 1 = .int 20 ∧
    (∀ r c, 1 ≤ r → ¬ (r = e.pos ∧ c = 1) → s'.cells r c = s.cells r c) ∧ s'.maxRow = s.maxRow ∧
    scrape ext p s' = (.ok [f], p', s'') ∧ es.map Entry.value = [.fin 10, .fin 20, .fin 30] ∧
    f.data = [[.fin 10, .fin 20]] := by
  have h : ∀ q : Except Err (List Frame) × Params × Sheet,
      q.1 = .ok [⟨c!"MS", [⟨2000, 1, 1, 0⟩, ⟨2000, 2, 1, 0⟩], [c!"PBI"], [[.fin 10, .fin 20]]⟩] →
      q = (.ok [⟨c!"MS", [⟨2000, 1, 1, 0⟩, ⟨2000, 2, 1, 0⟩], [c!"PBI"], [[.fin 10, .fin 20]]⟩], q.2.1, q.2.2) :=
    fun q hq => Prod.ext hq rfl
  refine ⟨Sample.ext0, Sample.paramsOf [Sample.turnSeries], Sample.turnSeries, Sample.turnSheet, Sample.wholeSheet,
    Sample.turnEntries, ⟨6, ⟨2000, 2, 1, 0⟩, .fin 20⟩, _, _, _, fun _ => rfl, Sample.turn_in_turn,
    Sample.turn_periods, by simp [Sample.turnEntries], rfl, rfl, ?_, rfl, h _ (by decide +kernel), rfl, rfl⟩
  intro r c hr hne
  simp only [Sample.wholeSheet, Sample.turnSheet, Sample.rows]
  by_cases hc : 1 ≤ c ∧ 1 ≤ r
  · rw [if_pos hc, if_pos hc]
    by_cases h6 : r.toNat - 1 = 5
    · have hr6 : r = 6 := by omega
      have hc1 : c.toNat - 1 ≠ 0 := by
        intro h0
        exact hne ⟨hr6, by omega⟩
      rw [h6]
      obtain ⟨n, hn⟩ := Nat.exists_eq_succ_of_ne_zero hc1
      rw [hn]
      rfl
    · rcases hk : r.toNat - 1 with _ | _ | _ | _ | _ | _ | _ | _ | k <;> first | rfl | (exact absurd hk h6)
  · rw [if_neg hc, if_neg hc]

/-- C97, violated: dates one row above the values, the month of March left out and the parameters say so. The
values of January, February and April are 10, 20 and 40; in the data frame 20 is the value of March, February
has none. -/
theorem C97_implicit_violated : ∃ (ext : Ext) (p : Params) (sp : SParams) (s : Sheet) (last : Int)
    (grid : List Time) (xs : List Num) (f : Frame) (p' : Params) (s' : Sheet),
    HasSeries p [sp] ∧ OffsetIndex sp s 1 1 last ∧ OnPeriods sp grid ((datesOf sp s 1 1 last).filterMap id) ∧
    ValuesAre ext sp (cellsAlong s sp.alignment 1 2 sp.dataStarts last) (datesOf sp s 1 1 last) grid xs ∧
    scrape ext p s = (.ok [f], p', s') ∧ f.index = grid ∧ xs = [.fin 10, .fin 20, .nan, .fin 40] ∧
    f.data = [[.fin 10, .nan, .fin 20, .fin 40]] := by
  have h : ∀ (q : Except Err (List Frame) × Params × Sheet) (f : Frame), q.1 = .ok [f] →
      q = (.ok [f], q.2.1, q.2.2) := fun q f hq => Prod.ext hq rfl
  refine ⟨Sample.ext0, Sample.paramsOf [Sample.belowSeries], Sample.belowSeries, Sample.belowSheet, 5,
    [⟨2000, 1, 1, 0⟩, ⟨2000, 2, 1, 0⟩, ⟨2000, 3, 1, 0⟩, ⟨2000, 4, 1, 0⟩], [.fin 10, .fin 20, .nan, .fin 40],
    ⟨c!"MS", [⟨2000, 1, 1, 0⟩, ⟨2000, 2, 1, 0⟩, ⟨2000, 3, 1, 0⟩, ⟨2000, 4, 1, 0⟩], [c!"PBI"],
      [[.fin 10, .nan, .fin 20, .fin 40]]⟩, _, _, fun _ => rfl, ?_, ?_, ?_, h _ _ (by decide +kernel), rfl, rfl, rfl⟩
  · exact { header := ⟨c!"A1", rfl, by decide⟩, single := rfl, plain := rfl, aligned := .inl rfl
            starts := by decide, dates := by decide, two := by decide, more := by decide
            first := ⟨_, rfl⟩, final := ⟨_, rfl⟩
            before := by
              intro pos h1 h2
              have : Sample.belowSeries.timeAlignment = -1 := rfl
              omega
            between := by
              intro pos h1 h2
              have h1 : 3 ≤ pos := h1
              have h2 : pos ≤ 4 := h2
              rcases (by omega : pos = 3 ∨ pos = 4) with rfl | rfl <;> exact .inl trivial
            shortGaps := by
              intro pos h1 h2
              have h1 : 3 ≤ pos := h1
              have h2 : pos + 1 ≤ 4 := h2
              have : pos = 3 := by omega
              subst this
              exact ⟨0, by decide, trivial⟩
            within := by decide
            after := by
              refine .inr ⟨rfl, ?_⟩
              intro pos h1 h2 h3
              have h1 : 4 < pos := h1
              have h2 : pos ≤ 5 := h2
              have : pos = 5 := by omega
              subst this
              exact .inl trivial }
  · exact { frequency := .inl (by decide), valid := by decide, representable := by decide
            start := by intro a h; cases h; rfl
            run := ⟨⟨_, rfl, rfl, rfl, rfl⟩, ⟨_, rfl, rfl, rfl, rfl⟩, ⟨_, rfl, rfl, rfl, rfl⟩, trivial⟩
            sub := by decide
            first := rfl, last := rfl, complete := fun h => by cases h
            marker := trivial }
  · exact .implicit (xs := [.fin 10, .fin 20, .fin 40]) (markers := [.str c!"Implicit"]) rfl rfl rfl rfl (by simp)
      (by decide) (by decide) rfl
      { size := rfl
        observed := by
          intro t x h
          replace h : (t, x) ∈ [((⟨2000, 1, 1, 0⟩ : Time), Num.fin 10), (⟨2000, 2, 1, 0⟩, .fin 20),
            (⟨2000, 4, 1, 0⟩, .fin 40)] := h
          simp at h
          rcases h with ⟨rfl, rfl⟩ | ⟨rfl, rfl⟩ | ⟨rfl, rfl⟩
          · exact ⟨0, rfl, rfl⟩
          · exact ⟨1, rfl, rfl⟩
          · exact ⟨3, rfl, rfl⟩
        others := by
          intro i t h hn
          replace hn : t ∉ [(⟨2000, 1, 1, 0⟩ : Time), ⟨2000, 2, 1, 0⟩, ⟨2000, 4, 1, 0⟩] := hn
          rcases i with _ | _ | _ | _ | i <;> simp at h
          · subst h; simp at hn
          · subst h; simp at hn
          · rfl
          · subst h; simp at hn }

end Xls
