/-
From a plain table to its data frame.
-/
import Verif.Lemmas.Frames2
import Verif.Spec.Table
import Verif.Props.Cleaning
import Verif.Props.Extraction
import Verif.Props.Periods

set_option autoImplicit false

namespace Xls

open Spec

/-! ### Typed parameters -/

theorem seriesDict_of {p : Params} {i : Nat} {v : Name → PVal} :
    ∀ {ns : List Name}, (∀ n ∈ ns, ∃ vs, p n = .list vs ∧ vs[i]? = some (v n)) →
    p.seriesDict i ns = .ok (ns.map fun n => (n, v n))
  | [], _ => rfl
  | n :: ns, h => by
    obtain ⟨vs, h1, h2⟩ := h n (by simp)
    unfold Params.seriesDict
    rw [h1]
    show (Params.index (.list vs) i >>= _) = _
    rw [bind_intro (a := v n) (by unfold Params.index; dsimp only; rw [h2]),
      bind_intro (seriesDict_of fun m hm => h m (List.mem_cons_of_mem _ hm))]
    rfl

theorem entry_all (v : Name → PVal) (m : Name) :
    entry (Name.all.map fun n => (n, v n)) m = .ok (v m) := by
  cases m <;> rfl

theorem ofDict_all {v : Name → PVal} {name : Option Str} {header : Str}
    {composed context : Option (List Str)} {starts : Int} {ends : Option Int} {ta : Int}
    {th : TimeHeader} {freq : Str}
    (h1 : (v .seriesNames).givenName = .ok name) (h2 : (v .headersCoord).asStr = .ok header)
    (h3 : (v .composedHeadersCoord).nameParts (v .seriesNames).truthy = .ok composed)
    (h4 : (v .context).nameParts (v .seriesNames).truthy = .ok context)
    (h5 : (v .dataStarts).asInt = .ok starts) (h6 : orNone PVal.asInt (v .dataEnds) = .ok ends)
    (h7 : (v .timeAlignment).asInt = .ok ta) (h8 : (v .timeHeaderCoord).asHeader = .ok th)
    (h9 : (v .frequency).asStr = .ok freq) :
    SParams.ofDict (Name.all.map fun n => (n, v n)) = .ok
      { alignment := (v .alignment).asAlign, seriesName := name, headerCoord := header,
        composedHeaders := composed, context := context, dataStarts := starts, dataEnds := ends,
        continuity := (v .continuity).truthy, blankRows := (v .blankRows).truthy,
        missings := (v .missings).truthy, missingValue := v .missingValue, timeAlignment := ta,
        timeMulticolumn := (v .timeMulticolumn).truthy, timeHeader := th,
        timeComposed := (v .timeComposed).truthy, frequency := freq } := by
  unfold SParams.ofDict
  simp only [entry_all, Except.bind, h1, h2, h3, h4, h5, h6, h7, h8, h9, bind_intro rfl]
  rfl

/-- The parameters of a series of a plain table. -/
def tableSeries (header timeHeader freq : Str) (start : Int) (ends : Option Int) (mv : PVal) : SParams where
  alignment := .vertical
  seriesName := none
  headerCoord := header
  composedHeaders := none
  context := none
  dataStarts := start
  dataEnds := ends
  continuity := true
  blankRows := false
  missings := false
  missingValue := mv
  timeAlignment := 0
  timeMulticolumn := false
  timeHeader := .single timeHeader
  timeComposed := false
  frequency := freq

/-- A plain table whose ends are the given values. -/
structure TableEnds (p : Params) (headers : List Str) (timeHeader freq : Str) (start : Int)
    (ends : List PVal) (mv : PVal) : Prop where
  headersC : p .headersCoord = .list (headers.map .str)
  alignment : p .alignment = .list (List.replicate headers.length (.str c!"vertical"))
  names : p .seriesNames = .list (List.replicate headers.length .none)
  composed : p .composedHeadersCoord = .list (List.replicate headers.length .none)
  context : p .context = .list (List.replicate headers.length .none)
  starts : p .dataStarts = .list (List.replicate headers.length (.int start))
  ends : p .dataEnds = .list ends
  continuity : p .continuity = .list (List.replicate headers.length (.bool true))
  blankRows : p .blankRows = .list (List.replicate headers.length (.bool false))
  missings : p .missings = .list (List.replicate headers.length (.bool false))
  missingValue : p .missingValue = .list (List.replicate headers.length mv)
  timeAlignment : p .timeAlignment = .list (List.replicate headers.length (.int 0))
  multicolumn : p .timeMulticolumn = .list (List.replicate headers.length (.bool false))
  timeHeaderC : p .timeHeaderCoord = .list (List.replicate headers.length (.str timeHeader))
  timeComposed : p .timeComposed = .list (List.replicate headers.length (.bool false))
  frequency : p .frequency = .list (List.replicate headers.length (.str freq))

theorem TableEnds.store {p : Params} {headers : List Str} {timeHeader freq : Str} {start : Int}
    {ends ends' : List PVal} {mv : PVal} (h : TableEnds p headers timeHeader freq start ends mv) :
    TableEnds (p.store .dataEnds (.list ends')) headers timeHeader freq start ends' mv := by
  obtain ⟨h1, h2, h3, h4, h5, h6, h7, h8, h9, h10, h11, h12, h13, h14, h15, h16⟩ := h
  constructor <;> first | assumption | rfl

theorem TableEnds.typed {p : Params} {headers : List Str} {timeHeader freq : Str} {start : Int}
    {ends : List PVal} {mv : PVal} (h : TableEnds p headers timeHeader freq start ends mv) {i : Nat}
    {header : Str} (hi : headers[i]? = some header) {e : PVal} (he : ends[i]? = some e)
    {oe : Option Int} (hoe : orNone PVal.asInt e = .ok oe) :
    p.typed i = .ok (tableSeries header timeHeader freq start oe mv) := by
  have hlt : i < headers.length := by
    rcases Nat.lt_or_ge i headers.length with h | h
    · exact h
    · rw [List.getElem?_eq_none h] at hi; cases hi
  have hr : ∀ v : PVal, (List.replicate headers.length v)[i]? = some v := by
    intro v; rw [List.getElem?_replicate, if_pos hlt]
  let v : Name → PVal
    | .headersCoord => .str header
    | .alignment => .str c!"vertical"
    | .seriesNames => .none
    | .composedHeadersCoord => .none
    | .context => .none
    | .dataStarts => .int start
    | .dataEnds => e
    | .continuity => .bool true
    | .blankRows => .bool false
    | .missings => .bool false
    | .missingValue => mv
    | .timeAlignment => .int 0
    | .timeMulticolumn => .bool false
    | .timeHeaderCoord => .str timeHeader
    | .timeComposed => .bool false
    | .frequency => .str freq
  have hs : p.series i = .ok (Name.all.map fun n => (n, v n)) := by
    unfold Params.series
    refine seriesDict_of ?_
    intro n _
    cases n
    · exact ⟨_, h.alignment, hr _⟩
    · exact ⟨_, h.names, hr _⟩
    · exact ⟨_, h.headersC, by rw [List.getElem?_map, hi]; rfl⟩
    · exact ⟨_, h.composed, hr _⟩
    · exact ⟨_, h.context, hr _⟩
    · exact ⟨_, h.starts, hr _⟩
    · exact ⟨_, h.ends, he⟩
    · exact ⟨_, h.continuity, hr _⟩
    · exact ⟨_, h.blankRows, hr _⟩
    · exact ⟨_, h.missings, hr _⟩
    · exact ⟨_, h.missingValue, hr _⟩
    · exact ⟨_, h.timeAlignment, hr _⟩
    · exact ⟨_, h.multicolumn, hr _⟩
    · exact ⟨_, h.timeHeaderC, hr _⟩
    · exact ⟨_, h.timeComposed, hr _⟩
    · exact ⟨_, h.frequency, hr _⟩
  unfold Params.typed
  rw [hs]
  show SParams.ofDict _ = _
  exact ofDict_all (v := v) rfl rfl rfl rfl rfl hoe rfl rfl rfl

/-! ### Cleaning -/

theorem replicate_set (k m : Nat) (x y : PVal) :
    (List.replicate k x ++ List.replicate (m + 1) y).set k x =
      List.replicate (k + 1) x ++ List.replicate m y := by
  rw [List.set_append, if_neg (by simp)]
  simp only [List.length_replicate, Nat.sub_self]
  rw [List.replicate_succ (n := m), List.set_cons_zero, List.replicate_succ', List.append_assoc]
  rfl

theorem cleanSeries_known {ext : Ext} {headers : List Str} {timeHeader freq : Str} {start : Int}
    {mv : PVal} {s : Sheet} {ends : List (Str × Int)} {b : Int} (hends : endOf ends timeHeader = some b) :
    ∀ (m k : Nat) (p : Params), k + m = headers.length →
    TableEnds p headers timeHeader freq start (List.replicate k (.int b) ++ List.replicate m .none) mv →
    ∃ p', cleanSeries ext (List.range' k m) p s ends = (.ok (), p', s) ∧
      TableEnds p' headers timeHeader freq start (List.replicate headers.length (.int b)) mv
  | 0, k, p, hk, hp => by
    refine ⟨p, rfl, ?_⟩
    rw [List.replicate_zero, List.append_nil, show k = headers.length by omega] at hp
    exact hp
  | m + 1, k, p, hk, hp => by
    rw [List.range'_succ]
    unfold cleanSeries
    have h1 : (Params.index (p .timeHeaderCoord) k).bind PVal.asStr = .ok timeHeader := by
      rw [hp.timeHeaderC]
      unfold Params.index
      dsimp only
      rw [List.getElem?_replicate, if_pos (by omega)]
      rfl
    have h2 : cleanOnce ext p s ends k timeHeader = (.ok (b, ends), s) := by
      unfold cleanOnce
      rw [hends]
    have h3 : Params.index (p .dataEnds) k = .ok .none := by
      rw [hp.ends]
      unfold Params.index
      dsimp only
      rw [List.getElem?_append_right (by simp), List.length_replicate, Nat.sub_self,
        List.getElem?_replicate, if_pos (by omega)]
    rw [h1]
    dsimp only
    rw [h2]
    dsimp only
    rw [h3]
    dsimp only
    rw [if_neg (by unfold PVal.truthy; decide)]
    refine cleanSeries_known hends m (k + 1) _ (by omega) ?_
    unfold setEnd
    rw [hp.ends]
    dsimp only
    rw [replicate_set]
    exact hp.store

theorem shiftOf_periodShift {freq : Str} (hS : freq ≠ c!"S") {sh : Shift}
    (h : periodShift freq = some sh) (hY : freq ≠ c!"Y") : shiftOf freq = some sh := by
  unfold periodShift at h
  split at h
  · exact h
  · exact absurd rfl hY
  · exact absurd rfl hS
  · exact h
  · exact h
  · exact h
  · exact h
  · cases h

theorem consecutive_of_run {freq : Str} (hS : freq ≠ c!"S") (hY : freq ≠ c!"Y") :
    ∀ {ts : List Time}, PeriodRun freq ts → Consecutive freq ts
  | [], _ => trivial
  | [_], _ => trivial
  | _ :: _ :: _, ⟨⟨sh, h1, h2⟩, h3⟩ =>
    ⟨⟨sh, shiftOf_periodShift hS h1 hY, h2⟩, consecutive_of_run hS hY h3⟩

theorem indexTimes_of_cells {s : Sheet} {tr tc start last : Int} {ts : List Time}
    (h : cellsAlong s .vertical tr tc start last = ts.map .dt) :
    indexTimes s .vertical tr tc start (last + 1) = ts := by
  unfold indexTimes
  unfold cellsAlong at h
  rw [h, List.filterMap_map]
  exact List.filterMap_some

theorem cells_of_cells {s : Sheet} {tr tc start last : Int} {ts : List Time}
    (h : cellsAlong s .vertical tr tc start last = ts.map .dt) {p : Int} (h1 : start ≤ p)
    (h2 : p ≤ last) : ∃ t ∈ ts, ts[(p - start).toNat]? = some t ∧ timeCell s .vertical tr tc p = .dt t := by
  have hg := congrArg (fun l => l[(p - start).toNat]?) h
  unfold cellsAlong at hg
  simp only [List.getElem?_map] at hg
  rw [List.getElem?_range (by omega)] at hg
  simp only [Option.map_some] at hg
  rw [show start + ((p - start).toNat : Int) = p by omega] at hg
  cases ht : ts[(p - start).toNat]? with
  | none => rw [ht] at hg; cases hg
  | some t =>
    rw [ht] at hg
    simp only [Option.map_some, Option.some.injEq] at hg
    exact ⟨t, List.mem_of_getElem? ht, rfl, hg⟩

theorem cleanData_table {ext : Ext} {p : Params} {s : Sheet} {headers : List Str}
    {timeHeader freq : Str} {start last : Int} {mv : PVal} {ts : List Time}
    (hp : TableEnds p headers timeHeader freq start (List.replicate headers.length .none) mv)
    (hne : headers ≠ []) (hsv : SheetValid s) (hd : HasDates s timeHeader start last ts)
    (hf : freq.length = 1) (hcons : Consecutive freq ts) :
    ∃ p' s', cleanData ext p s = (.ok (), p', s') ∧ s'.cells = s.cells ∧
      TableEnds p' headers timeHeader freq start (List.replicate headers.length (.int last)) mv := by
  obtain ⟨n, hn⟩ : ∃ n, headers.length = n + 1 := by
    cases headers with
    | nil => exact absurd rfl hne
    | cons h t => exact ⟨t.length, rfl⟩
  obtain ⟨⟨tr, tc, hth, hcells, hend⟩, hpos, htwo⟩ := hd
  obtain ⟨h0, hh0⟩ : ∃ h0, headers[0]? = some h0 := by
    cases headers with
    | nil => exact absurd rfl hne
    | cons h t => exact ⟨h, rfl⟩
  have hty := hp.typed (i := 0) hh0 (e := .none) (by rw [List.getElem?_replicate, if_pos (by omega)])
    (oe := none) rfl
  have hclean := C15_clean_index_unchanged (ext := ext) (hr := tr) (hc := tc) (b := last)
    (sp := tableSeries h0 timeHeader freq start none mv) (s := s)
    ⟨rfl, ⟨timeHeader, rfl, hth⟩, hpos, .inl rfl, rfl, hf⟩ hsv rfl (by show start < last - 0; omega)
    (by show start ≤ last; omega)
    (fun q h1 h2 => by
      obtain ⟨t, _, _, h⟩ := cells_of_cells hcells h1 h2
      exact ⟨t, h⟩)
    (by show Consecutive freq (indexTimes s .vertical tr tc start (last + 1))
        rw [indexTimes_of_cells hcells]; exact hcons)
    (by
      rcases hend with hend | ⟨h1, h2⟩
      · exact .inl hend
      · refine .inr ⟨h1, rfl, rfl, ?_⟩
        show BlankCell (s.cells (last + 1) tc)
        rw [h2]
        trivial)
  obtain ⟨hc1, hc2⟩ := hclean
  have hlast : last - (tableSeries h0 timeHeader freq start none mv).timeAlignment = last := by
    show last - 0 = last; omega
  rw [hlast] at hc1
  cases hct : cleanTimeIndex ext (tableSeries h0 timeHeader freq start none mv) s with
  | mk r s' =>
    rw [hct] at hc1 hc2
    subst hc1
    unfold cleanData
    have h1 : Params.index (p .timeMulticolumn) 0 = .ok (.bool false) := by
      rw [hp.multicolumn]
      unfold Params.index
      dsimp only
      rw [List.getElem?_replicate, if_pos (by omega)]
    have h2 : Params.len (p .timeHeaderCoord) = .ok headers.length := by
      rw [hp.timeHeaderC]
      unfold Params.len
      simp
    rw [h1]
    dsimp only
    rw [if_neg (by unfold PVal.truthy; decide), h2]
    dsimp only
    rw [List.range_eq_range', hn, List.range'_succ]
    unfold cleanSeries
    have h3 : (Params.index (p .timeHeaderCoord) 0).bind PVal.asStr = .ok timeHeader := by
      rw [hp.timeHeaderC]
      unfold Params.index
      dsimp only
      rw [List.getElem?_replicate, if_pos (by omega)]
      rfl
    have h4 : cleanOnce ext p s [] 0 timeHeader = (.ok (last, [(timeHeader, last)]), s') := by
      unfold cleanOnce
      rw [show endOf [] timeHeader = none from rfl]
      dsimp only
      rw [hty]
      dsimp only
      rw [hct]
      dsimp only
      rw [if_neg (by omega)]
      rfl
    have h5 : Params.index (p .dataEnds) 0 = .ok .none := by
      rw [hp.ends]
      unfold Params.index
      dsimp only
      rw [List.getElem?_replicate, if_pos (by omega)]
    rw [h3]
    dsimp only
    rw [h4]
    dsimp only
    rw [h5]
    dsimp only
    rw [if_neg (by unfold PVal.truthy; decide)]
    obtain ⟨p', hp', hT⟩ := cleanSeries_known (ext := ext) (headers := headers) (timeHeader := timeHeader)
      (freq := freq) (start := start) (mv := mv) (s := s') (ends := [(timeHeader, last)]) (b := last)
      (by simp [endOf]) n 1 (setEnd p 0 last) (by omega) (by
        unfold setEnd
        rw [hp.ends]
        dsimp only
        have := replicate_set 0 n (.int last) .none
        rw [hn]
        rw [List.replicate_zero, List.nil_append] at this
        rw [this]
        exact hp.store)
    exact ⟨p', s', hp', hc2, by rw [hn] at hT; exact hT⟩

/-! ### Extraction -/

theorem zipArgs_replicate (f b h e t a : PVal) : ∀ n,
    zipArgs (List.replicate n f) (List.replicate n b) (List.replicate n h) (List.replicate n e)
      (List.replicate n t) (List.replicate n a) = List.replicate n ⟨f, b, h, e, t, a⟩
  | 0 => rfl
  | n + 1 => by
    simp only [List.replicate_succ]
    unfold zipArgs
    rw [zipArgs_replicate f b h e t a n]

theorem rangeArgs_table {p : Params} {headers : List Str} {timeHeader freq : Str} {start : Int}
    {e mv : PVal} (h : TableEnds p headers timeHeader freq start (List.replicate headers.length e) mv) :
    rangeArgs p = .ok (List.replicate headers.length
      ⟨.str freq, .int start, .str timeHeader, e, .int 0, .str c!"vertical"⟩) := by
  unfold rangeArgs
  rw [h.frequency, h.starts, h.timeHeaderC, h.ends, h.timeAlignment, h.alignment,
    ← zipArgs_replicate]
  rfl

/-- What is needed of the dates of a table. -/
structure TableRange (ext : Ext) (s : Sheet) (timeHeader freq : Str) (start last : Int) (pr : PRange)
    (k : Str × Time × Time) : Prop where
  ranges : ∀ s' : Sheet, s'.cells = s.cells →
    seriesRanges ext s' freq start timeHeader last 0 .vertical = .ok [pr]
  key : rangeKey pr = .ok k
  proper : start < last
  starts : 1 ≤ start

theorem bucketLoop_table {ext : Ext} {p : Params} {s : Sheet} {timeHeader freq : Str}
    {start last : Int} {pr : PRange} {k : Str × Time × Time}
    (h : TableRange ext s timeHeader freq start last pr k) :
    ∀ (n : Nat) (bs : List Bucket) (s1 : Sheet), s1.cells = s.cells →
    (bs = [] ∧ 0 < n ∨ bs = [⟨k, pr, [], []⟩]) →
    ∃ s2, bucketLoop ext p (List.replicate n
        ⟨.str freq, .int start, .str timeHeader, .int last, .int 0, .str c!"vertical"⟩) s1 bs =
      .ok ([⟨k, pr, [], []⟩], s2) ∧ s2.cells = s.cells
  | 0, bs, s1, hs, hbs => by
    rcases hbs with hbs | hbs
    · omega
    · subst hbs
      exact ⟨s1, rfl, hs⟩
  | n + 1, bs, s1, hs, hbs => by
    rw [List.replicate_succ]
    unfold bucketLoop
    have hr : rangesOfArgs ext p s1
        ⟨.str freq, .int start, .str timeHeader, .int last, .int 0, .str c!"vertical"⟩ =
        .ok ([pr], rangeReads freq start timeHeader last 0 .vertical) := by
      unfold rangesOfArgs
      have h1 : orNone PVal.asInt (.int last) = .ok (some last) := rfl
      have h2 : (PVal.int start).asInt = .ok start := rfl
      dsimp only
      rw [bind_intro h1, bind_intro h2]
      dsimp only
      have := h.proper
      have := h.starts
      rw [if_neg (by omega)]
      have h3 : (PVal.str timeHeader).asHeader = .ok (.single timeHeader) := rfl
      have h4 : singleHeader (p .timeMulticolumn).truthy (.single timeHeader) = .ok timeHeader := rfl
      have h5 : (PVal.str freq).asStr = .ok freq := rfl
      have h6 : (PVal.int 0).asInt = .ok 0 := rfl
      rw [bind_intro h3, bind_intro h4, bind_intro h5, bind_intro h6]
      have h7 : (PVal.str c!"vertical").asAlign = .vertical := rfl
      rw [h7, bind_intro (h.ranges s1 hs)]
      rfl
    rw [hr]
    dsimp only
    have ha : addBuckets bs [pr] = .ok [⟨k, pr, [], []⟩] := by
      unfold addBuckets addBucket
      rw [h.key]
      dsimp only
      rcases hbs with ⟨hbs, _⟩ | hbs
      · subst hbs; rfl
      · subst hbs
        rw [if_pos (by simp)]
        rfl
    rw [ha]
    exact bucketLoop_table h n _ _ ((touchAll_cells _ _).trans hs) (.inr rfl)

/-- The name of a column of a plain table. -/
def tableName (ext : Ext) (text : Str) : Str := strip (ext.unidecode text)

theorem getSeries_table {ext : Ext} {s : Sheet} {timeHeader freq : Str} {start last : Int} {mv : PVal}
    {c : Column} (hc : HasColumn ext s start last c) (hf : freq.length = 1) (h1 : 1 ≤ start)
    (h2 : start < last) :
    getSeries ext (tableSeries c.header timeHeader freq start (some last) mv) s =
      .ok [(tableName ext c.text, c.values)] := by
  obtain ⟨hr, hcol, hh, ht, hv⟩ := hc
  unfold getSeries
  have hname := C58_composed_name (ext := ext)
    (sp := tableSeries c.header timeHeader freq start (some last) mv) (s := s) (r := hr) (c := hcol)
    (texts := []) (.inl rfl) hh .nil
  have hvals := (C52_every_row (ext := ext)
    (sp := tableSeries c.header timeHeader freq start (some last) mv) (s := s) (hr := hr) (hc := hcol)
    (last := last) ⟨hh, .inl rfl, h1, rfl⟩ hf rfl rfl rfl (by show start ≤ last; omega)
    [c.values]).2 ⟨c.values, rfl, hv⟩
  rw [hname]
  dsimp only
  rw [hvals, ht]
  simp [tableSeries, tableName, shownAs, List.intercalate]

theorem seriesStep_table {ext : Ext} {p : Params} {s s1 : Sheet} {headers : List Str}
    {timeHeader freq : Str} {start last : Int} {mv : PVal} {pr : PRange} {k : Str × Time × Time}
    (hp : TableEnds p headers timeHeader freq start (List.replicate headers.length (.int last)) mv)
    (h : TableRange ext s timeHeader freq start last pr k) (hf : freq.length = 1) {i : Nat} {c : Column}
    (hi : headers[i]? = some c.header) (hc : HasColumn ext s start last c) (hs : s1.cells = s.cells)
    (cols : List Str) (data : List (List Num)) :
    ∃ s2, seriesStep ext p i s1 [⟨k, pr, cols, data⟩] =
      .ok ([⟨k, pr, addName (tableName ext c.text) cols, data ++ [c.values]⟩], s2) ∧
      s2.cells = s.cells := by
  have hlt : i < headers.length := by
    rcases Nat.lt_or_ge i headers.length with h | h
    · exact h
    · rw [List.getElem?_eq_none h] at hi; cases hi
  have hty := hp.typed hi (e := .int last) (by rw [List.getElem?_replicate, if_pos hlt])
    (oe := some last) rfl
  have hx : extractors.find?
      (fun x => x.accepts (tableSeries c.header timeHeader freq start (some last) mv)) =
      some ⟨false, true⟩ := by
    unfold extractors
    rw [List.find?_cons_of_pos]
    unfold Extractor.accepts tableSeries
    simp [hf]
  have hg : getSeries ext (tableSeries c.header timeHeader freq start (some last) mv) s1 =
      .ok [(tableName ext c.text, c.values)] := by
    rw [getSeries_congr ext _ hs]
    exact getSeries_table hc hf h.starts h.proper
  unfold seriesStep
  rw [bind_intro hty, hx]
  dsimp only
  rw [bind_intro hg, if_neg (by simp)]
  have hh : singleHeader (tableSeries c.header timeHeader freq start (some last) mv).timeMulticolumn
      (tableSeries c.header timeHeader freq start (some last) mv).timeHeader = .ok timeHeader := rfl
  rw [bind_intro hh]
  rw [show (tableSeries c.header timeHeader freq start (some last) mv).dataEnds = some last from rfl]
  dsimp only
  rw [show (tableSeries c.header timeHeader freq start (some last) mv).frequency = freq from rfl,
    show (tableSeries c.header timeHeader freq start (some last) mv).dataStarts = start from rfl,
    show (tableSeries c.header timeHeader freq start (some last) mv).timeAlignment = 0 from rfl,
    show (tableSeries c.header timeHeader freq start (some last) mv).alignment = .vertical from rfl,
    bind_intro (h.ranges _ ((touchAll_cells _ _).trans hs))]
  have hput : putAll ([pr].zip [(tableName ext c.text, c.values)]) [⟨k, pr, cols, data⟩] =
      .ok [⟨k, pr, addName (tableName ext c.text) cols, data ++ [c.values]⟩] := by
    rw [show [pr].zip [(tableName ext c.text, c.values)] = [(pr, tableName ext c.text, c.values)] from rfl]
    unfold putAll
    rw [h.key]
    dsimp only
    unfold putSeries
    rw [if_pos rfl]
    rfl
  rw [bind_intro hput]
  exact ⟨_, rfl, (touchAll_cells _ _).trans ((touchAll_cells _ _).trans hs)⟩

theorem seriesLoop_table {ext : Ext} {p : Params} {s : Sheet} {headers : List Str}
    {timeHeader freq : Str} {start last : Int} {mv : PVal} {pr : PRange} {k : Str × Time × Time}
    (hp : TableEnds p headers timeHeader freq start (List.replicate headers.length (.int last)) mv)
    (h : TableRange ext s timeHeader freq start last pr k) (hf : freq.length = 1) :
    ∀ (cs : List Column) (i : Nat) (s1 : Sheet) (cols : List Str) (data : List (List Num)),
    headers.drop i = cs.map Column.header → (∀ c ∈ cs, HasColumn ext s start last c) →
    s1.cells = s.cells →
    ∃ s2, seriesLoop ext p (List.range' i cs.length) s1 [⟨k, pr, cols, data⟩] =
      .ok ([⟨k, pr, addNames cols (cs.map fun c => tableName ext c.text),
        data ++ cs.map Column.values⟩], s2) ∧ s2.cells = s.cells
  | [], i, s1, cols, data, _, _, hs => by
    refine ⟨s1, ?_, hs⟩
    simp [seriesLoop, addNames]
  | c :: cs, i, s1, cols, data, hd, hcs, hs => by
    rw [List.length_cons, List.range'_succ]
    unfold seriesLoop
    have hi : headers[i]? = some c.header := by
      have := congrArg List.head? hd
      rw [List.head?_drop] at this
      exact this
    have hd' : headers.drop (i + 1) = cs.map Column.header := by
      have := congrArg List.tail hd
      rw [List.tail_drop] at this
      exact this
    obtain ⟨s2, e2, hs2⟩ := seriesStep_table hp h hf hi (hcs c (by simp)) hs cols data
    rw [e2]
    dsimp only
    obtain ⟨s3, e3, hs3⟩ := seriesLoop_table hp h hf cs (i + 1) s2
      (addName (tableName ext c.text) cols) (data ++ [c.values]) hd'
      (fun x hx => hcs x (List.mem_cons_of_mem _ hx)) hs2
    refine ⟨s3, ?_, hs3⟩
    rw [e3]
    simp [addNames]

theorem cellsAlong_length (s : Sheet) (al : Align) (hr hc lo hi : Int) :
    (cellsAlong s al hr hc lo hi).length = (hi + 1 - lo).toNat := by
  unfold cellsAlong; simp

theorem addNames_length : ∀ (names cols : List Str), (addNames cols names).length =
    cols.length + names.length
  | [], cols => by simp [addNames]
  | n :: names, cols => by
    obtain ⟨col, h1, _⟩ := addName_spec n cols
    have := addNames_length names (addName n cols)
    unfold addNames at this ⊢
    rw [List.foldl_cons, this, h1]
    simp
    omega

theorem getData_table {ext : Ext} {p : Params} {s s1 : Sheet} {cs : List Column}
    {timeHeader freq : Str} {start last : Int} {mv : PVal} {pr : PRange} {k : Str × Time × Time}
    (hp : TableEnds p (cs.map Column.header) timeHeader freq start
      (List.replicate (cs.map Column.header).length (.int last)) mv)
    (h : TableRange ext s timeHeader freq start last pr k) (hf : freq.length = 1)
    (hne : cs ≠ []) (hcs : ∀ c ∈ cs, HasColumn ext s start last c)
    (hlen : pr.index.length = (last + 1 - start).toNat) (hs : s1.cells = s.cells) :
    ∃ s2, getData ext p s1 = (.ok [⟨pr.freqstr, pr.index,
      addNames [] (cs.map fun c => tableName ext c.text), cs.map Column.values⟩], s2) ∧
      s2.cells = s.cells := by
  unfold getData
  rw [rangeArgs_table hp]
  have hpos : 0 < cs.length := List.length_pos_iff.2 hne
  obtain ⟨s2, e2, hs2⟩ := bucketLoop_table (p := p) h (cs.map Column.header).length [] s1 hs
    (.inl ⟨rfl, by rw [List.length_map]; exact hpos⟩)
  dsimp only [Except.bind]
  rw [e2]
  dsimp only
  have hl : Params.len (p .headersCoord) = .ok cs.length := by
    rw [hp.headersC]
    unfold Params.len
    simp
  rw [hl]
  dsimp only
  rw [List.range_eq_range']
  obtain ⟨s3, e3, hs3⟩ := seriesLoop_table hp h hf cs 0 s2 [] [] (by simp) hcs hs2
  rw [e3]
  dsimp only
  refine ⟨s3, ?_, hs3⟩
  unfold framesOf frameOf mkFrame
  have hcond : addNames [] (cs.map fun c => tableName ext c.text) ≠ [] ∧
      (addNames [] (cs.map fun c => tableName ext c.text)).length = (cs.map Column.values).length ∧
      ∀ d ∈ cs.map Column.values, d.length = pr.index.length := by
    have hlen' := addNames_length (cs.map fun c => tableName ext c.text) []
    refine ⟨?_, ?_, ?_⟩
    · intro h0
      rw [h0] at hlen'
      simp at hlen'
      omega
    · rw [hlen']; simp
    · intro d hd
      obtain ⟨c, hc, rfl⟩ := List.mem_map.1 hd
      obtain ⟨hr, hcol, _, _, hv⟩ := hcs c hc
      have := congrArg List.length hv
      rw [List.length_map, List.length_map, cellsAlong_length] at this
      rw [hlen, this]
  simp only [List.nil_append]
  rw [if_pos hcond]
  rfl

theorem tableRange_of {ext : Ext} {s : Sheet} {timeHeader freq : Str} {start last : Int}
    {ts : List Time} (hsv : SheetValid s) (hd : HasDates s timeHeader start last ts)
    (hstart : ∀ a, ts.head? = some a → PeriodStart freq a) (hrun : PeriodRun freq ts)
    (hrep : ∀ t ∈ ts, Representable t) :
    (∃ k, TableRange ext s timeHeader freq start last ⟨indexFreq freq, ts⟩ k) ∧
      ts.length = (last + 1 - start).toNat := by
  obtain ⟨⟨tr, tc, hth, hcells, hend⟩, hpos, htwo⟩ := hd
  have hlen : ts.length = (last + 1 - start).toNat := by
    have := congrArg List.length hcells
    rw [cellsAlong_length, List.length_map] at this
    exact this.symm
  refine ⟨?_, hlen⟩
  obtain ⟨a, ha, ha', hac⟩ := cells_of_cells hcells (Int.le_refl start) (by omega)
  obtain ⟨z, hz, hz', hzc⟩ := cells_of_cells hcells (p := last) (by omega) (Int.le_refl last)
  rw [Int.sub_self] at ha'
  have hhead : ts.head? = some a := by rw [List.head?_eq_getElem?]; exact ha'
  have hlast : ts.getLast? = some z := by
    rw [List.getLast?_eq_getElem?, hlen, ← hz']
    congr 1
    omega
  refine ⟨(indexFreq freq, a, z), ?_, ?_, htwo, hpos⟩
  · intro s' hs'
    have htc : ∀ q, timeCell s' .vertical tr tc q = timeCell s .vertical tr tc q := by
      intro q; unfold timeCell; rw [hs']
    refine C60_index_of_periods ext (.inl rfl) hth (by omega) (by omega) (a := a) (z := z) ?_ ?_
      (hstart a hhead) hhead hlast hrun ?_ (hrep a ha) (hrep z hz)
    · rw [htc, Int.add_zero]; exact hac
    · rw [htc, Int.add_zero]; exact hzc
    · intro t ht
      have hm : Cell.dt t ∈ cellsAlong s .vertical tr tc start last := by
        rw [hcells]; exact List.mem_map_of_mem ht
      unfold cellsAlong at hm
      obtain ⟨i, _, hi⟩ := List.mem_map.1 hm
      exact hsv _ _ _ hi
  · unfold rangeKey
    dsimp only
    rw [hhead, hlast]

end Xls
