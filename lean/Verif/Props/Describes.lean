/-
C74, C76: dictionaries that describe the series completely.
-/
import Verif.Lemmas.Describes
import Verif.Props.Tables

set_option autoImplicit false

namespace Xls

open Spec

/-- C74. A complete description builds exactly the series it describes: every parameter of the object has one
entry per series, the one described. -/
theorem C74_described (d : PDict) (ps ts : List Pos) (sps : List SParams) (h : Describes d ps ts sps) :
    ∃ p, Params.new (.dict d) = .ok p ∧ HasSeries p sps := new_describes h

/-- C76. Scraping with a dictionary that describes the series of a table completely returns the table. -/
theorem C76_described (ext : Ext) (wb : List Nat) (w : World) (d : PDict) (name : Str) (safe preserve : Bool)
    (r : Nat) {ps ts : List Pos} {sps : List SParams} {sp : SParams} {timeHeader : TimeHeader} {start : Int} {al : Align}
    {freq : Str} {style : Style} {tr tc last : Int} {ots : List (Option Time)} {grid : List Time}
    {series : List (Str × List Num)} (hreq : Requested ext wb w name r)
    (hwb : ∀ q ∈ wb, q < w.nextSheet ∧ WellFormed (w.sheets q)) (hd : Describes d ps ts sps)
    (h0 : sps.head? = some sp) (hsame : SameIndex sps timeHeader freq start 0 al)
    (ht : TimeTable ext sp (w.sheets r) style tr tc last ots) (hg : OnPeriods sp grid (ots.filterMap id))
    (hser : List.Forall₂ (fun sp nv => SeriesIs ext (w.sheets r) tr tc last ots grid sp nv.1 nv.2) sps series) :
    ∃ columns pr w', getDataFrames ext wb (.other (.dict d)) name safe preserve w =
        (.ok (.dfs (.one ⟨indexFreq freq, grid, columns, series.map Prod.snd⟩), (w.sheets r).title, pr), w') ∧
      ColumnsOf (series.map Prod.fst) columns := by
  obtain ⟨p, hp, hs⟩ := new_describes hd
  exact C76_call ext wb w _ name safe preserve r hreq hwb (.inr ⟨_, rfl, hp⟩) hs h0 hsame ht hg hser

/-! ### Examples -/

namespace Sample

/-- A description of the two series of `quarterSheet`. -/
def quarterDict : PDict :=
  [(.known .headersCoord, .str c!"b1:c1"), (.known .dataStarts, .int 2), (.known .frequency, .str c!"q"),
   (.known .timeHeaderCoord, .str c!"A1"), (.known .continuity, .bool true), (.known .blankRows, .bool false),
   (.known .missings, .list [.bool false, .bool false]), (.known .timeComposed, .bool true),
   (.known .missingValue, .list [.list [], .list []])]

theorem quarter_described : Describes quarterDict [(1, 2), (1, 3)] [(1, 1)]
    [quarterSeries c!"B1", quarterSeries c!"C1"] where
  distinct := by unfold DistinctKeys; decide
  known := by
    intro kv hkv
    simp only [quarterDict, List.mem_cons, List.not_mem_nil, or_false] at hkv
    rcases hkv with rfl | rfl | rfl | rfl | rfl | rfl | rfl | rfl | rfl <;> exact ⟨_, rfl⟩
  nonempty := by simp
  headers := ⟨_, rfl, .inl ⟨_, rfl, .inr ⟨(1, 2), (1, 3), ':', .inr rfl, by unfold Positive; decide, rfl,
    isRectangle_rectPositions (1, 2) (1, 3)⟩⟩⟩
  positive := by unfold Positive; decide
  headerCells := by decide
  times := ⟨_, rfl, .inl ⟨_, rfl, .inl ⟨(1, 1), by decide, by decide, by decide, rfl⟩⟩⟩
  timesPositive := by unfold Positive; decide
  timeCells := .inl ⟨(1, 1), rfl, by decide⟩
  starts := ⟨_, rfl, .inl ⟨by simp [IsListValue], by simp [rawValue, quarterSeries, monthly]⟩⟩
  frequency := ⟨_, [c!"q", c!"q"], rfl, .inl ⟨by simp [IsListValue], by simp⟩,
    .cons ⟨.inr (.inr (.inr (by decide))), by unfold FreqCode; decide⟩
      (.cons ⟨.inr (.inr (.inr (by decide))), by unfold FreqCode; decide⟩ .nil)⟩
  switches := by
    intro n hn
    simp only [List.mem_cons, List.not_mem_nil, or_false] at hn
    rcases hn with rfl | rfl | rfl | rfl
    · exact ⟨_, rfl, .inl ⟨by simp [IsListValue], by simp [rawValue, quarterSeries, monthly]⟩⟩
    · exact ⟨_, rfl, .inl ⟨by simp [IsListValue], by simp [rawValue, quarterSeries, monthly]⟩⟩
    · exact ⟨_, rfl, .inr (.inr rfl)⟩
    · exact ⟨_, rfl, .inl ⟨by simp [IsListValue], by simp [rawValue, quarterSeries, monthly]⟩⟩
  optional := by
    intro n hn
    simp only [List.mem_cons, List.not_mem_nil, or_false] at hn
    rcases hn with rfl | rfl | rfl <;>
      exact .inr ⟨.inl rfl, by simp [rawValue, quarterSeries, monthly]⟩
  context := ⟨.inl rfl, by decide⟩
  multicolumn := ⟨.inr (.inl rfl), by decide⟩
  timeAlignment := ⟨.inr ⟨.inl rfl, by decide⟩, by decide⟩
  markers := .inl ⟨_, rfl, .inr (.inr ⟨rfl, by simp [quarterSeries, monthly, IsListValue]⟩)⟩
  alignment := .inr ⟨.inl rfl, .vertical, .inl ⟨rfl, by decide, ⟨⟨1, by decide⟩, by decide⟩, .inr ⟨1, 2, by decide⟩⟩,
    by decide⟩
  below := fun _ => .cons (by decide) (.cons (by decide) .nil)
  beside := by
    rintro (h | ⟨_, _, h, _⟩)
    · cases h
    · obtain ⟨c, hc⟩ := h
      have h1 := hc (1, 2) (by decide)
      have h2 := hc (1, 3) (by decide)
      simp only at h1 h2
      omega

end Sample

example : ∃ p, Params.new (.dict Sample.quarterDict) = .ok p ∧
    HasSeries p [Sample.quarterSeries c!"B1", Sample.quarterSeries c!"C1"] :=
  C74_described _ _ _ _ Sample.quarter_described

/-- The two series of `quarterSheet` from their description. -/
example : ∃ columns pr w',
    getDataFrames Sample.ext0 [0] (.other (.dict Sample.quarterDict)) [] false true
      (Sample.world Sample.quarterSheet Params.empty) =
      (.ok (.dfs (.one ⟨c!"QS-JAN", [⟨2000, 7, 1, 0⟩, ⟨2000, 10, 1, 0⟩, ⟨2001, 1, 1, 0⟩], columns,
        [[.fin 10, .fin 11, .fin 12], [.fin 1, .fin 2, .fin 3]]⟩), c!"S", pr), w') ∧
    ColumnsOf [c!"PBI", c!"IPC"] columns :=
  C76_described Sample.ext0 [0] (Sample.world Sample.quarterSheet Params.empty) _ [] false true 0
    (timeHeader := .single c!"A1") (freq := c!"Q") (start := 2) (al := .vertical)
    (series := [(c!"PBI", [.fin 10, .fin 11, .fin 12]), (c!"IPC", [.fin 1, .fin 2, .fin 3])])
    ⟨by decide, by decide, .inl ⟨rfl, rfl⟩⟩
    (by
      intro q hq
      simp only [List.mem_cons, List.not_mem_nil, or_false] at hq
      subst hq
      exact ⟨by decide, Sample.rows_wellFormed (by decide) (by decide) (by decide)⟩)
    Sample.quarter_described rfl (.ofSingle (by decide) (by decide) (by decide) (by decide) (by decide) (by decide))
    Sample.quarter_table Sample.quarter_periods
    (.cons (Sample.quarter_series _ 2 (by decide) (by decide) _ _ _ rfl (by decide) rfl rfl)
      (.cons (Sample.quarter_series _ 3 (by decide) (by decide) _ _ _ rfl (by decide) rfl rfl) .nil))

end Xls
