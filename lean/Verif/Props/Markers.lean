/-
C125: of the missing markers only matters which cells they tell.
-/
import Verif.Lemmas.Markers
import Verif.Props.NameParts

set_option autoImplicit false

namespace Xls

open Spec

/-- C125. Two objects of parameters that differ in the missing markers only: if for every series with missing values the
markers are lists that tell the same cells of the worksheet, the outcome is the same, and so is the worksheet. -/
theorem C125_markers {ext : Ext} {p q : Params} {k : Nat} {s : Sheet} (hs : WellFormed s) (hk : 1 ≤ k)
    (hp : SeriesCount p k) (hq : SeriesCount q k) (hsame : SameButMarkers p q) (hm : MarkersTellSame s p q) :
    (scrape ext q s).1 = (scrape ext p s).1 ∧ (scrape ext q s).2.2 = (scrape ext p s).2.2 := by
  refine scrape_markers (P := ContentOf s) (.inl rfl) (fun t => .inr (.inl ⟨t, rfl⟩)) hk
    ⟨hp, hq, hsame, fun i b m m' h1 h2 h3 => ?_⟩ fun r c => .inr (.inr ⟨r, c, rfl⟩)
  rcases hm i b m m' h1 h2 h3 with h | ⟨ms, ms', e1, e2, h⟩
  · exact .inl h
  · exact .inr ⟨ms, ms', e1, e2, tellSame_agree hs h⟩

/-- C125. The same through the entry point: both calls raise the same error or give the same data frames. -/
theorem C125_call (ext : Ext) (wb wb' : List Nat) (w w' : World) (given given' : Given) (name name' : Str)
    (safe safe' preserve preserve' : Bool) (r r' : Nat) {p q : Params} {k : Nat} (hreq : Requested ext wb w name r)
    (hreq' : Requested ext wb' w' name' r') (hwb : ∀ q ∈ wb, q < w.nextSheet ∧ WellFormed (w.sheets q))
    (hwb' : ∀ q ∈ wb', q < w'.nextSheet ∧ WellFormed (w'.sheets q)) (hsheet : w'.sheets r' = w.sheets r)
    (hgiven : GivenWith given w p) (hgiven' : GivenWith given' w' q) (hk : 1 ≤ k)
    (hp : SeriesCount p k) (hq : SeriesCount q k) (hsame : SameButMarkers p q)
    (hm : MarkersTellSame (w.sheets r) p q) :
    (∃ e w1 w1', getDataFrames ext wb given name safe preserve w = (.error e, w1) ∧
      getDataFrames ext wb' given' name' safe' preserve' w' = (.error e, w1')) ∨
    ∃ d kept kept' w1 w1',
      getDataFrames ext wb given name safe preserve w = (.ok (.dfs d, (w.sheets r).title, kept), w1) ∧
      getDataFrames ext wb' given' name' safe' preserve' w' = (.ok (.dfs d, (w.sheets r).title, kept'), w1') := by
  obtain ⟨h1, -⟩ := C125_markers (ext := ext) (hwb r hreq.1).2 hk hp hq hsame hm
  revert h1
  rcases hscr : scrape ext p (w.sheets r) with ⟨res, p', s'⟩
  rcases hscr' : scrape ext q (w.sheets r) with ⟨res', q', s''⟩
  intro h1
  dsimp only at h1
  subst h1
  obtain ⟨pr, w1, e⟩ := call_result ext wb w given name safe preserve r hreq hwb hgiven (count_complete hp) hscr
  obtain ⟨pr', w1', e'⟩ := call_result ext wb' w' given' name' safe' preserve' r' hreq' hwb' hgiven' (count_complete hq)
    (res := res') (p' := q') (s' := s'') (by rw [hsheet]; exact hscr')
  rw [hsheet] at e'
  cases res' with
  | error er => exact .inl ⟨er, w1, w1', e, e'⟩
  | ok fs => exact .inr ⟨_, pr, pr', w1, w1', e, e'⟩

/-- C125. Lists with the same members tell the same cells of every worksheet: order and repetition do not matter. -/
theorem C125_same_members {ms ms' : List PVal} (h : ∀ m, m ∈ ms' ↔ m ∈ ms) (s : Sheet) : TellSame s ms ms' := by
  have e : ∀ c, IsMarker ms' c ↔ IsMarker ms c := by
    intro c
    unfold IsMarker
    simp only [h]
  exact ⟨e _, fun r c => ⟨e _, e _⟩⟩

/-- C125. A further marker that is neither in a cell of the worksheet nor "Implicit" changes nothing. -/
theorem C125_further_marker {ms : List PVal} {m : PVal} {s : Sheet} (hi : ¬ IsMarker [m] (.str c!"Implicit"))
    (h : ∀ r c, ¬ IsMarker [m] (trimmed (s.cells r c)) ∧ ¬ IsMarker [m] (blankAsNothing (s.cells r c))) :
    TellSame s ms (m :: ms) := by
  have e : ∀ c, ¬ IsMarker [m] c → (IsMarker (m :: ms) c ↔ IsMarker ms c) := by
    intro c hc
    constructor
    · rintro ⟨x, h1, m', h2, h3⟩
      rcases List.mem_cons.1 h2 with rfl | h2
      · exact absurd ⟨x, h1, _, List.mem_singleton.2 rfl, h3⟩ hc
      · exact ⟨x, h1, m', h2, h3⟩
    · rintro ⟨x, h1, m', h2, h3⟩
      exact ⟨x, h1, m', List.mem_cons_of_mem _ h2, h3⟩
  exact ⟨e _ hi, fun r c => ⟨e _ (h r c).1, e _ (h r c).2⟩⟩

/-! ### Examples -/

namespace Sample

/-- Quarterly values, one of which is marked as missing. -/
def markedSheet : Sheet := rows
  [[.str c!"fecha", .str c!"PBI "],
   [.str c!"2000 III", .int 10],
   [.str c!"IV", .str c!" s/d"],
   [.str c!"2001 I", .int 12]]

/-- Their parameters, with missing markers. -/
def markedParams (markers : List PVal) : Params :=
  ((paramsOf [quarterSeries c!"B1"]).store .missings (.list [.bool true])).store .missingValue (.list [.list markers])

theorem markedParams_count (markers : List PVal) : SeriesCount (markedParams markers) 1 := by
  intro m
  unfold markedParams Params.store
  split
  · exact ⟨_, rfl, rfl⟩
  · split
    · exact ⟨_, rfl, rfl⟩
    · exact ⟨_, rfl, rfl⟩

theorem markedParams_tell {s : Sheet} {ms ms' : List PVal} (h : TellSame s ms ms') :
    MarkersTellSame s (markedParams ms) (markedParams ms') := by
  rintro i b m m' - ⟨vs, h1, h2⟩ ⟨vs', h3, h4⟩
  cases h1
  cases h3
  cases i with
  | zero =>
    cases h2
    cases h4
    exact .inr ⟨ms, ms', rfl, rfl, h⟩
  | succ i => cases h2

/-- What holds of nothing and of all cells given holds of all cells of the worksheet made of them. -/
theorem rows_all {vs : List (List Cell)} {Q : Cell → Prop} (h0 : Q .none) (h : ∀ row ∈ vs, ∀ v ∈ row, Q v) (r c : Int) :
    Q ((rows vs).cells r c) := by
  unfold rows
  dsimp only
  split
  · rw [List.getD_eq_getElem?_getD, List.getD_eq_getElem?_getD]
    cases h1 : vs[r.toNat - 1]? with
    | none => exact h0
    | some row =>
      dsimp only [Option.getD]
      cases h2 : row[c.toNat - 1]? with
      | none => exact h0
      | some v => exact h _ (List.mem_of_getElem? h1) _ (List.mem_of_getElem? h2)
  · exact h0

end Sample

/-- A marker that occurs nowhere makes no difference to a worksheet with missing values. -/
example : (∃ e w1 w1', getDataFrames Sample.ext0 [0] (.object 0) [] false false
      (Sample.world Sample.markedSheet (Sample.markedParams [.str c!"s/d"])) = (.error e, w1) ∧
    getDataFrames Sample.ext0 [0] (.object 0) [] true false
      (Sample.world Sample.markedSheet (Sample.markedParams [.int 99, .str c!"s/d"])) = (.error e, w1')) ∨
    ∃ d kept kept' w1 w1', getDataFrames Sample.ext0 [0] (.object 0) [] false false
      (Sample.world Sample.markedSheet (Sample.markedParams [.str c!"s/d"])) = (.ok (.dfs d, c!"S", kept), w1) ∧
    getDataFrames Sample.ext0 [0] (.object 0) [] true false
      (Sample.world Sample.markedSheet (Sample.markedParams [.int 99, .str c!"s/d"])) = (.ok (.dfs d, c!"S", kept'), w1') :=
  have hw : ∀ (ms : List PVal), ∀ q ∈ [0],
      q < (Sample.world Sample.markedSheet (Sample.markedParams ms)).nextSheet ∧
      WellFormed ((Sample.world Sample.markedSheet (Sample.markedParams ms)).sheets q) := by
    intro ms q hq
    cases List.mem_singleton.1 hq
    exact ⟨Nat.zero_lt_one, Sample.rows_wellFormed (by decide) (by decide) (by decide)⟩
  C125_call Sample.ext0 [0] [0] (Sample.world Sample.markedSheet (Sample.markedParams [.str c!"s/d"]))
    (Sample.world Sample.markedSheet (Sample.markedParams [.int 99, .str c!"s/d"])) (.object 0) (.object 0) [] [] false true
    false false 0 0 (p := Sample.markedParams [.str c!"s/d"]) (q := Sample.markedParams [.int 99, .str c!"s/d"]) (k := 1)
    ⟨by simp, by simp, .inl ⟨rfl, rfl⟩⟩ ⟨by simp, by simp, .inl ⟨rfl, rfl⟩⟩ (hw _) (hw _) rfl
    (.inl ⟨0, rfl, rfl⟩) (.inl ⟨0, rfl, rfl⟩) (by decide) (Sample.markedParams_count _) (Sample.markedParams_count _)
    (fun n hn => by simp [Sample.markedParams, Params.store, hn])
    (Sample.markedParams_tell (C125_further_marker (by decide)
      (Sample.rows_all
        (Q := fun v => ¬ IsMarker [.int 99] (trimmed v) ∧ ¬ IsMarker [.int 99] (blankAsNothing v))
        (by decide) (by decide))))

/-- These calls give the data frame: the marked cell is missing. -/
example : (scrape Sample.ext0 (Sample.markedParams [.str c!"s/d"]) Sample.markedSheet).1 =
    .ok [⟨c!"QS-JAN", [⟨2000, 7, 1, 0⟩, ⟨2000, 10, 1, 0⟩, ⟨2001, 1, 1, 0⟩], [c!"PBI"], [[.fin 10, .nan, .fin 12]]⟩] := by
  decide +kernel

/-- Without the marker an error is raised. -/
example : ∃ e, (scrape Sample.ext0 (Sample.markedParams [.int 99]) Sample.markedSheet).1 = .error e :=
  ⟨.exception, by decide +kernel⟩

end Xls
