/-
Properties C46 to C51: attempts, safe mode, preservation of the caller's objects, copies.
-/
import Verif.Lemmas.Scraper
import Verif.Props.Compare
import Verif.Spec.ScraperSamples

set_option autoImplicit false

namespace Xls

open Spec

/-! ### C51 -/

/-- C51. A copy of a worksheet has the same title, the same value in every cell and the same size. -/
theorem C51_sheet (s : Sheet) (h : WellFormed s) :
    (copySheet s).title = s.title ∧ (∀ r c, (copySheet s).cells r c = s.cells r c) ∧
      (copySheet s).maxRow = s.maxRow ∧ (copySheet s).maxCol = s.maxCol := by
  rw [copySheet_eq h]
  exact ⟨rfl, fun _ _ => rfl, rfl, rfl⟩

theorem Sample.full_wellFormed : WellFormed Sample.fullSheet :=
  Sample.rows_wellFormed (by decide) (by decide) (by decide)

example : (copySheet Sample.fullSheet).title = c!"S" ∧
    (∀ r c, (copySheet Sample.fullSheet).cells r c = Sample.fullSheet.cells r c) ∧
    (copySheet Sample.fullSheet).maxRow = 4 ∧ (copySheet Sample.fullSheet).maxCol = 3 :=
  C51_sheet _ Sample.full_wellFormed

/-- C51. Worksheets stay well-formed when cells are looked at or written. -/
theorem C51_wellFormed :
    (∀ title, WellFormed (Sheet.empty title)) ∧
    (∀ s r c, WellFormed s → 1 ≤ r → 1 ≤ c → WellFormed (s.touch r c)) ∧
    (∀ s r c v, WellFormed s → 1 ≤ r → 1 ≤ c → WellFormed (s.set r c v)) := by
  refine ⟨fun title => ⟨Int.le_refl 1, Int.le_refl 1, fun _ _ _ => rfl⟩, ?_, ?_⟩
  · intro s r c h hr hc
    refine ⟨?_, ?_, ?_⟩
    · show 1 ≤ max s.maxRow r
      omega
    · show 1 ≤ max s.maxCol c
      omega
    · intro r' c' hn
      refine h.outside r' c' ?_
      intro h'
      refine hn ⟨h'.1, ?_, h'.2.2.1, ?_⟩
      · show r' ≤ max s.maxRow r
        omega
      · show c' ≤ max s.maxCol c
        omega
  · intro s r c v h hr hc
    refine ⟨?_, ?_, ?_⟩
    · show 1 ≤ max s.maxRow r
      omega
    · show 1 ≤ max s.maxCol c
      omega
    · intro r' c' hn
      show (if r' = r ∧ c' = c then v else s.cells r' c') = _
      rw [if_neg]
      · refine h.outside r' c' ?_
        intro h'
        refine hn ⟨h'.1, ?_, h'.2.2.1, ?_⟩
        · show r' ≤ max s.maxRow r
          omega
        · show c' ≤ max s.maxCol c
          omega
      · rintro ⟨rfl, rfl⟩
        refine hn ⟨hr, ?_, hc, ?_⟩
        · show r' ≤ max s.maxRow r'
          omega
        · show c' ≤ max s.maxCol c'
          omega

theorem copyBook_spec : ∀ (wb : List Nat) (w : World),
    (∀ r ∈ wb, r < w.nextSheet ∧ WellFormed (w.sheets r)) →
    (copyBook wb w).1 = List.range' w.nextSheet wb.length ∧
    SheetsKept w (copyBook wb w).2 ∧ (copyBook wb w).2.nextSheet = w.nextSheet + wb.length ∧
    (copyBook wb w).2.params = w.params ∧ (copyBook wb w).2.nextParams = w.nextParams ∧
    (copyBook wb w).1.map (copyBook wb w).2.sheets = wb.map w.sheets
  | [], w, _ => ⟨rfl, fun _ _ => rfl, rfl, rfl, rfl, rfl⟩
  | r :: wb, w, h => by
    let w1 : World := (w.newSheet (copySheet (w.sheets r))).2
    have hs1 : ∀ q < w.nextSheet, w1.sheets q = w.sheets q := by
      intro q hq
      show (if q = w.nextSheet then _ else w.sheets q) = _
      rw [if_neg (by omega)]
    have hself : w1.sheets w.nextSheet = w.sheets r := by
      show (if w.nextSheet = w.nextSheet then copySheet (w.sheets r) else _) = _
      rw [if_pos rfl, copySheet_eq (h r (by simp)).2]
    have hn1 : w1.nextSheet = w.nextSheet + 1 := rfl
    obtain ⟨h1, h2, h3, h4, h5, h6⟩ := copyBook_spec wb w1 (fun q hq => by
      have := h q (by simp [hq])
      exact ⟨by omega, by rw [hs1 q this.1]; exact this.2⟩)
    have e : copyBook (r :: wb) w = (w.nextSheet :: (copyBook wb w1).1, (copyBook wb w1).2) := rfl
    rw [e]
    dsimp only
    refine ⟨?_, ?_, ?_, h4, h5, ?_⟩
    · rw [h1, hn1, List.length_cons, List.range'_succ]
    · intro q hq
      rw [h2 q (by omega), hs1 q hq]
    · rw [h3, hn1, List.length_cons]; omega
    · rw [List.map_cons, List.map_cons, h6, h2 _ (by omega), hself]
      congr 1
      refine List.map_congr_left fun q hq => hs1 q (h q (by simp [hq])).1

/-- C51. A copy of a workbook has, in order, sheets with the same titles and the same value in every cell;
they are new objects, and the workbook itself stays as it is. -/
theorem C51_book (wb : List Nat) (w : World) (h : ∀ r ∈ wb, r < w.nextSheet ∧ WellFormed (w.sheets r)) :
    ∃ wb' w', copyBook wb w = (wb', w') ∧
      List.Forall₂ (fun r r' => (w'.sheets r').title = (w.sheets r).title ∧
        ∀ i j, (w'.sheets r').cells i j = (w.sheets r).cells i j) wb wb' ∧
      (∀ r' ∈ wb', w.nextSheet ≤ r') ∧ wb'.Nodup ∧ SheetsKept w w' := by
  obtain ⟨h1, h2, _, _, _, h6⟩ := copyBook_spec wb w h
  refine ⟨_, _, rfl, ?_, ?_, ?_, h2⟩
  · have hlen : wb.length = (copyBook wb w).1.length := by rw [h1, List.length_range']
    rw [List.forall₂_iff_get]
    refine ⟨hlen, ?_⟩
    intro i hi hi'
    have := congrArg (fun l => l[i]?) h6
    simp only [List.getElem?_map, List.getElem?_eq_getElem hi, List.getElem?_eq_getElem hi',
      Option.map_some, Option.some.injEq] at this
    simp only [List.get_eq_getElem]
    rw [this]
    exact ⟨rfl, fun _ _ => rfl⟩
  · intro r' hr'
    rw [h1, List.mem_range'] at hr'
    omega
  · rw [h1]
    exact List.nodup_range'

example : ∃ wb' w', copyBook [0, 0] (Sample.world Sample.fullSheet Sample.table) = (wb', w') ∧
    List.Forall₂ (fun _ r' => (w'.sheets r').title = c!"S" ∧
      ∀ i j, (w'.sheets r').cells i j = Sample.fullSheet.cells i j) [0, 0] wb' ∧
    (∀ r' ∈ wb', 1 ≤ r') ∧ wb'.Nodup ∧ SheetsKept (Sample.world Sample.fullSheet Sample.table) w' :=
  C51_book [0, 0] (Sample.world Sample.fullSheet Sample.table)
    fun r hr => by
      simp only [List.mem_cons, List.not_mem_nil, or_false, or_self] at hr
      subst hr
      exact ⟨Nat.zero_lt_one, Sample.full_wellFormed⟩

/-! ### C49 -/

theorem copyBook_kept : ∀ (wb : List Nat) (w : World),
    SheetsKept w (copyBook wb w).2 ∧ w.nextSheet ≤ (copyBook wb w).2.nextSheet ∧
    (copyBook wb w).2.params = w.params ∧ (copyBook wb w).2.nextParams = w.nextParams ∧
    ∀ r ∈ (copyBook wb w).1, w.nextSheet ≤ r ∧ r < (copyBook wb w).2.nextSheet
  | [], w => ⟨fun _ _ => rfl, Nat.le_refl _, rfl, rfl, by intro r h; cases h⟩
  | r :: wb, w => by
    let w1 : World := (w.newSheet (copySheet (w.sheets r))).2
    obtain ⟨h1, h2, h3, h4, h5⟩ := copyBook_kept wb w1
    have hn1 : w1.nextSheet = w.nextSheet + 1 := rfl
    have e : copyBook (r :: wb) w = (w.nextSheet :: (copyBook wb w1).1, (copyBook wb w1).2) := rfl
    rw [e]
    dsimp only
    refine ⟨?_, by omega, h3, h4, ?_⟩
    · intro q hq
      rw [h1 q (by omega)]
      show (if q = w.nextSheet then _ else w.sheets q) = _
      rw [if_neg (by omega)]
    · intro q hq
      rcases List.mem_cons.1 hq with rfl | hq
      · omega
      · have := h5 q hq; omega

theorem runOn_frame (ext : Ext) (ws pr : Nat) (w : World) :
    (∀ r, r ≠ ws → (runOn ext ws pr w).2.sheets r = w.sheets r) ∧
    (∀ r, r ≠ pr → (runOn ext ws pr w).2.params r = w.params r) ∧
    (runOn ext ws pr w).2.nextSheet = w.nextSheet ∧ (runOn ext ws pr w).2.nextParams = w.nextParams := by
  unfold runOn
  rcases scrape ext (w.params pr) (w.sheets ws) with ⟨r, p, s⟩
  refine ⟨fun q hq => ?_, fun q hq => ?_, rfl, rfl⟩
  · show (if q = ws then s else w.sheets q) = _
    rw [if_neg hq]
  · show (if q = pr then p else w.params q) = _
    rw [if_neg hq]

/-- The scraper changes at most the sheet and the parameters it is given. -/
theorem scraperFrames_frame (ext : Ext) (ws pr : Nat) (safe : Bool) (w : World) :
    (∀ r < w.nextSheet, r ≠ ws → (scraperFrames ext ws pr safe w).2.sheets r = w.sheets r) ∧
    (∀ r < w.nextParams, r ≠ pr → (scraperFrames ext ws pr safe w).2.params r = w.params r) := by
  unfold scraperFrames
  cases hd : discoverParameters (w.params pr) with
  | error e => exact ⟨fun _ _ _ => rfl, fun _ _ _ => rfl⟩
  | ok a =>
    cases a with
    | same =>
      dsimp only
      obtain ⟨f1, f2, _, _⟩ := runOn_frame ext ws pr w
      rcases hrun : runOn ext ws pr w with ⟨r, w'⟩
      rw [hrun] at f1 f2
      cases r <;> exact ⟨fun q _ hq => f1 q hq, fun q _ hq => f2 q hq⟩
    | new ps =>
      dsimp only
      obtain ⟨n1, n2, n3, n4, n5, _⟩ := newParamsAll_spec ps w
      rcases hnew : w.newParamsAll ps with ⟨prs, w1⟩
      rw [hnew] at n1 n2 n3 n4 n5
      dsimp only at n1 n2 n3 n4 n5
      have single : ∀ pr', prs = [pr'] → w.nextParams ≤ pr' := by
        rintro pr' rfl
        have : pr' ∈ List.range' w.nextParams ps.length := by rw [← n1]; simp
        rw [List.mem_range'] at this
        omega
      split
      next pr' w1' heq =>
        cases heq
        have := single pr' rfl
        obtain ⟨f1, f2, _, _⟩ := runOn_frame ext ws pr' w1
        rcases hrun : runOn ext ws pr' w1 with ⟨r, w'⟩
        rw [hrun] at f1 f2
        have g1 : ∀ q < w.nextSheet, q ≠ ws → w'.sheets q = w.sheets q := fun q _ hq => by
          rw [f1 q hq, n2]
        have g2 : ∀ q < w.nextParams, q ≠ pr → w'.params q = w.params q := fun q hlt _ => by
          rw [f2 q (by omega), n5 q hlt]
        cases r <;> exact ⟨g1, g2⟩
      next prs' w1' _ heq =>
        cases heq
        obtain ⟨f1, _, _, f4⟩ := attemptLoop_frame ext safe ws prs w1
        rcases hloop : attemptLoop ext safe ws prs w1 with ⟨results, w'⟩
        rw [hloop] at f1 f4
        have g1 : ∀ q < w.nextSheet, q ≠ ws → w'.sheets q = w.sheets q := fun q hlt _ => by
          rw [f1 q (by omega), n2]
        have g2 : ∀ q < w.nextParams, q ≠ pr → w'.params q = w.params q := fun q hlt _ => by
          rw [f4 q (by rw [n1, List.mem_range']; omega), n5 q hlt]
        dsimp only
        cases removeDuplicates [] results <;> exact ⟨g1, g2⟩

theorem sheetNamed_mem {wb : List Nat} {name : Str} {w : World} {ws : Nat}
    (h : sheetNamed wb name w = .ok ws) : ws ∈ wb := by
  unfold sheetNamed at h
  split at h
  next r hr => cases h; exact List.mem_of_find?_eq_some hr
  next => cases h

theorem givenParams_frame (g : Given) (w : World) :
    (givenParams g w).2.sheets = w.sheets ∧ (givenParams g w).2.nextSheet = w.nextSheet ∧
    ParamsKept w (givenParams g w).2 ∧ w.nextParams ≤ (givenParams g w).2.nextParams := by
  cases g with
  | object pr => exact ⟨rfl, rfl, fun _ _ => rfl, Nat.le_refl _⟩
  | other x =>
    unfold givenParams
    dsimp only
    cases Params.new x with
    | error e => exact ⟨rfl, rfl, fun _ _ => rfl, Nat.le_refl _⟩
    | ok p =>
      refine ⟨rfl, rfl, ?_, Nat.le_succ _⟩
      intro q hq
      show (if q = w.nextParams then p else w.params q) = _
      rw [if_neg (by omega)]

/-- C49. A call that preserves the workbook leaves every worksheet that exists as it is, whatever its
outcome. -/
theorem C49_preserved (ext : Ext) (wb : List Nat) (given : Given) (name : Str) (safe : Bool) (w : World) :
    SheetsKept w (getDataFrames ext wb given name safe true w).2 := by
  obtain ⟨k1, k2, _, _, k5⟩ := copyBook_kept wb w
  unfold getDataFrames
  rw [if_pos rfl]
  rcases hc : copyBook wb w with ⟨wb', w1⟩
  rw [hc] at k1 k2 k5
  dsimp only at k1 k2 k5 ⊢
  cases chooseName ext name (wb'.map fun r => (w1.sheets r).title) with
  | error e => exact k1
  | ok nm =>
    dsimp only
    cases hs : sheetNamed wb' nm w1 with
    | error e => exact k1
    | ok ws =>
      dsimp only
      have hws := k5 ws (sheetNamed_mem hs)
      obtain ⟨g1, g2, _, _⟩ := givenParams_frame given w1
      rcases hg : givenParams given w1 with ⟨r, w2⟩
      rw [hg] at g1 g2
      dsimp only at g1 g2
      have h2 : SheetsKept w w2 := fun q hq => by rw [g1, k1 q hq]
      cases r with
      | error e => exact h2
      | ok pr =>
        dsimp only
        obtain ⟨f1, _⟩ := scraperFrames_frame ext ws pr safe w2
        rcases hf : scraperFrames ext ws pr safe w2 with ⟨r, w3⟩
        rw [hf] at f1
        have h3 : SheetsKept w w3 := fun q hq => by
          rw [f1 q (by omega) (by omega), h2 q hq]
        cases r <;> exact h3

/-- A call that returns and a call that raises, both changing the sheet they work on. -/
example :
    (getDataFrames Sample.ext0 [0] (.object 0) [] false true
      (Sample.world Sample.fullSheet Sample.table)).1 =
      .ok (.dfs (.one ⟨c!"MS", [⟨2000, 1, 1, 0⟩, ⟨2000, 2, 1, 0⟩, ⟨2000, 3, 1, 0⟩], [c!"PBI", c!"IPC"],
        [[.fin 10, .fin 11, .fin 12], [.fin 5, .fin 3, .fin (-4)]]⟩), c!"S", 0) ∧
    (getDataFrames Sample.ext0 [0] (.object 0) [] false true
      (Sample.world Sample.gapSheet Sample.table)).1 = .error .exception := by decide +kernel

/-- C49. Even a call that does not preserve the workbook changes no sheet other than the one that is
scraped. -/
theorem C49_other_sheets (ext : Ext) (wb : List Nat) (given : Given) (name : Str) (safe : Bool) (w : World)
    (nm : Str) (ws : Nat) (hn : chooseName ext name (wb.map fun r => (w.sheets r).title) = .ok nm)
    (hs : sheetNamed wb nm w = .ok ws) :
    ∀ r < w.nextSheet, r ≠ ws → (getDataFrames ext wb given name safe false w).2.sheets r = w.sheets r := by
  intro q hq hne
  unfold getDataFrames
  rw [if_neg (by simp)]
  dsimp only
  rw [hn]
  dsimp only
  rw [hs]
  dsimp only
  obtain ⟨g1, g2, _, _⟩ := givenParams_frame given w
  rcases hg : givenParams given w with ⟨r, w2⟩
  rw [hg] at g1 g2
  dsimp only at g1 g2
  cases r with
  | error e => dsimp only; rw [g1]
  | ok pr =>
    dsimp only
    obtain ⟨f1, _⟩ := scraperFrames_frame ext ws pr safe w2
    rcases hf : scraperFrames ext ws pr safe w2 with ⟨r, w3⟩
    rw [hf] at f1
    have : w3.sheets q = w.sheets q := by rw [f1 q (by omega) hne, g1]
    cases r <;> exact this

example : ∀ r < 2, r ≠ 0 → (getDataFrames Sample.ext0 [0, 1] (.object 0) c!"S" false false
    { Sample.world Sample.fullSheet Sample.table with
      sheets := fun r => if r = 0 then Sample.fullSheet else { Sample.gapSheet with title := c!"T" }
      nextSheet := 2 }).2.sheets r = { Sample.gapSheet with title := c!"T" } :=
  fun r hr hne => by
    rw [C49_other_sheets Sample.ext0 [0, 1] (.object 0) c!"S" false _ c!"S" 0 (by decide +kernel)
      (by decide +kernel) r hr hne]
    exact if_neg hne

/-! ### C47 -/

/-- What an attempt contributes on its own. -/
def attemptAlone (ext : Ext) (s : Sheet) (p : Params) : Option Dfs :=
  match (scrape ext p s).1 with
  | .ok fs => some (unwrap fs)
  | .error _ => none

theorem attemptAlone_some {ext : Ext} {s : Sheet} {p : Params} {d : Dfs} :
    attemptAlone ext s p = some d ↔ ∃ fs p', Works ext s p fs p' ∧ GivenAs fs d := by
  unfold attemptAlone Works
  rcases scrape ext p s with ⟨r, p', s'⟩
  cases r with
  | error e => simp
  | ok fs =>
    constructor
    · intro h
      cases h
      exact ⟨fs, p', ⟨s', rfl⟩, (givenAs_iff _ _).2 rfl⟩
    · rintro ⟨fs', p'', ⟨s'', h⟩, hg⟩
      cases h
      rw [givenAs_iff] at hg
      rw [← hg]

theorem attemptAlone_none {ext : Ext} {s : Sheet} {p : Params} :
    attemptAlone ext s p = none ↔ Fails ext s p := by
  unfold attemptAlone Fails
  rcases scrape ext p s with ⟨r, p', s'⟩
  cases r with
  | error e => simp
  | ok fs => simp

theorem works_of {ext : Ext} {s : Sheet} {p : Params} {fs : List Frame} (h : (scrape ext p s).1 = .ok fs) :
    Works ext s p fs (scrape ext p s).2.1 := ⟨(scrape ext p s).2.2, by rw [← h]⟩

theorem fails_of {ext : Ext} {s : Sheet} {p : Params} {e : Err} (h : (scrape ext p s).1 = .error e) :
    Fails ext s p := ⟨e, (scrape ext p s).2.1, (scrape ext p s).2.2, by rw [← h]⟩

theorem works_result {ext : Ext} {s : Sheet} {p p' : Params} {fs : List Frame} (h : Works ext s p fs p') :
    (scrape ext p s).1 = .ok fs := by
  obtain ⟨s', h⟩ := h
  rw [h]

theorem Sample.gap_wellFormed : WellFormed Sample.gapSheet :=
  Sample.rows_wellFormed (by decide) (by decide) (by decide)

theorem Sample.side_wellFormed : WellFormed Sample.sideSheet :=
  Sample.rows_wellFormed (by decide) (by decide) (by decide)

theorem Sample.gapUnknown_attempts :
    discoverParameters Sample.gapUnknown = .ok (.new [Sample.gapTable false, Sample.gapTable true]) := by
  have h : ∀ b, Sample.gapUnknown.store .missings (.list [.bool b, .bool b]) = Sample.gapTable b := by
    intro b
    funext n
    cases n <;> rfl
  rw [← h, ← h]
  rfl

theorem Sample.sideUnknown_attempts :
    discoverParameters Sample.sideUnknown = .ok (.new [Sample.sideTable false, Sample.sideTable true]) := by
  have h : ∀ b, Sample.sideUnknown.store .missings (.list [.bool b, .bool b]) = Sample.sideTable b := by
    intro b
    funext n
    cases n <;> rfl
  rw [← h, ← h]
  rfl

/-- The result for `Sample.gapSheet`. -/
def Sample.gapFrame : Frame :=
  ⟨c!"MS", [⟨2000, 1, 1, 0⟩, ⟨2000, 2, 1, 0⟩, ⟨2000, 3, 1, 0⟩], [c!"PBI", c!"IPC"],
    [[.fin 10, .nan, .fin 12], [.fin 5, .fin 3, .fin (-4)]]⟩

/-- The result for `Sample.fullSheet`. -/
def Sample.fullFrame : Frame :=
  ⟨c!"MS", [⟨2000, 1, 1, 0⟩, ⟨2000, 2, 1, 0⟩, ⟨2000, 3, 1, 0⟩], [c!"PBI", c!"IPC"],
    [[.fin 10, .fin 11, .fin 12], [.fin 5, .fin 3, .fin (-4)]]⟩

/-- The results for `Sample.sideSheet`. -/
def Sample.sideFrames : List Frame :=
  [⟨c!"MS", [⟨2000, 1, 1, 0⟩, ⟨2000, 2, 1, 0⟩], [c!"PBI"], [[.fin 10, .fin 11]]⟩,
   ⟨c!"QS-JAN", [⟨2000, 1, 1, 0⟩, ⟨2000, 4, 1, 0⟩], [c!"IPC"], [[.fin 3, .fin 4]]⟩]

theorem attemptLoop_safe (ext : Ext) (ws : Nat) : ∀ (prs : List Nat) (w : World), prs.Nodup →
    ws < w.nextSheet → WellFormed (w.sheets ws) →
    (attemptLoop ext true ws prs w).1 = prs.filterMap fun pr =>
      (attemptAlone ext (w.sheets ws) (w.params pr)).map fun d => (d, pr)
  | [], _, _, _, _ => rfl
  | pr :: prs, w, hnd, hws, hwf => by
    rw [List.nodup_cons] at hnd
    obtain ⟨w2, e1, e2, _, e4, e5⟩ := attemptLoop_step (ext := ext) (safe := true) (pr := pr) (prs := prs)
      hwf hws
    have ih := attemptLoop_safe ext ws prs w2 hnd.2 e2 (by rw [e1]; exact hwf)
    have hcongr : (prs.filterMap fun pr =>
        (attemptAlone ext (w2.sheets ws) (w2.params pr)).map fun d => (d, pr)) =
        prs.filterMap fun pr => (attemptAlone ext (w.sheets ws) (w.params pr)).map fun d => (d, pr) := by
      refine List.filterMap_congr fun q hq => ?_
      rw [e1, e4 q (by rintro rfl; exact hnd.1 hq)]
    rw [e5, List.filterMap_cons]
    unfold attemptAlone at ih hcongr ⊢
    cases hsc : (scrape ext (w.params pr) (w.sheets ws)).1 with
    | error e =>
      dsimp only [Option.map_none]
      rw [ih, hcongr]
    | ok fs =>
      dsimp only [Option.map_some]
      rw [if_pos rfl, ih, hcongr]

/-- C47. In safe mode the results are those that each set of parameters gives on the original sheet, on its
own: no attempt has any influence on another one. -/
theorem C47_isolated (ext : Ext) (ws : Nat) (prs : List Nat) (w : World) (hnd : prs.Nodup)
    (hws : ws < w.nextSheet) (hwf : WellFormed (w.sheets ws)) (d : Dfs) (pr : Nat) :
    (d, pr) ∈ (attemptLoop ext true ws prs w).1 ↔
      pr ∈ prs ∧ ∃ fs p', Works ext (w.sheets ws) (w.params pr) fs p' ∧ GivenAs fs d := by
  rw [attemptLoop_safe ext ws prs w hnd hws hwf, List.mem_filterMap]
  constructor
  · rintro ⟨q, hq, h⟩
    rw [Option.map_eq_some_iff] at h
    obtain ⟨d', h1, h2⟩ := h
    cases h2
    exact ⟨hq, attemptAlone_some.1 h1⟩
  · rintro ⟨hq, h⟩
    exact ⟨pr, hq, by rw [attemptAlone_some.2 h]; rfl⟩

theorem filterMap_sublist_of_snd {β : Type} (f : Nat → Option β) : ∀ prs : List Nat,
    ((prs.filterMap fun q => (f q).map fun d => (d, q)).map Prod.snd).Sublist prs
  | [] => .slnil
  | q :: prs => by
    have ih := filterMap_sublist_of_snd f prs
    rw [List.filterMap_cons]
    cases f q with
    | none => exact ih.cons _
    | some d => exact ih.cons₂ _

/-- C47. The results come in the order of the attempts, one at most for each. -/
theorem C47_in_order (ext : Ext) (ws : Nat) (prs : List Nat) (w : World) (hnd : prs.Nodup)
    (hws : ws < w.nextSheet) (hwf : WellFormed (w.sheets ws)) :
    ((attemptLoop ext true ws prs w).1.map Prod.snd).Sublist prs := by
  rw [attemptLoop_safe ext ws prs w hnd hws hwf]
  exact filterMap_sublist_of_snd _ prs

example (d : Dfs) (pr : Nat) :
    (d, pr) ∈ (attemptLoop Sample.ext0 true 0 [1, 2] ⟨fun _ => Sample.gapSheet, 1,
      fun r => Sample.gapTable (r = 2), 3⟩).1 ↔
      pr ∈ [1, 2] ∧ ∃ fs p', Works Sample.ext0 Sample.gapSheet (Sample.gapTable (pr = 2)) fs p' ∧
        GivenAs fs d :=
  C47_isolated Sample.ext0 0 [1, 2] _ (by decide) Nat.zero_lt_one Sample.gap_wellFormed d pr

/-- In this example the first attempt fails and the second one works. -/
example : (attemptLoop Sample.ext0 true 0 [1, 2] ⟨fun _ => Sample.gapSheet, 1,
      fun r => Sample.gapTable (r = 2), 3⟩).1 = [(.one Sample.gapFrame, 2)] := by decide +kernel

/-- C47. The attempts leave the original sheet as it is. -/
theorem C47_sheet_untouched (ext : Ext) (safe : Bool) (ws pr : Nat) (w : World) (ps : List Params)
    (hnew : discoverParameters (w.params pr) = .ok (.new ps)) (h2 : ps.length ≠ 1) :
    SheetsKept w (scraperFrames ext ws pr safe w).2 := by
  unfold scraperFrames
  rw [hnew]
  dsimp only
  obtain ⟨n1, n2, n3, _, _, _⟩ := newParamsAll_spec ps w
  rcases hn : w.newParamsAll ps with ⟨prs, w1⟩
  rw [hn] at n1 n2 n3
  dsimp only at n1 n2 n3
  have hlen : prs.length = ps.length := by rw [n1, List.length_range']
  split
  next pr' _ heq => cases heq; exact absurd hlen (by simpa using fun h => h2 h.symm)
  next heq =>
    cases heq
    obtain ⟨f1, _, _, _⟩ := attemptLoop_frame ext safe ws prs w1
    rcases hloop : attemptLoop ext safe ws prs w1 with ⟨results, w'⟩
    rw [hloop] at f1
    have g1 : SheetsKept w w' := fun q hlt => by rw [f1 q (by omega), n2]
    dsimp only
    cases removeDuplicates [] results <;> exact g1

example : SheetsKept (Sample.world Sample.gapSheet Sample.gapUnknown)
    (scraperFrames Sample.ext0 0 0 true (Sample.world Sample.gapSheet Sample.gapUnknown)).2 :=
  C47_sheet_untouched _ _ _ _ _ _ Sample.gapUnknown_attempts (by decide)

/-! ### C46 -/

theorem attemptLoop_first (ext : Ext) (ws : Nat) {fs : List Frame} {p' : Params} (rest : List Nat)
    (pr : Nat) : ∀ (before : List Nat) (w : World), (before ++ pr :: rest).Nodup → ws < w.nextSheet →
    WellFormed (w.sheets ws) → (∀ q ∈ before, Fails ext (w.sheets ws) (w.params q)) →
    Works ext (w.sheets ws) (w.params pr) fs p' →
    (attemptLoop ext false ws (before ++ pr :: rest) w).1 = [(unwrap fs, pr)] ∧
    (attemptLoop ext false ws (before ++ pr :: rest) w).2.params pr = p'
  | [], w, hnd, hws, hwf, _, hw => by
    obtain ⟨w2, e1, e2, e3, e4, e5⟩ := attemptLoop_step (ext := ext) (safe := false) (pr := pr)
      (prs := rest) hwf hws
    obtain ⟨s', hs⟩ := hw
    rw [List.nil_append, e5]
    rw [hs] at e3 ⊢
    exact ⟨rfl, e3⟩
  | b :: before, w, hnd, hws, hwf, hf, hw => by
    rw [List.cons_append, List.nodup_cons] at hnd
    obtain ⟨w2, e1, e2, _, e4, e5⟩ := attemptLoop_step (ext := ext) (safe := false) (pr := b)
      (prs := before ++ pr :: rest) hwf hws
    obtain ⟨e, q', s', hs⟩ := hf b (by simp)
    have hb : ∀ q ∈ before, w2.params q = w.params q := fun q hq =>
      e4 q (by rintro rfl; exact hnd.1 (by simp [hq]))
    have hpr : w2.params pr = w.params pr := e4 pr (by rintro rfl; exact hnd.1 (by simp))
    rw [List.cons_append, e5, hs]
    exact attemptLoop_first ext ws rest pr before w2 hnd.2 e2 (by rw [e1]; exact hwf)
      (fun q hq => by rw [e1, hb q hq]; exact hf q (by simp [hq])) (by rw [e1, hpr]; exact hw)

theorem attemptLoop_fail (ext : Ext) (safe : Bool) (ws : Nat) : ∀ (prs : List Nat) (w : World), prs.Nodup →
    ws < w.nextSheet → WellFormed (w.sheets ws) → (∀ q ∈ prs, Fails ext (w.sheets ws) (w.params q)) →
    (attemptLoop ext safe ws prs w).1 = []
  | [], _, _, _, _, _ => rfl
  | b :: prs, w, hnd, hws, hwf, hf => by
    rw [List.nodup_cons] at hnd
    obtain ⟨w2, e1, e2, _, e4, e5⟩ := attemptLoop_step (ext := ext) (safe := safe) (pr := b)
      (prs := prs) hwf hws
    obtain ⟨e, q', s', hs⟩ := hf b (by simp)
    rw [e5, hs]
    exact attemptLoop_fail ext safe ws prs w2 hnd.2 e2 (by rw [e1]; exact hwf) fun q hq => by
      rw [e1, e4 q (by rintro rfl; exact hnd.1 hq)]
      exact hf q (by simp [hq])

/-- What is needed to look into the scraper when there are several attempts. -/
theorem scraperFrames_new {ext : Ext} {safe : Bool} {ws pr : Nat} {w : World} {ps : List Params}
    (hnew : discoverParameters (w.params pr) = .ok (.new ps)) (h2 : ps.length ≠ 1) :
    ∃ (prs : List Nat) (w1 : World), prs.Nodup ∧ prs.map w1.params = ps ∧ w1.sheets = w.sheets ∧
      w1.nextSheet = w.nextSheet ∧
      scraperFrames ext ws pr safe w =
        (match removeDuplicates [] (attemptLoop ext safe ws prs w1).1 with
          | .error e => (.error e, (attemptLoop ext safe ws prs w1).2)
          | .ok unique => (answerOf prs.getLast? unique, (attemptLoop ext safe ws prs w1).2)) := by
  obtain ⟨n1, n2, n3, _, _, n6⟩ := newParamsAll_spec ps w
  rcases hn : w.newParamsAll ps with ⟨prs, w1⟩
  rw [hn] at n1 n2 n3 n6
  dsimp only at n1 n2 n3 n6
  refine ⟨prs, w1, by rw [n1]; exact List.nodup_range', n6, n2, n3, ?_⟩
  unfold scraperFrames
  rw [hnew]
  dsimp only
  rw [hn]
  have hlen : prs.length = ps.length := by rw [n1, List.length_range']
  split
  next pr' _ heq => cases heq; exact absurd hlen (by simpa using fun h => h2 h.symm)
  next heq =>
    cases heq
    rcases attemptLoop ext safe ws prs w1 with ⟨results, w'⟩
    rfl

/-- C46. Without safe mode the first attempt that works determines the answer and the parameters that are
reported, whatever the later ones would give. -/
theorem C46_first_success (ext : Ext) (ws pr : Nat) (w : World) (before after : List Params) (q q' : Params)
    (fs : List Frame) (hnew : discoverParameters (w.params pr) = .ok (.new (before ++ q :: after)))
    (h2 : (before ++ q :: after).length ≠ 1) (hws : ws < w.nextSheet) (hwf : WellFormed (w.sheets ws))
    (hf : ∀ b ∈ before, Fails ext (w.sheets ws) b) (hw : Works ext (w.sheets ws) q fs q') :
    ∃ d r w', scraperFrames ext ws pr false w = (.ok (.dfs d, r), w') ∧ GivenAs fs d ∧ w'.params r = q' := by
  obtain ⟨prs, w1, hnd, hmap, hs, hns, e⟩ := scraperFrames_new (ext := ext) (safe := false) (ws := ws) hnew h2
  obtain ⟨as, bs, rfl, ha, hb⟩ := List.map_eq_append_iff.1 hmap
  obtain ⟨r, rest, rfl, hr, hrest⟩ := List.map_eq_cons_iff.1 hb
  have hfirst := attemptLoop_first ext ws (fs := fs) (p' := q') rest r as w1 hnd (by omega)
    (by rw [hs]; exact hwf) (fun x hx => by
      rw [hs]
      exact hf _ (by rw [← ha]; exact List.mem_map.2 ⟨x, hx, rfl⟩)) (by rw [hs, hr]; exact hw)
  refine ⟨unwrap fs, r, _, ?_, (givenAs_iff _ _).2 rfl, hfirst.2⟩
  rw [e, hfirst.1]
  rfl

/-- The first attempt does not expect missing values and fails, the second one works. -/
example : ∃ d r w', scraperFrames Sample.ext0 0 0 false (Sample.world Sample.gapSheet Sample.gapUnknown) =
      (.ok (.dfs d, r), w') ∧ GivenAs [Sample.gapFrame] d ∧
      w'.params r = (scrape Sample.ext0 (Sample.gapTable true) Sample.gapSheet).2.1 :=
  C46_first_success Sample.ext0 0 0 _ [Sample.gapTable false] [] (Sample.gapTable true) _ _
    Sample.gapUnknown_attempts (by decide) Nat.zero_lt_one Sample.gap_wellFormed
    (by
      intro b hb
      rw [List.mem_singleton] at hb
      subst hb
      exact fails_of (e := .exception) (by decide +kernel))
    (works_of (by decide +kernel))

/-- C46. If all attempts fail an error is raised. -/
theorem C46_all_fail (ext : Ext) (safe : Bool) (ws pr : Nat) (w : World) (ps : List Params)
    (hnew : discoverParameters (w.params pr) = .ok (.new ps)) (h2 : 2 ≤ ps.length) (hws : ws < w.nextSheet)
    (hwf : WellFormed (w.sheets ws)) (hf : ∀ p ∈ ps, Fails ext (w.sheets ws) p) :
    (scraperFrames ext ws pr safe w).1 = .error .exception := by
  obtain ⟨prs, w1, hnd, hmap, hs, hns, e⟩ := scraperFrames_new (ext := ext) (safe := safe) (ws := ws) hnew
    (by omega)
  have hfail := attemptLoop_fail ext safe ws prs w1 hnd (by omega) (by rw [hs]; exact hwf)
    (fun x hx => by
      rw [hs]
      exact hf _ (by rw [← hmap]; exact List.mem_map.2 ⟨x, hx, rfl⟩))
  have hlen : prs.length = ps.length := by rw [← hmap, List.length_map]
  rw [e, hfail]
  show answerOf prs.getLast? [] = _
  cases prs with
  | nil => simp at hlen; omega
  | cons a prs =>
    unfold answerOf
    rw [List.getLast?_cons]
    rfl

example : (scraperFrames Sample.ext0 0 0 false (Sample.world Sample.textSheet Sample.gapUnknown)).1 =
    .error .exception :=
  C46_all_fail Sample.ext0 false 0 0 _ _ Sample.gapUnknown_attempts (by decide) Nat.zero_lt_one
    (Sample.rows_wellFormed (by decide) (by decide) (by decide))
    (by
      intro b hb
      simp only [List.mem_cons, List.not_mem_nil, or_false] at hb
      rcases hb with rfl | rfl
      · exact fails_of (e := .assertionError) (by decide +kernel)
      · exact fails_of (e := .assertionError) (by decide +kernel))

/-! ### C48 -/

/-- The frames of two results are equal in the sense of `CloseFrames`, one by one. -/
def SameFrames (fs gs : List Frame) : Prop := List.Forall₂ CloseFrames fs gs

theorem pairsEqual_frames {fs gs : List Frame} (hl : fs.length = gs.length)
    (hf : ∀ f ∈ fs, ProperFrame f) (hg : ∀ g ∈ gs, ProperFrame g) {b : Bool}
    (h : pairsEqual ((fs.map Item.frame).zip (gs.map Item.frame)) = .ok b) :
    b = true ↔ SameFrames fs gs := by
  unfold SameFrames
  induction fs generalizing gs b with
  | nil =>
    cases gs with
    | nil =>
      cases h
      exact ⟨fun _ => .nil, fun _ => rfl⟩
    | cons => cases hl
  | cons f fs ih =>
    cases gs with
    | nil => cases hl
    | cons g gs =>
      rw [List.length_cons, List.length_cons] at hl
      have hc := C68_equal_iff_close (hf f (by simp)) (hg g (by simp))
      have ih' := fun b h => ih (gs := gs) (b := b) (by omega) (fun x hx => hf x (by simp [hx]))
        (fun x hx => hg x (by simp [hx])) h
      rw [List.map_cons, List.map_cons, List.zip_cons_cons, pairsEqual.eq_def] at h
      dsimp only [compareItems] at h
      rw [List.forall₂_cons, ← hc]
      cases hcmp : compareFrames f g with
      | ok u =>
        rw [hcmp] at h
        rw [ih' b h]
        simp
      | error e =>
        rw [hcmp] at h
        have hb : b = false := by
          cases e <;> first | cases h | skip
          dsimp only at h
          split at h
          · cases h
          · cases h; rfl
        rw [hb]
        simp

theorem isRepeatedIn_true {d : Dfs} : ∀ {us : List (Dfs × Nat)}, isRepeatedIn d us = .ok true →
    ∃ u ∈ us, pairsEqual (d.items.zip u.1.items) = .ok true
  | [], h => by cases h
  | u :: us, h => by
    unfold isRepeatedIn at h
    split at h
    · cases h
    next h1 => exact ⟨u, by simp, h1⟩
    next =>
      obtain ⟨v, hv, h2⟩ := isRepeatedIn_true h
      exact ⟨v, by simp [hv], h2⟩

theorem isRepeatedIn_false {d : Dfs} : ∀ {us : List (Dfs × Nat)}, isRepeatedIn d us = .ok false →
    ∀ u ∈ us, pairsEqual (d.items.zip u.1.items) = .ok false
  | [], _ => by intro u hu; cases hu
  | u :: us, h => by
    unfold isRepeatedIn at h
    split at h
    · cases h
    · cases h
    next h1 =>
      intro v hv
      rcases List.mem_cons.1 hv with rfl | hv
      · exact h1
      · exact isRepeatedIn_false h v hv

theorem removeDuplicates_spec : ∀ (rs unique us : List (Dfs × Nat)), removeDuplicates unique rs = .ok us →
    unique.Pairwise (fun u v => pairsEqual (v.1.items.zip u.1.items) = .ok false) →
    us.Pairwise (fun u v => pairsEqual (v.1.items.zip u.1.items) = .ok false) ∧
    (∀ u ∈ us, u ∈ unique ∨ u ∈ rs) ∧ (∀ u ∈ unique, u ∈ us) ∧
    ∀ r ∈ rs, r ∈ us ∨ ∃ u ∈ us, pairsEqual (r.1.items.zip u.1.items) = .ok true
  | [], unique, us, h, hp => by
    cases h
    exact ⟨hp, fun u hu => .inl hu, fun u hu => hu, by intro r hr; cases hr⟩
  | r :: rs, unique, us, h, hp => by
    unfold removeDuplicates at h
    split at h
    · cases h
    next hrep =>
      obtain ⟨i1, i2, i3, i4⟩ := removeDuplicates_spec rs unique us h hp
      refine ⟨i1, fun u hu => ?_, i3, fun x hx => ?_⟩
      · rcases i2 u hu with h | h
        · exact .inl h
        · exact .inr (by simp [h])
      · rcases List.mem_cons.1 hx with rfl | hx
        · obtain ⟨u, hu, h2⟩ := isRepeatedIn_true hrep
          exact .inr ⟨u, i3 u hu, h2⟩
        · exact i4 x hx
    next hrep =>
      have hp' : (unique ++ [r]).Pairwise (fun u v => pairsEqual (v.1.items.zip u.1.items) = .ok false) := by
        rw [List.pairwise_append]
        refine ⟨hp, by simp, ?_⟩
        intro u hu v hv
        rw [List.mem_singleton] at hv
        subst hv
        exact isRepeatedIn_false hrep u hu
      obtain ⟨i1, i2, i3, i4⟩ := removeDuplicates_spec rs (unique ++ [r]) us h hp'
      refine ⟨i1, fun u hu => ?_, fun u hu => i3 u (by simp [hu]), fun x hx => ?_⟩
      · rcases i2 u hu with h | h
        · rw [List.mem_append, List.mem_singleton] at h
          rcases h with h | rfl
          · exact .inl h
          · exact .inr (by simp)
        · exact .inr (by simp [h])
      · rcases List.mem_cons.1 hx with rfl | hx
        · exact .inl (i3 x (by simp))
        · exact i4 x hx

/-- The results in an answer. -/
def Answer.results : Answer → List Dfs
  | .dfs d => [d]
  | .several ds => ds

theorem answerOf_results {last : Option Nat} {us : List (Dfs × Nat)} {a : Answer} {pr : Nat}
    (h : answerOf last us = .ok (a, pr)) : a.results = us.map Prod.fst := by
  unfold answerOf at h
  split at h
  · cases h
  · cases h; rfl
  · split at h
    · cases h; rfl
    · cases h

/-- C48. If in safe mode every set of parameters that works gives the same number, at least two, of proper
data frames and an answer is returned, then its results are pairwise different, each comes from one of the
sets of parameters, and each of these is represented. Missing: results of a single data frame
(`C48_single_frame_violated`) and results with different numbers of data frames
(`C48_prefix_violated`). -/
theorem C48_distinct_partial (ext : Ext) (ws pr : Nat) (w : World) (ps : List Params) (k : Nat) (hk : 2 ≤ k)
    (hnew : discoverParameters (w.params pr) = .ok (.new ps)) (h2 : 2 ≤ ps.length) (hws : ws < w.nextSheet)
    (hwf : WellFormed (w.sheets ws))
    (hfr : ∀ p ∈ ps, ∀ fs p', Works ext (w.sheets ws) p fs p' →
      fs.length = k ∧ ∀ f ∈ fs, ProperFrame f)
    (a : Answer) (r : Nat) (w' : World) (h : scraperFrames ext ws pr true w = (.ok (a, r), w')) :
    ∃ fss : List (List Frame), a.results = fss.map Dfs.many ∧
      fss.Pairwise (fun fs gs => ¬ SameFrames gs fs) ∧
      (∀ fs ∈ fss, ∃ p ∈ ps, ∃ p', Works ext (w.sheets ws) p fs p') ∧
      ∀ p ∈ ps, ∀ fs p', Works ext (w.sheets ws) p fs p' → fs ∈ fss ∨ ∃ gs ∈ fss, SameFrames fs gs := by
  obtain ⟨prs, w1, hnd, hmap, hs, hns, e⟩ := scraperFrames_new (ext := ext) (safe := true) (ws := ws) hnew
    (by omega)
  have hiso := C47_isolated ext ws prs w1 hnd (by omega) (by rw [hs]; exact hwf)
  rw [hs] at hiso
  rw [e] at h
  split at h
  · cases h
  next us hus =>
    injection h with ha hw'
    obtain ⟨i1, i2, _, i4⟩ := removeDuplicates_spec _ _ _ hus .nil
    have hres := answerOf_results ha
    have hmem : ∀ u ∈ us, ∃ fs, u.1 = .many fs ∧ fs.length = k ∧ (∀ f ∈ fs, ProperFrame f) ∧
        ∃ p ∈ ps, ∃ p', Works ext (w.sheets ws) p fs p' := by
      intro u hu
      rcases i2 u hu with h | h
      · cases h
      · obtain ⟨hq, fs, p', hw, hg⟩ := (hiso u.1 u.2).1 h
        have hin : w1.params u.2 ∈ ps := by rw [← hmap]; exact List.mem_map.2 ⟨u.2, hq, rfl⟩
        obtain ⟨hlen, hprop⟩ := hfr _ hin fs p' hw
        rcases hg with ⟨f, rfl, _⟩ | ⟨_, hg⟩
        · simp at hlen; omega
        · exact ⟨fs, hg, hlen, hprop, _, hin, p', hw⟩
    let frames : Dfs → List Frame := fun d => match d with
      | .many fs => fs
      | .one f => [f]
    have hfr' : ∀ u ∈ us, u.1 = .many (frames u.1) := by
      intro u hu
      obtain ⟨fs, h, _⟩ := hmem u hu
      rw [h]
    refine ⟨us.map fun u => frames u.1, ?_, ?_, ?_, ?_⟩
    · rw [hres, List.map_map]
      exact List.map_congr_left fun u hu => hfr' u hu
    · rw [List.pairwise_map]
      refine i1.imp_of_mem ?_
      intro u v hu hv huv hsame
      obtain ⟨fs, e1, l1, p1, _⟩ := hmem u hu
      obtain ⟨gs, e2, l2, p2, _⟩ := hmem v hv
      rw [e1, e2] at huv hsame
      have := (pairsEqual_frames (by omega) p2 p1 huv).2 hsame
      cases this
    · intro fs hfs
      rw [List.mem_map] at hfs
      obtain ⟨u, hu, rfl⟩ := hfs
      obtain ⟨gs, e1, _, _, hp⟩ := hmem u hu
      rw [e1]
      exact hp
    · intro p hp fs p' hw
      rw [← hmap, List.mem_map] at hp
      obtain ⟨q, hq, rfl⟩ := hp
      have hin : w1.params q ∈ ps := by rw [← hmap]; exact List.mem_map.2 ⟨q, hq, rfl⟩
      obtain ⟨hlen, hprop⟩ := hfr _ hin fs p' hw
      have hr := (hiso (.many fs) q).2 ⟨hq, fs, p', hw, .inr ⟨by omega, rfl⟩⟩
      rcases i4 _ hr with h | ⟨u, hu, h⟩
      · exact .inl (List.mem_map.2 ⟨_, h, rfl⟩)
      · obtain ⟨gs, e1, l1, p1, _⟩ := hmem u hu
        refine .inr ⟨gs, List.mem_map.2 ⟨u, hu, by rw [e1]⟩, ?_⟩
        rw [e1] at h
        exact (pairsEqual_frames (by omega) hprop p1 h).1 rfl

/-- Both attempts give the same two data frames: they are reported once. -/
example : (scraperFrames Sample.ext0 0 0 true (Sample.world Sample.sideSheet Sample.sideUnknown)).1 =
    .ok (.dfs (.many Sample.sideFrames), 1) := by decide +kernel

example (p : Params) (hp : p ∈ [Sample.sideTable false, Sample.sideTable true]) (fs : List Frame)
    (p' : Params) (h : Works Sample.ext0 Sample.sideSheet p fs p') :
    fs.length = 2 ∧ ∀ f ∈ fs, ProperFrame f := by
  have h1 := works_result h
  have h2 : fs = Sample.sideFrames := by
    simp only [List.mem_cons, List.not_mem_nil, or_false] at hp
    rcases hp with rfl | rfl
    · have : (scrape Sample.ext0 (Sample.sideTable false) Sample.sideSheet).1 = .ok Sample.sideFrames := by
        decide +kernel
      rw [this] at h1; cases h1; rfl
    · have : (scrape Sample.ext0 (Sample.sideTable true) Sample.sideSheet).1 = .ok Sample.sideFrames := by
        decide +kernel
      rw [this] at h1; cases h1; rfl
  subst h2
  refine ⟨rfl, ?_⟩
  intro f hf
  simp only [Sample.sideFrames, List.mem_cons, List.not_mem_nil, or_false] at hf
  rcases hf with rfl | rfl <;> exact ⟨by decide, by decide, by decide⟩

theorem pairsEqual_name : ∀ (xs : List (Item × Item)), (∀ x ∈ xs, ∃ n, x.1 = .name n) → xs ≠ [] →
    pairsEqual xs = .ok false
  | [], _, h => absurd rfl h
  | (a, b) :: xs, h, _ => by
    obtain ⟨n, hn⟩ := h (a, b) (by simp)
    dsimp only at hn
    subst hn
    have hc : compareItems (.name n) b = .error .assertionError := by cases b <;> rfl
    unfold pairsEqual
    rw [hc]
    dsimp only
    cases xs with
    | nil => rfl
    | cons x xs => rw [pairsEqual_name (x :: xs) (fun y hy => h y (by simp [hy])) (by simp)]

theorem removeDuplicates_single : ∀ (rs unique : List (Dfs × Nat)),
    (∀ r ∈ unique ++ rs, ∃ f, r.1 = .one f ∧ f.columns ≠ []) →
    removeDuplicates unique rs = .ok (unique ++ rs)
  | [], unique, _ => by rw [List.append_nil]; rfl
  | r :: rs, unique, h => by
    obtain ⟨f, hf, hne⟩ := h r (by simp)
    have hrep : ∀ us : List (Dfs × Nat), (∀ u ∈ us, ∃ f, u.1 = .one f ∧ f.columns ≠ []) →
        isRepeatedIn r.1 us = .ok false := by
      intro us
      induction us with
      | nil => intro _; rfl
      | cons u us ih =>
        intro hu
        obtain ⟨g, hg, hgne⟩ := hu u (by simp)
        unfold isRepeatedIn
        rw [pairsEqual_name]
        · exact ih fun v hv => hu v (by simp [hv])
        · intro x hx
          rw [hf] at hx
          have := (List.of_mem_zip hx).1
          unfold Dfs.items at this
          rw [List.mem_map] at this
          obtain ⟨n, _, hn⟩ := this
          exact ⟨n, hn.symm⟩
        · rw [hf, hg]
          unfold Dfs.items
          simpa using ⟨hne, hgne⟩
    unfold removeDuplicates
    rw [hrep unique fun u hu => h u (by simp [hu])]
    dsimp only
    rw [removeDuplicates_single rs (unique ++ [r]) (by simpa using h), List.append_assoc,
      List.singleton_append]

/-- C48, violated: if each set of parameters that works gives a single data frame, all of them are in the
answer, however many times the same one occurs. -/
theorem C48_single_frame_violated (ext : Ext) (ws pr : Nat) (w : World) (ps : List Params)
    (hnew : discoverParameters (w.params pr) = .ok (.new ps)) (h2 : 2 ≤ ps.length) (hws : ws < w.nextSheet)
    (hwf : WellFormed (w.sheets ws)) (fs : List Frame) (hne : fs ≠ []) (hcol : ∀ f ∈ fs, f.columns ≠ [])
    (hall : List.Forall₂ (fun p f => ∃ p', Works ext (w.sheets ws) p [f] p') ps fs) :
    ∃ a r w', scraperFrames ext ws pr true w = (.ok (a, r), w') ∧ a.results = fs.map Dfs.one := by
  obtain ⟨prs, w1, hnd, hmap, hs, hns, e⟩ := scraperFrames_new (ext := ext) (safe := true) (ws := ws) hnew
    (by omega)
  have hloop := attemptLoop_safe ext ws prs w1 hnd (by omega) (by rw [hs]; exact hwf)
  have hres : (attemptLoop ext true ws prs w1).1 = (fs.map Dfs.one).zip prs := by
    rw [hloop, hs]
    have key : ∀ (l : List Nat) (gs : List Frame),
        List.Forall₂ (fun p f => ∃ p', Works ext (w.sheets ws) p [f] p') (l.map w1.params) gs →
        (l.filterMap fun pr => (attemptAlone ext (w.sheets ws) (w1.params pr)).map fun d => (d, pr)) =
          (gs.map Dfs.one).zip l := by
      intro l
      induction l with
      | nil => intro gs h; cases h; rfl
      | cons x l ih =>
        intro gs h
        rw [List.map_cons] at h
        cases h with
        | cons h1 h2 =>
          obtain ⟨p', hw⟩ := h1
          rw [List.filterMap_cons, attemptAlone_some.2 ⟨_, p', hw, .inl ⟨_, rfl, rfl⟩⟩, List.map_cons,
            List.zip_cons_cons, ← ih _ h2]
          rfl
    exact key prs fs (by rw [hmap]; exact hall)
  have hlen : (fs.map Dfs.one).length = prs.length := by
    rw [List.length_map, ← hall.length_eq, ← hmap, List.length_map]
  have hdup : removeDuplicates [] ((fs.map Dfs.one).zip prs) = .ok ((fs.map Dfs.one).zip prs) := by
    refine removeDuplicates_single _ _ ?_
    intro x hx
    rw [List.nil_append] at hx
    have := (List.of_mem_zip hx).1
    rw [List.mem_map] at this
    obtain ⟨f, hf, he⟩ := this
    exact ⟨f, he.symm, hcol f hf⟩
  rw [hres, hdup] at e
  dsimp only at e
  have hpl : 2 ≤ prs.length := by rw [← hlen, List.length_map, ← hall.length_eq]; exact h2
  obtain ⟨last, hlast⟩ : ∃ l, prs.getLast? = some l := by
    cases hp : prs.getLast? with
    | none => rw [List.getLast?_eq_none_iff] at hp; rw [hp] at hpl; simp at hpl
    | some l => exact ⟨l, rfl⟩
  have hans : ∃ a r, answerOf prs.getLast? ((fs.map Dfs.one).zip prs) = .ok (a, r) := by
    rw [hlast]
    unfold answerOf
    split
    next h => rw [List.zip_eq_nil_iff] at h; rcases h with h | h
              · rw [List.map_eq_nil_iff] at h; exact absurd h hne
              · rw [h] at hpl; simp at hpl
    · exact ⟨_, _, rfl⟩
    · exact ⟨_, _, rfl⟩
  obtain ⟨a, r, har⟩ := hans
  rw [har] at e
  refine ⟨a, r, _, e, ?_⟩
  rw [answerOf_results har, List.map_fst_zip (by omega)]

/-- The same data frame is reported twice. -/
example : ∃ a r w', scraperFrames Sample.ext0 0 0 true (Sample.world Sample.fullSheet Sample.gapUnknown) =
    (.ok (a, r), w') ∧ a.results = [.one Sample.fullFrame, .one Sample.fullFrame] :=
  C48_single_frame_violated Sample.ext0 0 0 _ _ Sample.gapUnknown_attempts (by decide) Nat.zero_lt_one
    Sample.full_wellFormed [Sample.fullFrame, Sample.fullFrame] (by decide) (by decide)
    (.cons ⟨_, works_of (by decide +kernel)⟩ (.cons ⟨_, works_of (by decide +kernel)⟩ .nil))

/-- C48, violated: a result that starts with the data frames of an earlier one is taken for a repetition of
it, although it has more of them. -/
theorem C48_prefix_violated (fs gs : List Frame) (a b : Nat) (h : ∀ f ∈ fs, ProperFrame f) :
    removeDuplicates [] [(.many fs, a), (.many (fs ++ gs), b)] = .ok [(.many fs, a)] := by
  have hp : pairsEqual (((fs ++ gs).map Item.frame).zip (fs.map Item.frame)) = .ok true := by
    induction fs with
    | nil => simp [pairsEqual]
    | cons f fs ih =>
      rw [List.cons_append, List.map_cons, List.map_cons, List.zip_cons_cons]
      unfold pairsEqual
      dsimp only [compareItems]
      rw [C68_reflexive (h f (by simp))]
      exact ih fun x hx => h x (by simp [hx])
  unfold removeDuplicates
  dsimp only [isRepeatedIn]
  unfold removeDuplicates
  rw [List.nil_append]
  unfold isRepeatedIn
  dsimp only [Dfs.items]
  rw [hp]
  rfl

end Xls
