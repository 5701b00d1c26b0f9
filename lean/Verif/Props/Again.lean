/-
C96: what a call gives if it is made again with the same `Parameters` object.
-/
import Verif.Lemmas.Again2
import Verif.Props.Usable
import Verif.Props.Tables

set_option autoImplicit false

namespace Xls

open Spec

theorem hasSeries_inj {p : Params} {sps sps' : List SParams} (h : HasSeries p sps) (h' : HasSeries p sps') :
    sps = sps' := by
  have hl : sps.length = sps'.length := by
    have := (h .alignment).symm.trans (h' .alignment)
    injection this with this
    simpa using congrArg List.length this
  refine List.ext_getElem hl fun i h1 h2 => ?_
  have e1 := typed_of_series h (List.getElem?_eq_getElem h1)
  have e2 := typed_of_series h' (List.getElem?_eq_getElem h2)
  rw [e1] at e2
  injection e2

/-- Cleaning again with the parameters that were filled in. -/
theorem cleanData_again {ext : Ext} {p p' : Params} {s s' : Sheet} {sps : List SParams} (hp : HasSeries p sps)
    (hplain : ∀ sp ∈ sps, PlainIndex sp) (h : cleanData ext p s = (.ok (), p', s')) (hne : NoCellEmptied s s') :
    ∃ sps', HasSeries p' sps' ∧ List.Forall₂ (EndFilled True) sps sps' ∧
      ((∃ t', cleanData ext p' s = (.ok (), p', t') ∧ t'.cells = s'.cells) ∨
      ((∃ err q' t', cleanData ext p' s = (.error err, q', t')) ∧
        ((∀ sp ∈ sps, isImplicitStr sp.missingValue = false) → ExtValid ext → SheetValid s →
          SeparateIndexes sps → ¬ ∀ sp ∈ sps', LastDateOnce sp s'))) := by
  have hgo : ∀ {q : Params} {qs : List SParams} (s : Sheet), HasSeries q qs → qs ≠ [] →
      (∀ sp ∈ qs, sp.timeMulticolumn = false) →
      cleanData ext q s = cleanSeries ext (List.range' 0 qs.length) q s [] := by
    intro q qs s hq hne' hm
    unfold cleanData
    cases qs with
    | nil => exact absurd rfl hne'
    | cons sp rest =>
      rw [index_of_series hq .timeMulticolumn (i := 0) (sp := sp) rfl]
      dsimp only
      rw [if_neg (by
        show ¬ PVal.truthy (.bool sp.timeMulticolumn) = true
        rw [hm sp (by simp)]; unfold PVal.truthy; decide)]
      have h2 : Params.len (q .timeHeaderCoord) = .ok (sp :: rest).length := by
        rw [hq .timeHeaderCoord]
        unfold Params.len
        simp
      rw [h2]
      dsimp only
      rw [List.range_eq_range']
  have hnil : sps ≠ [] := by
    rintro rfl
    unfold cleanData at h
    rw [hp .timeMulticolumn] at h
    unfold Params.index at h
    cases h
  rw [hgo s hp hnil (fun sp hsp => (hplain sp hsp).single)] at h
  obtain ⟨sps', r1, r2, r3⟩ := cleanSeries_again (t := s) sps [] hp
    (fun sp hsp => ⟨(hplain sp hsp).single, (hplain sp hsp).inLine⟩) (by simp) h hne rfl
  rw [List.nil_append] at r1
  refine ⟨sps', r1, r2, ?_⟩
  have hl := r2.length_eq
  rw [hgo s r1 (by
    rintro rfl
    exact hnil (List.length_eq_zero_iff.1 hl)) (fun sp hsp => by
    obtain ⟨a, ha, hab⟩ : ∃ a ∈ sps, EndFilled True a sp := by
      obtain ⟨i, hi, rfl⟩ := List.mem_iff_getElem.1 hsp
      exact ⟨sps[i], List.getElem_mem _, (List.forall₂_iff_get.1 r2).2 i (by omega) hi⟩
    rw [hab.same]
    exact (hplain a ha).single), ← hl]
  exact r3 [] p' rfl r1

/-- C96. If data frames were got from a worksheet then, with the parameters as they are afterwards, one gets
the same data frames from the same worksheet or an error: never others. -/
theorem C96_same {ext : Ext} {p p' p'' : Params} {s s' s'' : Sheet} {fs gs : List Frame} {sps : List SParams}
    (hp : HasSeries p sps) (hplain : ∀ sp ∈ sps, PlainIndex sp) (h : scrape ext p s = (.ok fs, p', s'))
    (hne : NoCellEmptied s s') (h2 : scrape ext p' s = (.ok gs, p'', s'')) : gs = fs ∧ p'' = p' := by
  unfold scrape at h
  split at h
  · cases h
  next p1 s1 hc =>
    rcases hg : getData ext p1 s1 with ⟨r, s2⟩
    rw [hg] at h
    cases h
    have hcells := getData_cells hg
    obtain ⟨sps', r1, r2, r3⟩ := cleanData_again hp hplain hc (fun r c hn => hne r c (by rw [hcells]; exact hn))
    unfold scrape at h2
    rcases r3 with ⟨t', e1, e2⟩ | ⟨⟨err, q', t', e1⟩, _⟩
    · rw [e1] at h2
      dsimp only at h2
      obtain ⟨t2, g1, _⟩ := getData_congr r1 (fun sp hsp => by
        obtain ⟨i, hi, rfl⟩ := List.mem_iff_getElem.1 hsp
        have hl := r2.length_eq
        have := ((List.forall₂_iff_get.1 r2).2 i (by omega) hi).same
        rw [List.get_eq_getElem, List.get_eq_getElem] at this
        rw [this]
        exact (hplain _ (List.getElem_mem (by omega))).oneFrequency) e2 hg
      rw [g1] at h2
      cases h2
      exact ⟨rfl, rfl⟩
    · rw [e1] at h2
      cases h2

/-- C96. If besides the last date of each time index stands there only once, one does get them again. -/
theorem C96_again_partial {ext : Ext} {p p' : Params} {s s' : Sheet} {fs : List Frame} {sps sps' : List SParams}
    (he : ExtValid ext) (hsv : SheetValid s) (hp : HasSeries p sps) (hplain : ∀ sp ∈ sps, PlainIndex sp)
    (himp : ∀ sp ∈ sps, sp.missingValue ≠ .str c!"Implicit") (hsep : SeparateIndexes sps)
    (h : scrape ext p s = (.ok fs, p', s')) (hne : NoCellEmptied s s')
    (hp' : HasSeries p' sps') (honce : ∀ sp ∈ sps', LastDateOnce sp s') :
    ∃ s'', scrape ext p' s = (.ok fs, p', s'') := by
  unfold scrape at h
  split at h
  · cases h
  next p1 s1 hc =>
    rcases hg : getData ext p1 s1 with ⟨r, s2⟩
    rw [hg] at h
    cases h
    have hcells := getData_cells hg
    obtain ⟨_, r1, r2, r3⟩ := cleanData_again hp hplain hc (fun r c hn => hne r c (by rw [hcells]; exact hn))
    cases hasSeries_inj hp' r1
    unfold scrape
    rcases r3 with ⟨t', e1, e2⟩ | ⟨_, hno⟩
    · rw [e1]
      dsimp only
      obtain ⟨t2, g1, _⟩ := getData_congr r1 (fun sp hsp => by
        obtain ⟨i, hi, rfl⟩ := List.mem_iff_getElem.1 hsp
        have hl := r2.length_eq
        have := ((List.forall₂_iff_get.1 r2).2 i (by omega) hi).same
        rw [List.get_eq_getElem, List.get_eq_getElem] at this
        rw [this]
        exact (hplain _ (List.getElem_mem (by omega))).oneFrequency) e2 hg
      rw [g1]
      exact ⟨t2, rfl⟩
    · refine absurd (fun sp hsp => ?_) (hno (fun sp hsp => ?_) he hsv hsep)
      · intro hr hc' e pos x a1 a2 a3 a4 a5
        have := honce sp hsp hr hc' e pos x a1 a2 a3 a4
        unfold timeCell at this a5 ⊢
        rw [hcells] at this
        exact this a5
      · have := himp sp hsp
        unfold isImplicitStr
        split
        next x h =>
          rw [beq_eq_false_iff_ne]
          rintro rfl
          exact this h
        · rfl

/-- What the entry point does with a `Parameters` object that is complete, if the workbook is to be kept: the
result, the object afterwards, and the worksheets as they were. -/
theorem call_object (ext : Ext) (wb : List Nat) (w : World) (pr : Nat) (name : Str) (safe : Bool)
    (r : Nat) {p' : Params} {s' : Sheet} {res : Except Err (List Frame)} (hreq : Requested ext wb w name r)
    (hwb : ∀ q ∈ wb, q < w.nextSheet ∧ WellFormed (w.sheets q))
    (hcomp : (w.params pr).isComplete = .ok true) (hscr : scrape ext (w.params pr) (w.sheets r) = (res, p', s')) :
    ∃ w', getDataFrames ext wb (.object pr) name safe true w =
        (res.map fun frames => (.dfs (unwrap frames), (w.sheets r).title, pr), w') ∧
      w'.params pr = p' ∧ SheetsKept w w' ∧ w.nextSheet ≤ w'.nextSheet := by
  obtain ⟨c1, c2, c3, c4, c5, c6⟩ := copyBook_spec wb w hwb
  have hkept := C49_preserved ext wb (.object pr) name safe w
  rcases hc : copyBook wb w with ⟨wb1, w1⟩
  rw [hc] at c1 c2 c3 c4 c5 c6
  dsimp only at c1 c2 c3 c4 c5 c6
  obtain ⟨r1, hr1, hs1⟩ := requested_copy hreq c6
  obtain ⟨e1, e2⟩ := requested_found hr1
  have hrun : runOn ext r1 pr w1 = (res, w1.update r1 pr s' p') := by
    unfold runOn
    rw [c4, hs1, hscr]
  have hres : getDataFrames ext wb (.object pr) name safe true w =
      (res.map fun frames => (.dfs (unwrap frames), (w.sheets r).title, pr), w1.update r1 pr s' p') := by
    unfold getDataFrames
    rw [if_pos rfl, hc]
    dsimp only
    rw [e1]
    dsimp only
    rw [e2]
    dsimp only
    rw [show givenParams (.object pr) w1 = (.ok pr, w1) from rfl]
    dsimp only
    unfold scraperFrames discoverParameters
    rw [c4, hcomp]
    dsimp only
    rw [hrun]
    cases res with
    | error e => rfl
    | ok frames => dsimp only; rw [hs1]; rfl
  refine ⟨w1.update r1 pr s' p', hres, ?_, ?_, ?_⟩
  · show (if pr = pr then p' else _) = p'
    rw [if_pos rfl]
  · rw [hres] at hkept
    exact hkept
  · show w.nextSheet ≤ w1.nextSheet
    omega

/-- C96. Through the entry point, the workbook being kept: the second call with the same object gives the same
answer as the first. -/
theorem C96_call_partial (ext : Ext) (wb : List Nat) (w : World) (pr : Nat) (name : Str) (safe : Bool)
    (r : Nat) {p' : Params} {s' : Sheet} {fs : List Frame} {sps sps' : List SParams}
    (hreq : Requested ext wb w name r)
    (hwb : ∀ q ∈ wb, q < w.nextSheet ∧ WellFormed (w.sheets q)) (he : ExtValid ext)
    (hsv : SheetValid (w.sheets r)) (hp : HasSeries (w.params pr) sps) (hplain : ∀ sp ∈ sps, PlainIndex sp)
    (himp : ∀ sp ∈ sps, sp.missingValue ≠ .str c!"Implicit") (hsep : SeparateIndexes sps)
    (h : scrape ext (w.params pr) (w.sheets r) = (.ok fs, p', s')) (hne : NoCellEmptied (w.sheets r) s')
    (hp' : HasSeries p' sps') (honce : ∀ sp ∈ sps', LastDateOnce sp s') :
    ∃ a w' w'', getDataFrames ext wb (.object pr) name safe true w = (.ok a, w') ∧
      getDataFrames ext wb (.object pr) name safe true w' = (.ok a, w'') := by
  have hnil : sps ≠ [] := by
    rintro rfl
    unfold scrape cleanData at h
    rw [hp .timeMulticolumn] at h
    unfold Params.index at h
    cases h
  obtain ⟨w', e1, e2, e3, e4⟩ := call_object ext wb w pr name safe r hreq hwb (complete_series hp hnil) h
  obtain ⟨s'', h2⟩ := C96_again_partial he hsv hp hplain himp hsep h hne hp' honce
  obtain ⟨_, u1, u2, _⟩ := C90_usable hp h
  have hsame : ∀ q ∈ wb, w'.sheets q = w.sheets q := fun q hq => e3 q (hwb q hq).1
  have hr := hreq.1
  have ht : wb.map (fun r => (w'.sheets r).title) = wb.map fun r => (w.sheets r).title :=
    List.map_congr_left fun q hq => by rw [hsame q hq]
  have hreq' : Requested ext wb w' name r := by
    unfold Requested at hreq ⊢
    rw [ht, hsame r hr]
    exact hreq
  obtain ⟨w'', g1, _⟩ := call_object ext wb w' pr name safe r (res := .ok fs) (p' := p') (s' := s'') hreq'
    (fun q hq => ⟨by have := (hwb q hq).1; omega, by rw [hsame q hq]; exact (hwb q hq).2⟩)
    (by
      rw [e2]
      exact complete_series u1 (by
        rintro rfl
        exact hnil (List.length_eq_zero_iff.1 u2.length_eq)))
    (by rw [e2, hsame r hr]; exact h2)
  rw [hsame r hr] at g1
  exact ⟨_, w', w'', e1, g1⟩

/-! ### Examples -/

namespace Sample

/-- A series by quarters, and whether rows may be empty. -/
def quarterBlank (b : Bool) (header : Str) : SParams := { quarterSeries header with blankRows := b }

/-- Two series by quarters with the end that is found. -/
def quarterEndsBlank (b : Bool) : List SParams :=
  [{ quarterBlank b c!"B1" with dataEnds := some 4 }, { quarterBlank b c!"C1" with dataEnds := some 4 }]

def quarterEnds : List SParams := quarterEndsBlank false

/-- What becomes of the worksheet with quarters. -/
theorem quarter_scraped_blank (b : Bool) : ∃ fs s', scrape ext0 (paramsOf [quarterBlank b c!"B1", quarterBlank b c!"C1"]) quarterSheet =
      (.ok fs, paramsOf (quarterEndsBlank b), s') ∧ NoCellEmptied quarterSheet s' ∧
      ∀ sp ∈ quarterEndsBlank b, LastDateOnce sp s' := by
  obtain ⟨s1, hs1⟩ : ∃ s1, s1 = (cleanTimeIndex ext0 (quarterBlank b c!"B1") quarterSheet).2 := ⟨_, rfl⟩
  have hc : cleanTimeIndex ext0 (quarterBlank b c!"B1") quarterSheet = (.ok 4, s1) :=
    Prod.ext (show (cleanTimeIndex ext0 (quarterBlank b c!"B1") quarterSheet).1 = .ok 4 by cases b <;> decide +kernel) hs1.symm
  obtain ⟨p', h1, h2⟩ := cleanData_series (p := paramsOf [quarterBlank b c!"B1", quarterBlank b c!"C1"])
    (sp := quarterBlank b c!"B1") (rest := [quarterBlank b c!"C1"]) (th := c!"A1") (fun _ => rfl) (by cases b <;> decide) rfl hc
    (by cases b <;> decide)
  have hp' : p' = paramsOf (quarterEndsBlank b) := funext fun n => (h2 n).trans rfl
  subst hp'
  have hg : ∃ fs, getData ext0 (paramsOf (quarterEndsBlank b)) s1 = (.ok fs, (getData ext0 (paramsOf (quarterEndsBlank b)) s1).2) := by
    have : ((getData ext0 (paramsOf (quarterEndsBlank b)) (cleanTimeIndex ext0 (quarterBlank b c!"B1") quarterSheet).2).1.toOption).isSome = true := by
      cases b <;> decide +kernel
    rw [← hs1] at this
    rcases hx : getData ext0 (paramsOf (quarterEndsBlank b)) s1 with ⟨r, s2⟩
    rw [hx] at this
    cases r with
    | error e => cases this
    | ok fs => exact ⟨fs, rfl⟩
  obtain ⟨fs, hg⟩ := hg
  have hcells := getData_cells hg
  refine ⟨fs, (getData ext0 (paramsOf (quarterEndsBlank b)) s1).2, ?_, fun r c hn => ?_, fun sp hsp => ?_⟩
  · unfold scrape
    rw [h1]
    dsimp only
    rw [hg]
  · rw [hcells] at hn
    by_contra hne
    have hch : (cleanTimeIndex ext0 (quarterBlank b c!"B1") quarterSheet).2.cells r c ≠ quarterSheet.cells r c := by
      rw [← hs1, hn]
      exact fun e => hne e.symm
    obtain ⟨hr, hc', pos, a1, a2, a3, a4⟩ := C11_only_time_column_touched r c hch
    have a1 := headerAt_iff.1 a1
    cases a1
    have a2 : 2 ≤ pos := a2
    have a3 : pos ≤ 6 := a3
    obtain ⟨q1, q2⟩ := a4
    change r = pos at q1
    change c = 1 at q2
    subst q1
    subst q2
    rw [hs1] at hn
    have : r = 2 ∨ r = 3 ∨ r = 4 ∨ r = 5 ∨ r = 6 := by omega
    rcases this with rfl | rfl | rfl | rfl | rfl
    all_goals
      revert hn hne
      cases b <;> decide +kernel
  · intro hr hc' e pos x a1 a2 a3 a4 a5
    have key : ∀ hr hc' e, timeHeaderCell (.single c!"A1") = .ok (hr, hc') → e = 4 → 2 ≤ pos → pos < e →
        timeCell s1 .vertical hr hc' pos = .dt x → timeCell s1 .vertical hr hc' e ≠ .dt x := by
      intro hr hc' e k1 k2 k3 k4 k5 k6
      cases k1
      subst k2
      have d : timeCell s1 .vertical 1 1 4 = .dt ⟨2001, 1, 1, 0⟩ := by
        rw [hs1]; cases b <;> decide +kernel
      have d2 : timeCell s1 .vertical 1 1 2 = .dt ⟨2000, 7, 1, 0⟩ := by
        rw [hs1]; cases b <;> decide +kernel
      have d3 : timeCell s1 .vertical 1 1 3 = .dt ⟨2000, 10, 1, 0⟩ := by
        rw [hs1]; cases b <;> decide +kernel
      rw [show timeCell s1 .vertical 1 1 4 = .dt x from k6] at d
      cases d
      have : pos = 2 ∨ pos = 3 := by omega
      rcases this with rfl | rfl
      · rw [show timeCell s1 .vertical 1 1 2 = _ from k5] at d2
        cases d2
      · rw [show timeCell s1 .vertical 1 1 3 = _ from k5] at d3
        cases d3
    unfold timeCell at a5 ⊢
    rw [hcells] at a5 ⊢
    simp only [quarterEndsBlank, List.mem_cons, List.not_mem_nil, or_false] at hsp
    rcases hsp with rfl | rfl
    · exact key hr hc' e (headerAt_iff.1 a1) (Option.some.inj a2).symm a3 a4 a5
    · exact key hr hc' e (headerAt_iff.1 a1) (Option.some.inj a2).symm a3 a4 a5

theorem quarter_scraped : ∃ fs s', scrape ext0 (paramsOf [quarterSeries c!"B1", quarterSeries c!"C1"]) quarterSheet =
      (.ok fs, paramsOf quarterEnds, s') ∧ NoCellEmptied quarterSheet s' ∧
      ∀ sp ∈ quarterEnds, LastDateOnce sp s' := quarter_scraped_blank false

theorem quarter_separate : SeparateIndexes [quarterSeries c!"B1", quarterSeries c!"C1"] := by
  intro sp h sp' h' hne
  exact absurd (by
    simp only [List.mem_cons, List.not_mem_nil, or_false] at h h'
    rcases h with rfl | rfl <;> rcases h' with rfl | rfl <;> rfl) hne

theorem quarter_sheet_valid : SheetValid quarterSheet := by
  intro r c t h
  unfold quarterSheet rows at h
  dsimp only at h
  split at h
  · generalize r.toNat - 1 = i at h
    generalize c.toNat - 1 = j at h
    rcases i with _ | _ | _ | _ | _ | _ | i <;> rcases j with _ | _ | _ | j <;> simp at h
  · cases h

theorem quarter_plain : ∀ sp ∈ [quarterSeries c!"B1", quarterSeries c!"C1"], PlainIndex sp := by
  intro sp h
  simp only [List.mem_cons, List.not_mem_nil, or_false] at h
  rcases h with rfl | rfl <;> exact ⟨rfl, rfl, rfl⟩

/-- Days in order, but the last one twice. -/
def twiceSheet : Sheet := rows
  [[.str c!"fecha", .str c!"PBI"],
   [day 2018 1 2, .int 10],
   [day 2018 1 4, .int 11],
   [day 2018 1 4, .int 12]]

def twiceSeries : SParams :=
  { monthly with frequency := c!"D", missings := true, missingValue := .list [.str c!"..."] }

end Sample

/-- The quarters again: the end of the data is noted in the object, and the second call gives the same. -/
example : ∃ a w' w'',
    getDataFrames Sample.ext0 [0] (.object 0) [] false true (Sample.world Sample.quarterSheet
      (Sample.paramsOf [Sample.quarterSeries c!"B1", Sample.quarterSeries c!"C1"])) = (.ok a, w') ∧
    getDataFrames Sample.ext0 [0] (.object 0) [] false true w' = (.ok a, w'') := by
  obtain ⟨fs, s', h1, h2, h3⟩ := Sample.quarter_scraped
  exact C96_call_partial Sample.ext0 [0] _ 0 [] false 0
    (sps := [Sample.quarterSeries c!"B1", Sample.quarterSeries c!"C1"]) (sps' := Sample.quarterEnds)
    ⟨by simp, by simp, .inl ⟨rfl, rfl⟩⟩
    (by
      intro q hq
      simp only [List.mem_cons, List.not_mem_nil, or_false] at hq
      subst hq
      exact ⟨Nat.zero_lt_one, Sample.rows_wellFormed (by decide) (by decide) (by decide)⟩)
    (by intro s f t h; cases h) Sample.quarter_sheet_valid (fun _ => rfl) Sample.quarter_plain
    (by
      intro sp h
      simp only [List.mem_cons, List.not_mem_nil, or_false] at h
      rcases h with rfl | rfl <;> exact fun h => by cases h)
    Sample.quarter_separate h1 h2 (fun _ => rfl) h3

/-- With these, `C96_same` says that other frames cannot come out. -/
example : ∃ fs p' s', scrape Sample.ext0 (Sample.paramsOf [Sample.quarterSeries c!"B1", Sample.quarterSeries c!"C1"])
      Sample.quarterSheet = (.ok fs, p', s') ∧
    ∀ gs p'' s'', scrape Sample.ext0 p' Sample.quarterSheet = (.ok gs, p'', s'') → gs = fs ∧ p'' = p' := by
  obtain ⟨fs, s', h1, h2, _⟩ := Sample.quarter_scraped
  exact ⟨fs, _, s', h1, fun gs p'' s'' h => C96_same (fun _ => rfl) Sample.quarter_plain h1 h2 h⟩

/-- C96, violated: three days, the last one twice. The first call takes the third row as the last one and gives a
data frame; it notes this end in the object, so that the second call takes the repeated date for an error. -/
theorem C96_violated : ∃ (ext : Ext) (w w' w'' : World) (a : Answer × Str × Nat) (sp : SParams),
    HasSeries (w.params 0) [sp] ∧ PlainIndex sp ∧ Requested ext [0] w [] 0 ∧ WellFormed (w.sheets 0) ∧
    getDataFrames ext [0] (.object 0) [] false true w = (.ok a, w') ∧
    getDataFrames ext [0] (.object 0) [] false true w' = (.error .sameTimeValue, w'') := by
  refine ⟨Sample.ext0, Sample.world Sample.twiceSheet (Sample.paramsOf [Sample.twiceSeries]),
    (getDataFrames Sample.ext0 [0] (.object 0) [] false true
      (Sample.world Sample.twiceSheet (Sample.paramsOf [Sample.twiceSeries]))).2, _,
    (.dfs (.one ⟨c!"D", [⟨2018, 1, 2, 0⟩, ⟨2018, 1, 3, 0⟩, ⟨2018, 1, 4, 0⟩], [c!"PBI"], [[.fin 10, .fin 11, .fin 12]]⟩),
      c!"S", 0), Sample.twiceSeries, fun _ => rfl, ⟨rfl, rfl, rfl⟩, ⟨by simp, by simp, .inl ⟨rfl, rfl⟩⟩,
    Sample.rows_wellFormed (by decide) (by decide) (by decide), Prod.ext ?_ rfl, Prod.ext ?_ rfl⟩
  · decide +kernel
  · decide +kernel

end Xls
