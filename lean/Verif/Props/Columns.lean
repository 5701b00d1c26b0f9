/-
Properties C94 and C95: which series the columns of the data frames belong to, and that none is lost.
-/
import Verif.Lemmas.Columns
import Verif.Props.Usable

set_option autoImplicit false

namespace Xls

open Spec

/-- What scraping gives, column by column, on the original worksheet. -/
theorem scrape_columns {ext : Ext} {p p' : Params} {s s' : Sheet} {fs : List Frame} {sps : List SParams}
    (hp : HasSeries p sps) (hb : HeadersBefore sps) (h : scrape ext p s = (.ok fs, p', s')) :
    ∃ sps' owners, HasSeries p' sps' ∧
      List.Forall₂ (EndFilled (∀ sp ∈ sps, sp.timeMulticolumn = false)) sps sps' ∧
      List.Forall₂ (OwnedBy ext sps' s) fs owners ∧
      ∀ (i : Nat) (sp : SParams), sps[i]? = some sp → 1 ≤ owners.flatten.count i ∧
        owners.flatten.count i ≤ sp.frequency.eraseDups.length := by
  unfold scrape at h
  split at h
  · cases h
  next p1 s1 hc =>
    obtain ⟨sps', f1, f2⟩ := cleanData_filled hp hc
    cases hg : getData ext p1 s1 with
    | mk r s2 =>
      rw [hg] at h
      cases h
      obtain ⟨given, owners, g1, g2, g3⟩ := getData_columns f1 hg
      have hs1 : (cleanData ext p s).2.2 = s1 := by rw [hc]
      have hd : DatesOver s s1 := by
        rw [← hs1]
        exact cleanData_keeps (datesOver_clean ext s) (fun r c => .inl rfl)
      have hl := f2.length_eq
      refine ⟨sps', owners, f1, f2, ?_, ?_⟩
      · refine g2.imp fun f o ho => ownedBy_over hd (fun sp' hsp' r c hrc => ?_) ho
        obtain ⟨i, hi, rfl⟩ := List.mem_iff_getElem.1 hsp'
        have he := ((List.forall₂_iff_get.1 f2).2 i (by omega) hi).same
        rw [List.get_eq_getElem, List.get_eq_getElem] at he
        rw [← hs1]
        refine cleanData_before hp fun sq hsq => hb sps[i] (List.getElem_mem _) sq hsq r c ?_
        rw [he] at hrc
        exact hrc
      · intro i sp hi
        obtain ⟨hi1, rfl⟩ := List.getElem?_eq_some_iff.1 hi
        have hgl := g1.length_eq
        rw [List.length_range] at hgl
        have hgi := (List.forall₂_iff_get.1 g1).2 i (by simpa [← hl] using hi1) (by omega)
        rw [List.get_eq_getElem, List.get_eq_getElem, List.getElem_range] at hgi
        obtain ⟨k1, k2⟩ := seriesGives_length hgi
          (typed_of_series f1 (List.getElem?_eq_getElem (show i < sps'.length by omega)))
        have he := ((List.forall₂_iff_get.1 f2).2 i hi1 (by omega)).same
        rw [List.get_eq_getElem, List.get_eq_getElem] at he
        rw [he] at k2
        have hd : given.getD i [] = given[i] := by
          rw [List.getD_eq_getElem?_getD, List.getElem?_eq_getElem (by omega)]
          rfl
        rw [g3.count_eq, withOwner_count, if_pos (Nat.zero_le _), Nat.sub_zero, hd]
        exact ⟨List.length_pos_iff.2 k1, k2⟩

/-- C94. If cleaning and extraction give data frames, then for each column of each of them there is one
series, of those of the parameters with their ends filled in, such that the column has the name of this series
(or that name with a number after it, to tell it from another column) and its numbers are those in the cells
of this series: no column has the name of a series and the numbers of another one. All this on the worksheet
as it was before cleaning. -/
theorem C94_columns {ext : Ext} {p p' : Params} {s s' : Sheet} {fs : List Frame} {sps : List SParams}
    (hp : HasSeries p sps) (hb : HeadersBefore sps) (h : scrape ext p s = (.ok fs, p', s')) :
    ∃ sps' owners, HasSeries p' sps' ∧
      List.Forall₂ (EndFilled (∀ sp ∈ sps, sp.timeMulticolumn = false)) sps sps' ∧
      List.Forall₂ (OwnedBy ext sps' s) fs owners := by
  obtain ⟨sps', owners, h1, h2, h3, _⟩ := scrape_columns hp hb h
  exact ⟨sps', owners, h1, h2, h3⟩

/-- C94. The same through the entry point, with a `Parameters` object, a dictionary or a file that gives
every parameter of every series, whatever the flags and the other worksheets. -/
theorem C94_answer (ext : Ext) (wb : List Nat) (w w' : World) (given : Given) (name : Str) (safe preserve : Bool)
    (r : Nat) {p : Params} {sps : List SParams} {a : Answer} {nm : Str} {pr : Nat}
    (hreq : Requested ext wb w name r)
    (hwb : ∀ q ∈ wb, q < w.nextSheet ∧ WellFormed (w.sheets q))
    (hgiven : (∃ pr, given = .object pr ∧ w.params pr = p) ∨ (∃ x, given = .other x ∧ Params.new x = .ok p))
    (hp : HasSeries p sps) (hne : sps ≠ []) (hb : HeadersBefore sps)
    (h : getDataFrames ext wb given name safe preserve w = (.ok (a, nm, pr), w')) :
    ∃ fs sps' owners, a = .dfs (unwrap fs) ∧
      List.Forall₂ (EndFilled (∀ sp ∈ sps, sp.timeMulticolumn = false)) sps sps' ∧
      List.Forall₂ (OwnedBy ext sps' (w.sheets r)) fs owners := by
  rcases hscr : scrape ext p (w.sheets r) with ⟨res, p', s'⟩
  obtain ⟨pr', w1, e⟩ := call_result ext wb w given name safe preserve r hreq hwb hgiven
    (complete_series hp hne) hscr
  rw [e] at h
  cases res with
  | error er => cases h
  | ok fs =>
    cases h
    obtain ⟨sps', owners, _, h2, h3⟩ := C94_columns hp hb hscr
    exact ⟨fs, sps', owners, rfl, h2, h3⟩

/-- C95. If cleaning and extraction give data frames, every series has a column in them and no more columns
than it has different frequencies; and every column is of one of the series. -/
theorem C95_every_series {ext : Ext} {p p' : Params} {s s' : Sheet} {fs : List Frame} {sps : List SParams}
    (hp : HasSeries p sps) (hb : HeadersBefore sps) (h : scrape ext p s = (.ok fs, p', s')) :
    ∃ sps' owners, HasSeries p' sps' ∧
      List.Forall₂ (EndFilled (∀ sp ∈ sps, sp.timeMulticolumn = false)) sps sps' ∧
      List.Forall₂ (OwnedBy ext sps' s) fs owners ∧
      ∀ (i : Nat) (sp : SParams), sps[i]? = some sp → 1 ≤ owners.flatten.count i ∧
        owners.flatten.count i ≤ sp.frequency.eraseDups.length := scrape_columns hp hb h

/-- C95. Through the entry point, with complete parameters for series of one frequency each, whatever the flags
and the other worksheets: the columns of all data frames in the answer are the series, each exactly once. -/
theorem C95_one_column (ext : Ext) (wb : List Nat) (w w' : World) (given : Given) (name : Str)
    (safe preserve : Bool) (r : Nat) {p : Params} {sps : List SParams} {a : Answer} {nm : Str} {pr : Nat}
    (hreq : Requested ext wb w name r)
    (hwb : ∀ q ∈ wb, q < w.nextSheet ∧ WellFormed (w.sheets q))
    (hgiven : (∃ pr, given = .object pr ∧ w.params pr = p) ∨ (∃ x, given = .other x ∧ Params.new x = .ok p))
    (hp : HasSeries p sps) (hne : sps ≠ []) (hb : HeadersBefore sps)
    (hf : ∀ sp ∈ sps, sp.frequency.length = 1)
    (h : getDataFrames ext wb given name safe preserve w = (.ok (a, nm, pr), w')) :
    ∃ fs sps' owners, a = .dfs (unwrap fs) ∧
      List.Forall₂ (EndFilled (∀ sp ∈ sps, sp.timeMulticolumn = false)) sps sps' ∧
      List.Forall₂ (OwnedBy ext sps' (w.sheets r)) fs owners ∧
      owners.flatten.Perm (List.range sps.length) := by
  rcases hscr : scrape ext p (w.sheets r) with ⟨res, p', s'⟩
  obtain ⟨pr', w1, e⟩ := call_result ext wb w given name safe preserve r hreq hwb hgiven
    (complete_series hp hne) hscr
  rw [e] at h
  cases res with
  | error er => cases h
  | ok fs =>
    cases h
    obtain ⟨sps', owners, h1, h2, h3, h4⟩ := scrape_columns hp hb hscr
    have hl := h2.length_eq
    refine ⟨fs, sps', owners, rfl, h2, h3, ?_⟩
    have hout : ∀ i ∈ owners.flatten, i < sps.length := by
      intro i hi
      obtain ⟨o, ho1, ho2⟩ := List.mem_flatten.1 hi
      obtain ⟨k, hk, rfl⟩ := List.mem_iff_getElem.1 ho1
      have hfl := h3.length_eq
      have hw := (List.forall₂_iff_get.1 h3).2 k (by omega) hk
      rw [List.get_eq_getElem, List.get_eq_getElem] at hw
      obtain ⟨j, hj⟩ := List.getElem?_of_mem ho2
      have hjl : j < owners[k].length := (List.getElem?_eq_some_iff.1 hj).1
      obtain ⟨sp, hsp, _⟩ := hw.each j i _ _ hj
        (List.getElem?_eq_getElem (by rw [hw.columns]; exact hjl))
        (List.getElem?_eq_getElem (by rw [hw.data]; exact hjl))
      have := (List.getElem?_eq_some_iff.1 hsp).1
      omega
    rw [List.perm_iff_count]
    intro i
    rw [List.nodup_range.count]
    by_cases hi : i < sps.length
    · rw [if_pos (List.mem_range.2 hi)]
      obtain ⟨k1, k2⟩ := h4 i _ (List.getElem?_eq_getElem hi)
      have := hf sps[i] (List.getElem_mem _)
      obtain ⟨c, hc⟩ := List.length_eq_one_iff.1 this
      rw [hc] at k2
      have : ([c].eraseDups).length = 1 := rfl
      omega
    · rw [if_neg (by simpa using hi), List.count_eq_zero]
      exact fun hm => hi (hout i hm)

/-! ### Examples -/

namespace Sample

/-- Two series with the same header and a third one, with another period. -/
def twinSheet : Sheet := rows
  [[.str c!"fecha", .str c!"PBI", .str c!"PBI", .str c!"trim", .str c!" IPC "],
   [day 2000 1 1, .int 10, .int 1, day 2000 1 1, .int 5],
   [day 2000 2 1, .int 11, .int 2, day 2000 4 1, .int 6],
   [day 2000 3 1, .int 12, .int 3, day 2000 7 1, .int 7]]

def twinSeries : List SParams :=
  [monthly, { monthly with headerCoord := c!"E1", timeHeader := .single c!"D1", frequency := c!"Q" },
   { monthly with headerCoord := c!"C1" }]

def twinFrames : List Frame :=
  [⟨c!"MS", [⟨2000, 1, 1, 0⟩, ⟨2000, 2, 1, 0⟩, ⟨2000, 3, 1, 0⟩], [c!"PBI", c!"PBI.2"],
      [[.fin 10, .fin 11, .fin 12], [.fin 1, .fin 2, .fin 3]]⟩,
   ⟨c!"QS-JAN", [⟨2000, 1, 1, 0⟩, ⟨2000, 4, 1, 0⟩, ⟨2000, 7, 1, 0⟩], [c!"IPC"], [[.fin 5, .fin 6, .fin 7]]⟩]

theorem twin_before : HeadersBefore twinSeries := by
  intro sp hsp sp' hsp' r c hrc
  have h1 : r = 1 := by
    simp only [twinSeries, List.mem_cons, List.not_mem_nil, or_false] at hsp
    rcases hsp with rfl | rfl | rfl
    · have h2 : coordOf monthly.headerCoord = .ok (1, 2) := by decide +kernel
      rw [h2] at hrc
      cases hrc; rfl
    · have h2 : coordOf c!"E1" = .ok (1, 5) := by decide +kernel
      rw [h2] at hrc
      cases hrc; rfl
    · have h2 : coordOf c!"C1" = .ok (1, 3) := by decide +kernel
      rw [h2] at hrc
      cases hrc; rfl
  subst h1
  simp only [twinSeries, List.mem_cons, List.not_mem_nil, or_false] at hsp'
  rcases hsp' with rfl | rfl | rfl <;> simp [monthly]

theorem twin_answer : (getDataFrames ext0 [0] (.object 0) [] false true
    (world twinSheet (paramsOf twinSeries))).1 = .ok (.dfs (.many twinFrames), c!"S", 0) := by
  decide +kernel

end Sample

/-- Three series in two data frames: the first and the third in the one, the second in the other. -/
example : ∃ fs sps' owners, Answer.dfs (.many Sample.twinFrames) = .dfs (unwrap fs) ∧
    List.Forall₂ (EndFilled (∀ sp ∈ Sample.twinSeries, sp.timeMulticolumn = false)) Sample.twinSeries sps' ∧
    List.Forall₂ (OwnedBy Sample.ext0 sps' Sample.twinSheet) fs owners ∧
    owners.flatten.Perm (List.range 3) := by
  obtain ⟨w', h⟩ : ∃ w', getDataFrames Sample.ext0 [0] (.object 0) [] false true
      (Sample.world Sample.twinSheet (Sample.paramsOf Sample.twinSeries)) =
      (.ok (.dfs (.many Sample.twinFrames), c!"S", 0), w') := ⟨_, by rw [← Sample.twin_answer]⟩
  refine C95_one_column Sample.ext0 [0] _ w' (.object 0) [] false true 0 ⟨by simp, by simp, .inl ⟨rfl, rfl⟩⟩ ?_
    (.inl ⟨0, rfl, rfl⟩) (fun _ => rfl) (by simp [Sample.twinSeries]) Sample.twin_before ?_ h
  · intro q hq
    simp only [List.mem_cons, List.not_mem_nil, or_false] at hq
    subst hq
    exact ⟨Nat.zero_lt_one, show WellFormed Sample.twinSheet from
      Sample.rows_wellFormed (by decide) (by decide) (by decide)⟩
  · simp [Sample.twinSeries, Sample.monthly]

example : ∃ fs sps' owners, Answer.dfs (.many Sample.twinFrames) = .dfs (unwrap fs) ∧
    List.Forall₂ (EndFilled (∀ sp ∈ Sample.twinSeries, sp.timeMulticolumn = false)) Sample.twinSeries sps' ∧
    List.Forall₂ (OwnedBy Sample.ext0 sps' Sample.twinSheet) fs owners := by
  obtain ⟨w', h⟩ : ∃ w', getDataFrames Sample.ext0 [0] (.object 0) [] false true
      (Sample.world Sample.twinSheet (Sample.paramsOf Sample.twinSeries)) =
      (.ok (.dfs (.many Sample.twinFrames), c!"S", 0), w') := ⟨_, by rw [← Sample.twin_answer]⟩
  refine C94_answer Sample.ext0 [0] _ w' (.object 0) [] false true 0 ⟨by simp, by simp, .inl ⟨rfl, rfl⟩⟩ ?_
    (.inl ⟨0, rfl, rfl⟩) (fun _ => rfl) (by simp [Sample.twinSeries]) Sample.twin_before h
  intro q hq
  simp only [List.mem_cons, List.not_mem_nil, or_false] at hq
  subst hq
  exact ⟨Nat.zero_lt_one, show WellFormed Sample.twinSheet from
    Sample.rows_wellFormed (by decide) (by decide) (by decide)⟩

end Xls
