/-
Property C90: data frames are given back only if the parameters make sense.
-/
import Verif.Lemmas.Usable
import Verif.Props.Tables
import Verif.Props.MixedTable

set_option autoImplicit false

namespace Xls

open Spec

theorem usable_congr {ext : Ext} {sp : SParams} {s s' : Sheet} (h : s'.cells = s.cells)
    (hu : Usable ext sp s) : Usable ext sp s' := by
  obtain ⟨h1, h2, h3, h4, h5, h6, h7, h8⟩ := hu
  refine ⟨h1, h2, h3, h4, h5, h6, fun hf => ?_, h8⟩
  obtain ⟨tr, tc, last, a1, a2, a3, a4⟩ := h7 hf
  exact ⟨tr, tc, last, a1, a2, by rw [timeCell_congr h]; exact a3, by rw [timeCell_congr h]; exact a4⟩

/-- C90. If cleaning and extraction give data frames, then afterwards the parameters are those of the same
series, with their ends filled in, and each of them makes sense on the worksheet: it has a header cell, an
alignment, a known frequency, at least two positions, and dates at the first and at the last of them; down a
column, none of several frequencies is absent from the last cycle. -/
theorem C90_usable {ext : Ext} {p p' : Params} {s s' : Sheet} {fs : List Frame} {sps : List SParams}
    (hp : HasSeries p sps) (h : scrape ext p s = (.ok fs, p', s')) :
    ∃ sps', HasSeries p' sps' ∧
      List.Forall₂ (EndFilled (∀ sp ∈ sps, sp.timeMulticolumn = false)) sps sps' ∧
      ∀ sp ∈ sps', Usable ext sp s' := by
  unfold scrape at h
  split at h
  · cases h
  next p1 s1 hc =>
    obtain ⟨sps', f1, f2⟩ := cleanData_filled hp hc
    cases hg : getData ext p1 s1 with
    | mk r s2 =>
      rw [hg] at h
      cases h
      exact ⟨sps', f1, f2, fun sp hsp => usable_congr (getData_cells hg) (getData_needs f1 hg sp hsp)⟩

/-- C90. Through the entry point, with a `Parameters` object, a dictionary or a file that gives every
parameter of every series: whatever the worksheet, nothing is given back if one of the series has a header
that is no cell, no alignment, an unknown frequency, data that start outside of the sheet, an end that does
not come after the start, or a list of time headers though its time index is not in several columns. -/
theorem C90_refused (ext : Ext) (wb : List Nat) (w : World) (given : Given) (name : Str) (safe preserve : Bool)
    (r : Nat) {p : Params} {sps : List SParams} (hreq : Requested ext wb w name r)
    (hwb : ∀ q ∈ wb, q < w.nextSheet ∧ WellFormed (w.sheets q))
    (hgiven : (∃ pr, given = .object pr ∧ w.params pr = p) ∨ (∃ x, given = .other x ∧ Params.new x = .ok p))
    (hp : HasSeries p sps) {sp : SParams} (hsp : sp ∈ sps)
    (hbad : (∀ r c, coordOf sp.headerCoord ≠ .ok (r, c)) ∨ sp.alignment = .other ∨ sp.frequency = [] ∨
      (∃ c ∈ sp.frequency, c ∉ c!"AYSQMWD") ∨ sp.dataStarts < 1 ∨
      ((∀ sp ∈ sps, sp.timeMulticolumn = false) ∧ ∃ e, sp.dataEnds = some e ∧ e ≠ 0 ∧ e ≤ sp.dataStarts) ∨
      (sp.timeMulticolumn = false ∧ ∃ cs, sp.timeHeader = .multi cs)) :
    ∃ e w', getDataFrames ext wb given name safe preserve w = (.error e, w') := by
  rcases hscr : scrape ext p (w.sheets r) with ⟨res, p', s'⟩
  obtain ⟨pr, w', e⟩ := call_result ext wb w given name safe preserve r hreq hwb hgiven
    (complete_series hp (List.ne_nil_of_mem hsp)) hscr
  cases res with
  | error er => exact ⟨er, w', e⟩
  | ok fs =>
    exfalso
    obtain ⟨sps', u1, u2, u3⟩ := C90_usable hp hscr
    obtain ⟨i, hi, rfl⟩ := List.mem_iff_getElem.1 hsp
    have hl := u2.length_eq
    have hf := (List.forall₂_iff_get.1 u2).2 i hi (by omega)
    rw [List.get_eq_getElem, List.get_eq_getElem] at hf
    obtain ⟨hsame, hgiven'⟩ := hf
    obtain ⟨⟨hr, hc, h1⟩, h2, ⟨h3, h3'⟩, h4, ⟨last, h5, h5'⟩, h6, _, h8⟩ := u3 sps'[i] (List.getElem_mem _)
    rw [hsame] at h1 h2 h3 h3' h4 h5' h6
    dsimp only at h1 h2 h3 h3' h4 h5' h6
    rcases hbad with hb | hb | hb | ⟨c, hb1, hb2⟩ | hb | ⟨hb1, en, hb2, hb3, hb4⟩ | ⟨hb1, cs, hb2⟩
    · exact hb _ _ h1
    · rw [hb] at h2
      rcases h2 with h2 | h2 <;> cases h2
    · exact h3 hb
    · exact hb2 (h3' c hb1)
    · omega
    · rw [hgiven' hb1 ⟨by rw [hb2]; simp, by rw [hb2]; simpa using hb3⟩, hb2] at h5
      cases h5
      omega
    · obtain ⟨c, hc⟩ := h6 hb1
      rw [hb2] at hc
      cases hc

/-- C61, violated for every worksheet: if the last of the cycles through several frequencies down a column is
incomplete and has not all of them, nothing is given back, whatever the dates and the values are. -/
theorem C61_incomplete_violated (ext : Ext) (wb : List Nat) (w : World) (given : Given) (name : Str)
    (safe preserve : Bool) (r : Nat) {p : Params} {sps : List SParams} (hreq : Requested ext wb w name r)
    (hwb : ∀ q ∈ wb, q < w.nextSheet ∧ WellFormed (w.sheets q))
    (hgiven : (∃ pr, given = .object pr ∧ w.params pr = p) ∨ (∃ x, given = .other x ∧ Params.new x = .ok p))
    (hp : HasSeries p sps) {sp : SParams} (hsp : sp ∈ sps) (hv : sp.alignment = .vertical)
    (hf : 1 < sp.frequency.length) (hone : ∀ sp ∈ sps, sp.timeMulticolumn = false) {last : Int}
    (hlast : sp.dataEnds = some last) (h0 : last ≠ 0)
    {cycles n : Nat} (hn : last - sp.dataStarts + 1 = ((cycles * sp.frequency.length + n : Nat) : Int))
    (h1 : 1 ≤ n) (h2 : n ≤ sp.frequency.length) {f : Char} (hmem : f ∈ sp.frequency)
    (habs : f ∉ sp.frequency.take n) :
    ∃ e w', getDataFrames ext wb given name safe preserve w = (.error e, w') := by
  rcases hscr : scrape ext p (w.sheets r) with ⟨res, p', s'⟩
  obtain ⟨pr, w', e⟩ := call_result ext wb w given name safe preserve r hreq hwb hgiven
    (complete_series hp (List.ne_nil_of_mem hsp)) hscr
  cases res with
  | error er => exact ⟨er, w', e⟩
  | ok fs =>
    exfalso
    obtain ⟨sps', u1, u2, u3⟩ := C90_usable hp hscr
    obtain ⟨i, hi, rfl⟩ := List.mem_iff_getElem.1 hsp
    have hl := u2.length_eq
    have hfill := (List.forall₂_iff_get.1 u2).2 i hi (by omega)
    rw [List.get_eq_getElem, List.get_eq_getElem] at hfill
    obtain ⟨hsame, hkept⟩ := hfill
    have hcyc := (u3 sps'[i] (List.getElem_mem _)).cycles
    rw [hkept hone ⟨by rw [hlast]; simp, by rw [hlast]; simpa using h0⟩, hlast, hsame] at hcyc
    exact habs (hcyc hf hv last rfl cycles n hn h1 h2 f hmem)

/-! ### Examples -/

namespace Sample

/-- The quarters of `quarterSheet`, with an end that is given. -/
def quarterEnding (stop : Int) : Params :=
  paramsOf [quarterSeries c!"B1", { quarterSeries c!"C1" with dataEnds := some stop }]

theorem quarterEnding_series (stop : Int) : HasSeries (quarterEnding stop)
    [quarterSeries c!"B1", { quarterSeries c!"C1" with dataEnds := some stop }] := fun _ => rfl

/-- It works with the end where it is. -/
theorem quarterEnding_scraped : (scrape ext0 (quarterEnding 4) quarterSheet).1 =
    .ok [⟨c!"QS-JAN", [⟨2000, 7, 1, 0⟩, ⟨2000, 10, 1, 0⟩, ⟨2001, 1, 1, 0⟩], [c!"PBI", c!"IPC"],
      [[.fin 10, .fin 11, .fin 12], [.fin 1, .fin 2, .fin 3]]⟩] := by decide +kernel

end Sample

example : ∃ sps', HasSeries (scrape Sample.ext0 (Sample.quarterEnding 4) Sample.quarterSheet).2.1 sps' ∧
    List.Forall₂ (EndFilled (∀ sp ∈ [Sample.quarterSeries c!"B1",
      { Sample.quarterSeries c!"C1" with dataEnds := some 4 }], sp.timeMulticolumn = false))
      [Sample.quarterSeries c!"B1", { Sample.quarterSeries c!"C1" with dataEnds := some 4 }] sps' ∧
    ∀ sp ∈ sps', Usable Sample.ext0 sp (scrape Sample.ext0 (Sample.quarterEnding 4) Sample.quarterSheet).2.2 :=
  C90_usable (Sample.quarterEnding_series 4) (fs := _)
    (show scrape _ _ _ = (.ok _, _, _) from Prod.ext Sample.quarterEnding_scraped rfl)

/-- An end at the start is refused. -/
example : ∃ e w', getDataFrames Sample.ext0 [0] (.object 0) [] false true
    (Sample.world Sample.quarterSheet (Sample.quarterEnding 2)) = (.error e, w') :=
  C90_refused Sample.ext0 [0] (Sample.world Sample.quarterSheet (Sample.quarterEnding 2)) (.object 0) [] false true
    0 ⟨by simp, by simp, .inl ⟨rfl, rfl⟩⟩
    (by
      intro q hq
      simp only [List.mem_cons, List.not_mem_nil, or_false] at hq
      subst hq
      exact ⟨Nat.zero_lt_one, show WellFormed Sample.quarterSheet from
        Sample.rows_wellFormed (by decide) (by decide) (by decide)⟩)
    (.inl ⟨0, rfl, rfl⟩) (Sample.quarterEnding_series 2)
    (sp := { Sample.quarterSeries c!"C1" with dataEnds := some 2 }) (by simp)
    (.inr (.inr (.inr (.inr (.inr (.inl ⟨by simp [Sample.quarterSeries, Sample.monthly], 2, rfl, by decide, by decide⟩))))))

/-- Seven values by quarters and years: the second cycle has no value of the year. -/
example : ∃ e w', getDataFrames Sample.ext0 [0] (.object 0) [] false true (Sample.world Sample.totalSheet
    (Sample.paramsOf [{ Sample.quarterly with dataEnds := some 8 }])) = (.error e, w') :=
  C61_incomplete_violated Sample.ext0 [0] (Sample.world Sample.totalSheet
    (Sample.paramsOf [{ Sample.quarterly with dataEnds := some 8 }])) (.object 0) [] false true 0
    ⟨by simp, by simp, .inl ⟨rfl, rfl⟩⟩
    (by
      intro q hq
      simp only [List.mem_cons, List.not_mem_nil, or_false] at hq
      subst hq
      exact ⟨Nat.zero_lt_one, show WellFormed Sample.totalSheet from
        Sample.rows_wellFormed (by decide) (by decide) (by decide)⟩)
    (.inl ⟨0, rfl, rfl⟩) (sps := [{ Sample.quarterly with dataEnds := some 8 }]) (fun _ => rfl)
    (sp := { Sample.quarterly with dataEnds := some 8 }) (by simp) rfl (by decide)
    (by simp [Sample.quarterly, Sample.monthly]) rfl (by decide) (cycles := 1) (n := 2) (by decide) (by decide)
    (by decide) (f := 'A') (by decide) (by decide)

end Xls
