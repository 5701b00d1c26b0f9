/-
Lemmas about every data frame that is given back.
-/
import Verif.Spec.Result
import Verif.Lemmas.Answers
import Verif.Lemmas.Between
import Verif.Lemmas.CleanInv
import Verif.Lemmas.Accept
import Verif.Lemmas.Frames2
import Verif.Props.Frames
import Verif.Props.Cleaning

set_option autoImplicit false

namespace Xls

open Spec

/-! ### Period ranges -/

theorem toOffset_letter {f name : Str} {o : Offset} (h : toOffset f = .ok (name, o)) :
    ∃ l sh, periodShift [l] = some sh ∧ name = indexFreq [l] ∧ o = offsetFor [l] := by
  unfold toOffset at h
  repeat' split at h
  · cases h; exact ⟨'A', _, rfl, rfl, rfl⟩
  · cases h; exact ⟨'S', _, rfl, rfl, rfl⟩
  · cases h; exact ⟨'Q', _, rfl, rfl, rfl⟩
  · cases h; exact ⟨'M', _, rfl, rfl, rfl⟩
  · cases h; exact ⟨'W', _, rfl, rfl, rfl⟩
  · cases h; exact ⟨'D', _, rfl, rfl, rfl⟩
  · cases h

theorem chain_periods {l : Char} {sh : Shift} (hl : periodShift [l] = some sh) :
    ∀ {t : Time} {ts : List Time}, ValidTime t → PeriodStart [l] t → (offsetFor [l]).Chain (t :: ts) →
    PeriodRun [l] (t :: ts) ∧ (∀ u ∈ t :: ts, ValidTime u ∧ PeriodStart [l] u) ∧
      Increasing (t :: ts)
  | t, [], hv, hs, _ => ⟨trivial, by simpa using ⟨hv, hs⟩, List.pairwise_singleton _ _⟩
  | t, u :: us, hv, hs, hc => by
    obtain ⟨h1, h2⟩ := hc
    obtain ⟨v1, s1⟩ := shifted_of_next hl hv h1
    obtain ⟨lt1, _⟩ := lt_of_shifted hl hv v1 s1
    have st1 := start_of_shifted hl hv v1 s1 hs
    obtain ⟨r1, r2, r3⟩ := chain_periods hl v1 st1 h2
    refine ⟨⟨⟨sh, hl, s1⟩, r1⟩, ?_, ?_⟩
    · intro x hx
      rcases List.mem_cons.1 hx with e | e
      · rw [e]; exact ⟨hv, hs⟩
      · exact r2 x e
    · unfold Increasing at *
      rw [List.pairwise_cons]
      refine ⟨?_, r3⟩
      intro x hx
      rcases List.mem_cons.1 hx with e | e
      · rw [e]; exact lt1
      · exact Time.lt_trans lt1 ((List.pairwise_cons.1 r3).1 x e)

/-- What `pandas` makes of a bound is a date of the calendar. -/
def BoundValid (ext : Ext) (v : Cell) : Prop := ∀ t, toTimestamp ext v = .ok t → ValidTime t

theorem dateRange_sound {ext : Ext} {a b : Cell} {f : Str} {pr : PRange} (ha : BoundValid ext a)
    (h : dateRange ext a b f = .ok pr) (hne : pr.index ≠ []) :
    PeriodIndex pr.freqstr pr.index ∧ (∀ t ∈ pr.index, ValidTime t) ∧ Increasing pr.index := by
  unfold dateRange at h
  split at h
  · cases h
  next name o ho =>
    split at h
    · cases h
    · cases h
    next ta tb hta htb =>
      split at h
      · cases h
      next ra hra =>
        dsimp only at h
        split at h
        · cases h
        next ts hts =>
          cases h
          obtain ⟨l, sh, hl, rfl, rfl⟩ := toOffset_letter ho
          have hv := ha ta hta
          have hrep : Representable ta := by
            unfold toTimestamp at hta
            dsimp only at hta
            split at hta
            · cases hta
            · split at hta
              next hin =>
                cases hta
                unfold inPandasRange at hin
                simpa [Representable] using hin
              · cases hta
          obtain ⟨t0, ht0, hfirst⟩ := rollForward_first hl hv hrep
          rw [hra] at ht0
          cases ht0
          obtain ⟨hc, hhead⟩ := rangeFrom_chain hts
          cases ts with
          | nil => exact absurd rfl hne
          | cons t ts =>
            have := hhead t rfl
            subst this
            obtain ⟨r1, r2, r3⟩ := chain_periods hl hfirst.valid hfirst.start hc
            refine ⟨⟨by simp, l, by rw [hl]; rfl, rfl, r1, fun u hu => (r2 u hu).2⟩,
              fun u hu => (r2 u hu).1, r3⟩

theorem boundValid_of {ext : Ext} (he : RealDates ext) {v : Cell} (h : ∀ t, v = .dt t → ValidTime t) :
    BoundValid ext v := by
  intro t ht
  unfold toTimestamp at ht
  dsimp only at ht
  split at ht
  · cases ht
  next u hu =>
    split at ht
    · cases ht
      split at hu
      next t' => cases hu; exact h _ rfl
      · cases hu
      · exact he.stamped _ _ hu
    · cases ht

theorem read_valid {s : Sheet} (hs : SheetValid s) {r c : Int} {v : Cell} (h : s.read r c = .ok v) :
    ∀ t, v = .dt t → ValidTime t := by
  unfold Sheet.read at h
  split at h
  · cases h
    intro t ht
    exact hs r c t ht
  · cases h

theorem capture_mem (f : Char) : ∀ (pairs : List (Cell × Char)) (found : Cell),
    (pairs.foldl (fun found p => if p.2 = f ∧ found.truthy = false then p.1 else found) found) = found ∨
    (pairs.foldl (fun found p => if p.2 = f ∧ found.truthy = false then p.1 else found) found) ∈
      pairs.map Prod.fst
  | [], found => .inl rfl
  | p :: ps, found => by
    rw [List.foldl_cons]
    rcases capture_mem f ps (if p.2 = f ∧ found.truthy = false then p.1 else found) with h | h
    · rw [h]
      split
      · exact .inr (by simp)
      · exact .inl rfl
    · exact .inr (by rw [List.map_cons]; exact List.mem_cons_of_mem _ h)

theorem timeLine_valid {s : Sheet} (hs : SheetValid s) {al : Align} {hr hc : Int} {v : Cell}
    (h : v ∈ timeLine s al hr hc) : ∀ t, v = .dt t → ValidTime t := by
  unfold timeLine at h
  dsimp only at h
  obtain ⟨i, _, rfl⟩ := List.mem_map.1 h
  intro t ht
  exact hs _ _ t ht

theorem pySlice_mem {α : Type} {xs : List α} {i j : Int} {x : α} (h : x ∈ pySlice xs i j) : x ∈ xs :=
  List.mem_of_mem_take (List.mem_of_mem_drop h)

theorem startPairs_mem {line : List Cell} {freq : Str} {ini : Int} {v : Cell}
    (h : v ∈ (startPairs line freq ini).map Prod.fst) : v ∈ line := by
  obtain ⟨p, hp, rfl⟩ := List.mem_map.1 h
  exact pySlice_mem (List.of_mem_zip (a := p.1) (b := p.2) hp).1

theorem rangesOf_sound {ext : Ext} {starts ends : List (Cell × Char)}
    (hv : ∀ f, BoundValid ext (capture f starts)) : ∀ {fs : List Char} {prs : List PRange},
    rangesOf ext starts ends fs = .ok prs → ∀ pr ∈ prs, pr.index ≠ [] →
    PeriodIndex pr.freqstr pr.index ∧ (∀ t ∈ pr.index, ValidTime t) ∧ Increasing pr.index
  | [], prs, h => by unfold rangesOf at h; cases h; simp
  | f :: fs, prs, h => by
    unfold rangesOf at h
    split at h
    · cases h
    next pr hpr =>
      split at h
      · cases h
      next prs' hprs =>
        cases h
        intro x hx
        rcases List.mem_cons.1 hx with rfl | hx
        · exact dateRange_sound (hv f) hpr
        · exact rangesOf_sound hv hprs x hx

theorem seriesRanges_sound {ext : Ext} (he : RealDates ext) {s : Sheet} (hs : SheetValid s)
    {freq header : Str} {ini stop ta : Int} {al : Align} {prs : List PRange}
    (h : seriesRanges ext s freq ini header stop ta al = .ok prs) :
    ∀ pr ∈ prs, pr.index ≠ [] →
    PeriodIndex pr.freqstr pr.index ∧ (∀ t ∈ pr.index, ValidTime t) ∧ Increasing pr.index := by
  unfold seriesRanges at h
  split at h
  · unfold singleRanges at h
    split at h
    · cases h
    split at h
    · cases h
    dsimp only at h
    split at h
    · cases h
    · cases h
    next a b hra hrb =>
      split at h
      · cases h
      next pr hpr =>
        cases h
        intro x hx
        rw [List.mem_singleton] at hx
        subst hx
        exact dateRange_sound (boundValid_of he (read_valid hs hra)) hpr
  · split at h
    · unfold multiRanges at h
      split at h
      · cases h
      split at h
      · cases h
      next hr hc hco =>
        refine rangesOf_sound ?_ h
        intro f
        apply boundValid_of he
        rcases capture_mem f (startPairs (timeLine s al hr hc) freq ini) .none with hx | hx
        · intro t ht
          unfold capture at ht
          rw [hx] at ht
          cases ht
        · exact timeLine_valid hs (startPairs_mem hx)
    · cases h

/-! ### Cleaning and extraction -/

theorem sheetValid_congr {s s' : Sheet} (h : s'.cells = s.cells) (hs : SheetValid s) : SheetValid s' := by
  intro r c t ht
  rw [h] at ht
  exact hs r c t ht

theorem cleanTimeIndex_valid {ext : Ext} {sp : SParams} {s : Sheet} (he : ExtValid ext)
    (hs : SheetValid s) : SheetValid (cleanTimeIndex ext sp s).2 := by
  obtain ⟨st1, s1, q, hst, hend⟩ := cleanTimeIndex_end ext sp s
  exact sheetValid_congr hend.cells
    (steps_valid he hs hst (by simp [CState.init]) (by simp [CState.init, mfGet])).1

theorem cleanData_valid {ext : Ext} {p : Params} {s : Sheet} (he : ExtValid ext) (hs : SheetValid s) :
    SheetValid (cleanData ext p s).2.2 :=
  cleanData_keeps (fun _ _ h => cleanTimeIndex_valid he h) hs

theorem getData_sound {ext : Ext} (he : RealDates ext) {p : Params} {s s' : Sheet} {fs : List Frame}
    (hs : SheetValid s) (h : getData ext p s = (.ok fs, s')) : ∀ f ∈ fs, SoundFrame ext f := by
  intro f hf
  obtain ⟨c1, c2, c3⟩ := C59_frames_well_formed h f hf
  obtain ⟨n, given, spans, _, h2, _, h4, _, h5⟩ := C63_one_frame_per_range h
  obtain ⟨hl, hx⟩ := List.forall₂_iff_get.1 h5
  obtain ⟨j, hj, rfl⟩ := List.mem_iff_getElem.1 hf
  have hj' : j < spans.length := by omega
  have hF := hx j hj' hj
  rw [List.get_eq_getElem, List.get_eq_getElem] at hF
  obtain ⟨g, hg, hspan⟩ := (h4 spans[j]).1 (List.getElem_mem hj')
  -- the range of a series of that span
  have hg1 : g.1.index ≠ [] := by
    intro hnil
    unfold spanOf at hspan
    rw [hnil] at hspan
    cases hspan
  have hsound : PeriodIndex g.1.freqstr g.1.index ∧ (∀ t ∈ g.1.index, ValidTime t) ∧
      Increasing g.1.index := by
    obtain ⟨out, ho, hgo⟩ := List.mem_flatten.1 hg
    obtain ⟨_, hy⟩ := List.forall₂_iff_get.1 h2
    obtain ⟨k, hk, rfl⟩ := List.mem_iff_getElem.1 ho
    obtain ⟨sp, s1, nv, prs, header, stop, _, _, hcells, _, _, hr, he', _⟩ :=
      hy k (by rw [h2.length_eq]; exact hk) hk
    rw [List.get_eq_getElem] at he'
    rw [he'] at hgo
    exact seriesRanges_sound he (sheetValid_congr hcells hs) hr _
      (List.of_mem_zip (a := g.1) (b := g.2) hgo).1 hg1
  have hcol : (fs[j]).columns ≠ [] := by
    intro hnil
    have := (columnsOf_nodup hF.columns).2
    rw [hnil, List.length_map] at this
    have hm : g ∈ given.flatten.filter fun g => spanOf g.1 = some spans[j] := by
      rw [List.mem_filter]; exact ⟨hg, by simpa using hspan⟩
    have := List.length_pos_of_mem hm
    simp_all
  have hhead : g.1.index.head? = some spans[j].2.1 ∧ g.1.index.getLast? = some spans[j].2.2 := by
    have := rangeKey_ok (spanOf_eq.1 hspan)
    exact this.2
  have hvk : ValidTime spans[j].2.1 := hsound.2.1 _ (List.mem_of_head? hhead.1)
  rcases hF.index with ⟨_, h1⟩ | ⟨_, h1, h2⟩
  · have e := h1 g hg hspan hvk
    rw [e] at hsound
    exact ⟨hsound.2.1, hsound.2.2, .inl hsound.1, hcol, c1, c2, c3⟩
  · obtain ⟨b1, b2⟩ := he.business spans[j].2.1 spans[j].2.2
    refine ⟨by rw [h2]; exact b2, by rw [h2]; exact b1, .inr ⟨h1, _, _, ?_, h2⟩, hcol, c1, c2, c3⟩
    -- first and last date of a non-empty index
    cases hi : g.1.index with
    | nil => exact absurd hi hg1
    | cons t ts =>
      obtain ⟨_, _, hinc⟩ := hsound
      rw [hi] at hhead hinc
      simp only [List.head?_cons, Option.some.injEq] at hhead
      rw [← hhead.1]
      have hmem := List.mem_of_getLast? hhead.2
      rcases List.mem_cons.1 hmem with e | e
      · rw [e]; exact Time.lt_irrefl _
      · exact le_of_lt ((List.pairwise_cons.1 hinc).1 _ e)

theorem scrape_sound {ext : Ext} (he : RealDates ext) {p p' : Params} {s s' : Sheet} {fs : List Frame}
    (hs : SheetValid s) (h : scrape ext p s = (.ok fs, p', s')) : ∀ f ∈ fs, SoundFrame ext f := by
  unfold scrape at h
  have hv := cleanData_valid (p := p) he.parsed hs
  split at h
  · cases h
  next p1 s1 hc =>
    rw [hc] at hv
    cases hg : getData ext p1 s1 with
    | mk r s2 =>
      rw [hg] at h
      cases h
      exact getData_sound he hv hg

/-! ### Copies -/

theorem set_valid {s : Sheet} {r c : Int} {v : Cell} (hs : SheetValid s)
    (hv : ∀ t, v = .dt t → ValidTime t) : SheetValid (s.set r c v) := by
  intro r' c' t ht
  have e : (s.set r c v).cells r' c' = if r' = r ∧ c' = c then v else s.cells r' c' := rfl
  rw [e] at ht
  split at ht
  · exact hv t ht
  · exact hs _ _ t ht

theorem copyCells_valid {s : Sheet} (hs : SheetValid s) (row : Nat) : ∀ (cols : List Nat) {t : Sheet},
    SheetValid t → SheetValid (copyCells s row cols t)
  | [], _, ht => ht
  | _ :: cols, _, ht => copyCells_valid hs row cols (set_valid ht fun x hx => hs _ _ x hx)

theorem copyAllRows_valid {s : Sheet} (hs : SheetValid s) (ncols : Nat) : ∀ (rows : List Nat) {t : Sheet},
    SheetValid t → SheetValid (copyAllRows s ncols rows t)
  | [], _, ht => ht
  | row :: rows, _, ht => copyAllRows_valid hs ncols rows (copyCells_valid hs row _ ht)

theorem copySheet_valid {s : Sheet} (hs : SheetValid s) : SheetValid (copySheet s) :=
  copyAllRows_valid hs _ _ (fun r c t h => by cases h)

end Xls
