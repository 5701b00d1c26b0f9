/-
Properties C59 and C63 and the second half of C19: which strategy extracts a series and how the series
are gathered into data frames.
-/
import Verif.Lemmas.Frames2
import Verif.Spec.Samples
import Verif.Spec.ParamSamples

set_option autoImplicit false

namespace Xls

open Spec

/-! ### C19: the extraction strategy -/

/-- C19. For a non-empty frequency exactly one extraction strategy accepts the series: the one for
several frequencies iff the frequency has more than one letter, the continuous one iff the series is. -/
theorem C19_extractor_determined (sp : SParams) (hf : sp.frequency ≠ []) (x : Extractor) :
    (x ∈ extractors ∧ x.accepts sp = true) ↔
      ((x.multi = true ↔ 1 < sp.frequency.length) ∧ x.continuous = sp.continuity) := by
  have hlen : 1 ≤ sp.frequency.length := by
    cases h : sp.frequency with
    | nil => exact absurd h hf
    | cons _ _ => simp
  obtain ⟨m, c⟩ := x
  have hm : (⟨m, c⟩ : Extractor) ∈ extractors := by
    cases m <;> cases c <;> decide
  unfold Extractor.accepts
  cases m <;> cases c <;> cases hcont : sp.continuity <;> simp [hm] <;> omega

/-- C19. No extraction strategy accepts an empty frequency. -/
theorem C19_no_extractor (sp : SParams) (hf : sp.frequency = []) :
    ∀ x ∈ extractors, x.accepts sp = false := by
  intro x _
  unfold Extractor.accepts
  rw [hf]
  cases x.multi <;> simp

example : (⟨true, false⟩ : Extractor) ∈ extractors ∧
    (⟨true, false⟩ : Extractor).accepts
      { Sample.monthly with frequency := c!"QQQQA", continuity := false } = true :=
  (C19_extractor_determined _ (by decide) _).2 (by decide)

/-! ### C59 -/

/-- C59. A name is added to the end of the columns, with the least suffix that makes it a new one. -/
theorem C59_least_free_suffix (name : Str) (columns : List Str) :
    ∃ col, addName name columns = columns ++ [col] ∧ FreshName columns name col :=
  addName_spec name columns

/-- C59. No column is ever repeated. -/
theorem C59_no_duplicates (name : Str) {columns : List Str} (h : columns.Nodup) :
    (addName name columns).Nodup := by
  obtain ⟨col, h1, k, _, _, h2, _⟩ := addName_spec name columns
  rw [h1, List.nodup_append]
  refine ⟨h, by simp, ?_⟩
  intro a ha b hb
  rw [List.mem_singleton] at hb
  subst hb
  rintro rfl
  exact h2 ha

example : addName c!"x" [c!"x", c!"x.3", c!"y", c!"x.2"] =
    [c!"x", c!"x.3", c!"y", c!"x.2", c!"x.4"] := by decide

/-! ### C63 -/

theorem spanOf_eq {pr : PRange} {k : Str × Time × Time} : spanOf pr = some k ↔ rangeKey pr = .ok k := by
  unfold spanOf rangeKey
  cases pr.index.head? <;> cases pr.index.getLast? <;> simp

theorem keyed_filter {k : Str × Time × Time} : ∀ {cs : List (PRange × Str × List Num)}
    {ds : List Keyed}, List.Forall₂ KeyedAs cs ds →
    (ds.filter fun d => d.1 = k).map Prod.snd =
      (cs.filter fun g => spanOf g.1 = some k).map Prod.snd
  | [], [], _ => rfl
  | c :: cs, d :: ds, .cons h hs => by
    have ih := keyed_filter (k := k) hs
    have e : (spanOf c.1 = some k) ↔ d.1 = k := by
      rw [spanOf_eq, h.1]
      constructor
      · intro h; injection h
      · intro h; rw [h]
    by_cases hk : d.1 = k
    · rw [List.filter_cons_of_pos (by simpa using hk), List.filter_cons_of_pos (by simpa using e.2 hk),
        List.map_cons, List.map_cons, ih, h.2]
    · rw [List.filter_cons_of_neg (by simpa using hk),
        List.filter_cons_of_neg (by simpa using fun h => hk (e.1 h)), ih]

/-- C63. When `_get_data` succeeds there is one data frame for each distinct span (frequency, first and
last date) among the period ranges of the series, made of one column for each series and frequency with
that span, in the order of the series. -/
theorem C63_one_frame_per_range {ext : Ext} {p : Params} {s s' : Sheet} {fs : List Frame}
    (h : getData ext p s = (.ok fs, s')) :
    ∃ (n : Nat) (given : List (List (PRange × Str × List Num))) (spans : List (Str × Time × Time)),
      Params.len (p .headersCoord) = .ok n ∧
      List.Forall₂ (SeriesGives ext p s) (List.range n) given ∧
      spans.Nodup ∧ (∀ k, k ∈ spans ↔ ∃ g ∈ given.flatten, spanOf g.1 = some k) ∧
      (∀ g ∈ given.flatten, ∃ k ∈ spans, spanOf g.1 = some k) ∧
      List.Forall₂ (FrameOf ext given.flatten) spans fs := by
  unfold getData at h
  split at h
  · cases h
  next bs s1 h1 =>
    split at h
    · cases h
    next n hn =>
      split at h
      · cases h
      next bs' s2 h2 =>
        injection h with h3 _
        cases ha : rangeArgs p with
        | error e => rw [ha] at h1; cases h1
        | ok as =>
          rw [ha] at h1
          obtain ⟨hf, hc⟩ := bucketLoop_ok (ext := ext) (p := p) (bs := [])
            ⟨List.nodup_nil, by simp, by simp, by simp⟩ (show bucketLoop ext p as s [] = _ from h1)
          obtain ⟨outs, ds, o1, o2, o3, o4, _⟩ := seriesLoop_ok hf.nodup h2
          have hall := framesOf_forall h3
          rw [o4, List.forall₂_map_left_iff] at hall
          -- the names and values of a bucket
          have hnames : ∀ k, ((ds.filter fun d => d.1 = k).map fun d => d.2.1) =
              (outs.flatten.filter fun g => spanOf g.1 = some k).map fun g => g.2.1 := by
            intro k
            have := congrArg (List.map Prod.fst) (keyed_filter (k := k) o2)
            rw [List.map_map, List.map_map] at this
            exact this
          have hvalues : ∀ k, ((ds.filter fun d => d.1 = k).map fun d => d.2.2) =
              (outs.flatten.filter fun g => spanOf g.1 = some k).map fun g => g.2.2 := by
            intro k
            have := congrArg (List.map Prod.snd) (keyed_filter (k := k) o2)
            rw [List.map_map, List.map_map] at this
            exact this
          have hgen : ∀ g ∈ outs.flatten, Generated ext g.1 := by
            intro g hg
            obtain ⟨out, ho, hg⟩ := List.mem_flatten.1 hg
            obtain ⟨hl, hx⟩ := List.forall₂_iff_get.1 o1
            obtain ⟨j, hj, rfl⟩ := List.mem_iff_getElem.1 ho
            obtain ⟨sp, s'', nv, prs, header, stop, _, _, _, _, _, hr, he, _⟩ := hx j (by omega) hj
            rw [List.get_eq_getElem] at he
            rw [he] at hg
            exact seriesRanges_generated hr _ (List.of_mem_zip (a := g.1) (b := g.2) hg).1
          have hframe : ∀ b ∈ bs, ∀ f, frameOf ext (deliver ds b) = .ok f →
              FrameOf ext outs.flatten b.key f ∧ f.columns ≠ [] := by
            intro b hb f hfr
            have hcols : (deliver ds b).columns =
                addNames [] ((outs.flatten.filter fun g => spanOf g.1 = some b.key).map
                  fun g => g.2.1) := by
              show addNames b.columns _ = _
              rw [(hf.empty b hb).1, hnames]
            have hdata : (deliver ds b).data =
                (outs.flatten.filter fun g => spanOf g.1 = some b.key).map fun g => g.2.2 := by
              show b.data ++ _ = _
              rw [(hf.empty b hb).2, hvalues]
              rfl
            have hcol := addNames_columnsOf ColumnsOf.nil
              ((outs.flatten.filter fun g => spanOf g.1 = some b.key).map fun g => g.2.1)
            rw [← hcols, List.nil_append] at hcol
            unfold frameOf at hfr
            split at hfr
            next f' hm =>
              cases hfr
              obtain ⟨m1, m2, m3, m4⟩ := mkFrame_ok hm
              subst m1
              refine ⟨⟨hcol, hdata, m4, .inl ⟨?_, ?_⟩⟩, m2⟩
              · exact spanOf_eq.2 (hf.keyed b hb)
              · intro g hg hs hv
                exact generated_unique (hgen g hg) (hf.generated b hb) (spanOf_eq.1 hs)
                  (hf.keyed b hb) hv
            next e hm =>
              split at hfr
              next hd =>
                obtain ⟨m1, m2, m3, m4⟩ := mkFrame_ok hfr
                subst m1
                refine ⟨⟨hcol, hdata, m4, .inr ⟨?_, rfl, rfl⟩⟩, m2⟩
                rw [← hd]
                exact (rangeKey_ok (hf.keyed b hb)).1
              · cases hfr
          refine ⟨n, outs, bs.map Bucket.key, hn, ?_, hf.nodup, ?_, ?_, ?_⟩
          · exact o1.imp fun _ _ hx => seriesGives_congr hc hx
          · intro k
            constructor
            · intro hk
              obtain ⟨b, hb, rfl⟩ := List.mem_map.1 hk
              obtain ⟨f, hfm⟩ : ∃ f, frameOf ext (deliver ds b) = .ok f := by
                obtain ⟨hl, hx⟩ := List.forall₂_iff_get.1 hall
                obtain ⟨j, hj, rfl⟩ := List.mem_iff_getElem.1 hb
                exact ⟨_, hx j hj (by omega)⟩
              obtain ⟨hF, hne⟩ := hframe b hb f hfm
              have hlen := (columnsOf_nodup hF.columns).2
              have : 0 < f.columns.length := List.length_pos_of_ne_nil hne
              rw [hlen, List.length_map] at this
              obtain ⟨g, hg⟩ := List.exists_mem_of_length_pos this
              rw [List.mem_filter] at hg
              exact ⟨g, hg.1, by simpa using hg.2⟩
            · rintro ⟨g, hg, hs⟩
              obtain ⟨hl, hx⟩ := List.forall₂_iff_get.1 o2
              obtain ⟨j, hj, rfl⟩ := List.mem_iff_getElem.1 hg
              have hj' : j < ds.length := by omega
              have hkey := hx j hj hj'
              have : ds[j].1 = k := by
                have h1 := spanOf_eq.1 hs
                have h2 := hkey.1
                rw [List.get_eq_getElem] at h2
                rw [h2] at h1
                injection h1
              rw [← this]
              exact o3 _ (List.getElem_mem hj')
          · intro g hg
            obtain ⟨hl, hx⟩ := List.forall₂_iff_get.1 o2
            obtain ⟨j, hj, rfl⟩ := List.mem_iff_getElem.1 hg
            have hj' : j < ds.length := by omega
            exact ⟨_, o3 _ (List.getElem_mem hj'), spanOf_eq.2 (hx j hj hj').1⟩
          · rw [List.forall₂_map_left_iff, List.forall₂_iff_get]
            obtain ⟨hl, hx⟩ := List.forall₂_iff_get.1 hall
            refine ⟨hl, ?_⟩
            intro j h1 h2
            exact (hframe _ (List.getElem_mem h1) _ (hx j h1 h2)).1

/-- C59 and C63. Every data frame has distinct columns, as many as series of values, each as long as the
index. -/
theorem C59_frames_well_formed {ext : Ext} {p : Params} {s s' : Sheet} {fs : List Frame}
    (h : getData ext p s = (.ok fs, s')) (f : Frame) (hf : f ∈ fs) :
    f.columns.Nodup ∧ f.columns.length = f.data.length ∧ ∀ d ∈ f.data, d.length = f.index.length := by
  obtain ⟨n, given, spans, _, _, _, _, _, h5⟩ := C63_one_frame_per_range h
  obtain ⟨hl, hx⟩ := List.forall₂_iff_get.1 h5
  obtain ⟨j, hj, rfl⟩ := List.mem_iff_getElem.1 hf
  have hF := hx j (by omega) hj
  rw [List.get_eq_getElem, List.get_eq_getElem] at hF
  obtain ⟨h1, h2⟩ := columnsOf_nodup hF.columns
  refine ⟨h1, ?_, hF.sizes⟩
  rw [h2, hF.data, List.length_map, List.length_map]

/-- Two series with one name and one period range share a data frame. -/
example : (getData Sample.ext0 (Sample.table.store .dataEnds (.list [.int 3, .int 3]))
    (Sample.rows [[.none, .str c!"x", .str c!"x"], [Sample.day 2015 1 1, .int 1, .int 3],
      [Sample.day 2015 2 1, .int 2, .int 4]])).1 =
    .ok [⟨c!"MS", [⟨2015, 1, 1, 0⟩, ⟨2015, 2, 1, 0⟩], [c!"x", c!"x.2"],
      [[.fin 1, .fin 2], [.fin 3, .fin 4]]⟩] := by decide +kernel

/-- Two series that end in different rows come in two data frames. -/
example : (getData Sample.ext0 (Sample.table.store .dataEnds (.list [.int 4, .int 3]))
    (Sample.rows [[.none, .str c!"x", .str c!"x"], [Sample.day 2015 1 1, .int 1, .int 3],
      [Sample.day 2015 2 1, .int 2, .int 4], [Sample.day 2015 3 1, .int 5, .none]])).1 =
    .ok [⟨c!"MS", [⟨2015, 1, 1, 0⟩, ⟨2015, 2, 1, 0⟩, ⟨2015, 3, 1, 0⟩], [c!"x"],
        [[.fin 1, .fin 2, .fin 5]]⟩,
      ⟨c!"MS", [⟨2015, 1, 1, 0⟩, ⟨2015, 2, 1, 0⟩], [c!"x"], [[.fin 3, .fin 4]]⟩] := by decide +kernel

end Xls
