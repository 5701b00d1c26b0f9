/-
Extraction from tables that stand apart on one worksheet.
-/
import Verif.Lemmas.Apart

set_option autoImplicit false

namespace Xls

open Spec

/-- A series gives the same on worksheets that agree on its table. -/
theorem gives_agree {ext : Ext} {n : Int} {y : SParams} (hy : Simple n y) {stop : Int} (hstop : 1 ≤ stop)
    {u v : Sheet} (h : ∀ r c, InTable [y] r c → v.cells r c = u.cells r c) {pr : PRange} {c : Str × List Num}
    (hg : Gives ext u [pr] (endingAt stop y) [c]) : Gives ext v [pr] (endingAt stop y) [c] := by
  have hm := hy.moved1.endingAt hstop (by rw [along_zero]; omega)
  rw [along_zero, Int.add_zero] at hm
  have hst : AlikeAt (InTable [y]) y.alignment 0 0 (reaching u 1 1) (reaching v 1 1) := by
    refine ⟨?_, ?_⟩
    · intro r c hrc
      rw [Int.add_zero, Int.add_zero]
      exact h r c hrc
    · rw [along_zero]
      unfold lastUsed reaching
      split <;> exact (Int.add_zero _).symm
  obtain ⟨th, hth, hname⟩ := hy.timeHeader
  have hsame := endingAt_same stop y
  have e1 : (endingAt stop y).timeHeader = y.timeHeader := by rw [hsame]
  have e2 : (endingAt stop y).frequency = y.frequency := by rw [hsame]
  have e3 : (endingAt stop y).alignment = y.alignment := by rw [hsame]
  have hf : (endingAt stop y).frequency.length = 1 := by rw [e2]; exact hy.frequency
  refine ⟨?_, ?_, hg.one_each, hg.some_range⟩
  · obtain ⟨th', e, k1, k2, k3, k4, k5⟩ := hg.bounds
    refine ⟨th', e, k1, k2, k3, k4, ?_⟩
    intro v' hv'
    have hth' : th' = th := by
      have := k1.1
      rw [e1, hth] at this
      cases this
      rfl
    subst hth'
    have := seriesRanges_moved ext hst (sp := endingAt stop y) (sp' := endingAt stop y)
      ⟨hm, by intro _ hl; rw [hf] at hl; omega⟩ (a := th') (b := th')
      (by rw [e1, hth]; simp [timeCoords]) hname.moved k2 k4
    rw [along_zero, Int.add_zero, Int.add_zero] at this
    rw [seriesRanges_congr ext (s' := reaching v 1 1) hv'.1 hf, e3, this, ← k5 u (Grown.refl u), e3]
    exact seriesRanges_congr ext (s := reaching u 1 1) (s' := u) rfl hf _ _ _ _ _
  · rw [getSeries_congr ext _ (s := v) (s' := reaching v 1 1) rfl, getSeries_moved ext hst hm, ← hg.series]
    exact getSeries_congr ext _ (s := reaching u 1 1) (s' := u) rfl

theorem addBuckets_keyed : ∀ {prs : List PRange} {bs bs' : List Bucket}, addBuckets bs prs = .ok bs' →
    ∀ pr ∈ prs, ∃ k, rangeKey pr = .ok k
  | [], _, _, _, pr, h => by cases h
  | q :: prs, bs, bs', hb, pr, h => by
    unfold addBuckets at hb
    split at hb
    · cases hb
    next bs1 h1 =>
      rcases List.mem_cons.1 h with rfl | h
      · unfold addBucket at h1
        cases hk : rangeKey pr with
        | error e => rw [hk] at h1; cases h1
        | ok k => exact ⟨k, rfl⟩
      · exact addBuckets_keyed hb pr h

theorem bucketLoop_each {ext : Ext} {p : Params} : ∀ {as : List RangeArgs} {s s' : Sheet} {bs bs' : List Bucket},
    bucketLoop ext p as s bs = .ok (bs', s') → ∀ a ∈ as, ∃ t prs reads, t.cells = s.cells ∧
      rangesOfArgs ext p t a = .ok (prs, reads) ∧ ∀ pr ∈ prs, ∃ k, rangeKey pr = .ok k
  | [], _, _, _, _, _, a, h => by cases h
  | b :: as, s, s', bs, bs', hb, a, h => by
    unfold bucketLoop at hb
    split at hb
    · cases hb
    next prs reads h1 =>
      split at hb
      · cases hb
      next bs1 h2 =>
        rcases List.mem_cons.1 h with rfl | h
        · exact ⟨s, prs, reads, rfl, h1, addBuckets_keyed h2⟩
        · obtain ⟨t, prs', reads', k1, k2⟩ := bucketLoop_each hb a h
          exact ⟨t, prs', reads', k1.trans (touchAll_cells _ _), k2⟩

/-- If the extraction succeeds, each series gives a range and a column. -/
theorem getData_each {ext : Ext} {p : Params} {s : Sheet} {sps : List SParams} {fs : List Frame}
    (hp : HasSeries p sps) (hone : ∀ y ∈ sps, y.frequency.length = 1) (hth : ∀ y ∈ sps, ∃ th, y.timeHeader = .single th)
    (h : (getData ext p s).1 = .ok fs) :
    ∀ y ∈ sps, ∃ pr k c, rangeKey pr = .ok k ∧ Gives ext s [pr] y [c] := by
  unfold getData at h
  rw [rangeArgs_series hp] at h
  rw [show ((Except.ok (sps.map argsOf) : Except Err (List RangeArgs)).bind fun as => bucketLoop ext p as s []) =
    bucketLoop ext p (sps.map argsOf) s [] from rfl] at h
  split at h
  · cases h
  next bs s1 h1 =>
  have hl : Params.len (p .headersCoord) = .ok sps.length := by
    rw [hp .headersCoord]
    unfold Params.len
    simp
  rw [hl] at h
  dsimp only at h
  split at h
  · cases h
  next bs' s2 h2 =>
  obtain ⟨hfresh, hc1⟩ := bucketLoop_ok ⟨by simp, by simp, by simp, by simp⟩ h1
  obtain ⟨outs, ds, ho, -, -, -, -⟩ := seriesLoop_ok hfresh.nodup h2
  intro y hy
  obtain ⟨i, hi', rfl⟩ := List.getElem_of_mem hy
  have hi : sps[i]? = some sps[i] := List.getElem?_eq_getElem hi'
  have hf := hone _ hy
  obtain ⟨th, hh⟩ := hth _ hy
  obtain ⟨t, prs, reads, t1, t2, t3⟩ := bucketLoop_each h1 (argsOf sps[i]) (List.mem_map_of_mem hy)
  obtain ⟨th', e, k1, k2, k3, k4, k5⟩ := rangesOfArgs_inv t2
  have : th' = th := by
    rw [hh] at k1
    cases k1
    rfl
  subst this
  have : ∃ pr, prs = [pr] := by
    unfold seriesRanges at k5
    rw [if_pos hf] at k5
    unfold singleRanges at k5
    split at k5
    · cases k5
    · split at k5
      · cases k5
      · dsimp only at k5
        split at k5
        · cases k5
        · cases k5
        · split at k5
          · cases k5
          · cases k5
            exact ⟨_, rfl⟩
  obtain ⟨pr, rfl⟩ := this
  obtain ⟨k, hk⟩ := t3 pr (by simp)
  have hol : outs.length = sps.length := by rw [← ho.length_eq, List.length_range]
  have hg := ho.get (i := i) (by rw [List.length_range]; exact hi') (by omega)
  rw [List.get_eq_getElem, List.getElem_range] at hg
  obtain ⟨sp, s', nv, prs, header, stop, g1, g2, g3, g4, g5, g6, g7, g8⟩ := hg
  rw [typed_of_series hp hi] at g1
  cases g1
  have hnv : getSeries ext sps[i] s = .ok nv := (getSeries_congr ext _ hc1.symm).trans g2
  have hlen := getSeries_one hf hnv g8
  obtain ⟨c, rfl⟩ := List.length_eq_one_iff.1 hlen
  refine ⟨pr, k, c, hk, ⟨th', e, ⟨by rw [hh]; rfl, by rw [hh]; rfl⟩, k2, k3, k4, ?_⟩, hnv, rfl, by simp⟩
  intro u hu
  rw [seriesRanges_congr ext (s' := t) (hu.1.trans t1.symm) hf]
  exact k5

/-- A data frame has the dates of its range, or it falls back on business days. -/
theorem frameOf_dates {ext : Ext} {b : Bucket} {f : Frame} (h : frameOf ext b = .ok f) :
    (frameDates f = b.range ∧ f.columns = b.columns ∧ f.data = b.data) ∨
    (b.range.freqstr = c!"D" ∧ frameDates f = ⟨c!"B", ext.businessDays b.key.2.1 b.key.2.2⟩ ∧ f.columns = b.columns ∧
      f.data = b.data) := by
  unfold frameOf at h
  split at h
  next g hg =>
    cases h
    unfold mkFrame at hg
    split at hg
    · cases hg
      exact .inl ⟨rfl, rfl, rfl⟩
    · cases hg
  · split at h
    next hD =>
      unfold mkFrame at h
      split at h
      · cases h
        exact .inr ⟨hD, rfl, rfl, rfl⟩
      · cases h
    · cases h

/-- What is known of a series that is read alone. -/
structure Alone (ext : Ext) (s : Sheet) (y : SParams) (pr : PRange) (c : Str × List Num) (f : Frame) : Prop where
  dates : DatesOk ext s y
  key : rangeKey pr = .ok (keyOf pr)
  gives : Gives ext (cleanTimeIndex ext y s).2 [pr] (endedOn ext s y) [c]
  frame : frameOf ext ⟨keyOf pr, pr, [c.1], [c.2]⟩ = .ok f

theorem keyOf_eq {pr : PRange} {k : Str × Time × Time} (h : rangeKey pr = .ok k) : keyOf pr = k := by
  unfold keyOf
  rw [h]

theorem sameDates_refl (y : SParams) : SameDates y y := rfl

theorem alone_iff {ext : Ext} {n : Int} (hn : 1 ≤ n) {s : Sheet} (hs : Holds n s) {y : SParams} (hy : Simple n y)
    (f : Frame) : ReadAs ext s y f ↔ ∃ pr c, Alone ext s y pr c f := by
  constructor
  · intro h
    obtain ⟨stop, s1, pr, k, cols, hd, hg⟩ := scrape_inv (hasSeries_only y) (by simp) (x := y) (by
      intro z hz
      rw [List.mem_singleton.1 hz]
      exact sameDates_refl y) hy.frequency (h _ (hasSeries_only y))
    have hx : ∃ c, Gives ext s1 [pr] (endingAt stop y) [c] := by
      cases hg with
      | cons h _ => exact ⟨_, h⟩
    obtain ⟨c, hc⟩ := hx
    have ha := readAlone_of (sameDates_refl y) hd hc (hasSeries_only y)
    rw [h _ (hasSeries_only y)] at ha
    have hk : rangeKey pr = .ok k := by
      cases hd.keys.1 with
      | cons h _ => exact h
    have hst : stopOf ext s y = stop := by unfold stopOf; rw [hd.clean]
    refine ⟨pr, c, ⟨stop, by rw [hd.clean]⟩, by rw [keyOf_eq hk]; exact hk, ?_, ?_⟩
    · unfold endedOn
      rw [hst, hd.clean]
      exact hc
    · rw [keyOf_eq hk]
      split at ha
      next g hg =>
        cases ha
        exact hg
      · cases ha
  · rintro ⟨pr, c, h⟩ q hq
    have hst := h.dates.stop
    have h0 : stopOf ext s y ≠ 0 := by
      have := (clean_agree ext hn hy hs hs fun _ _ _ => rfl).2.2 _ hst
      have := hy.positions.starts
      omega
    obtain ⟨th, hth, -⟩ := hy.timeHeader
    have := readAlone_of (ext := ext) (s := s) (s1 := (cleanTimeIndex ext y s).2) (stop := stopOf ext s y)
      (pr := pr) (k := keyOf pr) (c := c) (sameDates_refl y)
      ⟨by rw [← hst], fun _ => h0, fun _ => ⟨th, hth⟩, .cons h.key .nil, by simp⟩ h.gives hq
    rw [this, h.frame]

/-! ### Data frames -/

theorem foldl_distinct_map {α β : Type} [DecidableEq α] [DecidableEq β] {d : α → β} : ∀ (l acc : List α),
    (∀ a, a ∈ l → ∀ b, b ∈ acc ∨ b ∈ l → d a = d b → a = b) →
    (l.map d).foldl (fun ds a => if a ∈ ds then ds else ds ++ [a]) (acc.map d) =
      (l.foldl (fun ds a => if a ∈ ds then ds else ds ++ [a]) acc).map d
  | [], _, _ => rfl
  | a :: l, acc, h => by
    rw [List.map_cons, List.foldl_cons, List.foldl_cons]
    by_cases hm : a ∈ acc
    · rw [if_pos (List.mem_map_of_mem hm), if_pos hm]
      exact foldl_distinct_map l acc fun b hb c hc => h b (by simp [hb]) c (hc.imp id fun k => by simp [k])
    · rw [if_neg (by
        intro k
        obtain ⟨b, hb, e⟩ := List.mem_map.1 k
        rw [h a (by simp) b (.inl hb) e.symm] at hm
        exact hm hb), if_neg hm]
      have := foldl_distinct_map l (acc ++ [a]) fun b hb c hc => h b (by simp [hb]) c (by
        rcases hc with hc | hc
        · rcases List.mem_append.1 hc with hc | hc
          · exact .inl hc
          · rw [List.mem_singleton.1 hc]
            exact .inr (by simp)
        · exact .inr (by simp [hc]))
      rw [← this, List.map_append, List.map_singleton]

theorem eraseDups_map_of {α β : Type} [DecidableEq α] [DecidableEq β] {d : α → β} {l : List α}
    (h : ∀ a ∈ l, ∀ b ∈ l, d a = d b → a = b) : (l.map d).eraseDups = l.eraseDups.map d := by
  have k := foldl_distinct_map (d := d) l [] fun a ha b hb => by
    rcases hb with hb | hb
    · cases hb
    · exact h a ha b hb
  rw [List.map_nil, eraseDups_foldl, eraseDups_foldl] at k
  simpa using k

theorem flatMap_one {α β : Type} {g : α → List β} {k : α → β} : ∀ {l : List α}, (∀ a ∈ l, g a = [k a]) →
    l.flatMap g = l.map k
  | [], _ => rfl
  | a :: l, h => by
    rw [List.flatMap_cons, h a (by simp), List.map_cons, flatMap_one fun b hb => h b (by simp [hb])]
    rfl

theorem joined_filter {zs : List (Known × Frame)}
    (h2 : ∀ z ∈ zs, ∀ w ∈ zs, z.1.2.1 = w.1.2.1 ↔ frameDates z.2 = frameDates w.2) {d : PRange → PRange}
    (hd : ∀ z ∈ zs, d z.1.2.1 = frameDates z.2) {w : Known × Frame} (hw : w ∈ zs) {f : Frame}
    (hf : frameDates f = d w.1.2.1) {β : Type} {g : Frame → List β} :
    ((zs.map (·.2)).filter fun g => frameDates g = frameDates f).flatMap g =
      (zs.filter fun z => z.1.2.1 = w.1.2.1).flatMap fun z => g z.2 := by
  rw [List.filter_map, List.flatMap_map, hf, hd w hw]
  congr 1
  refine List.filter_congr fun z hz => ?_
  exact decide_eq_decide.2 (h2 z hz w hw).symm

open Classical in
/-- The data frames of entries with columns that alone give the data frames `z.2`. -/
theorem frames_joined {ext : Ext} {zs : List (Known × Frame)}
    (h1 : ∀ z ∈ zs, frameOf ext ⟨keyOf z.1.2.1, z.1.2.1, [z.1.2.2.1], [z.1.2.2.2]⟩ = .ok z.2)
    (h2 : ∀ z ∈ zs, ∀ w ∈ zs, z.1.2.1 = w.1.2.1 ↔ frameDates z.2 = frameDates w.2) :
    ∃ frames, framesOf ext (((zs.map (·.1)).map fun x => x.2.1).eraseDups.map (entryFor keyOf (zs.map (·.1)))) =
      .ok frames ∧ FramesJoined (zs.map (·.2)) frames := by
  -- the dates of a range
  obtain ⟨d, hd⟩ : ∃ d : PRange → PRange, ∀ z ∈ zs, d z.1.2.1 = frameDates z.2 := by
    refine ⟨fun pr => if h : ∃ z ∈ zs, z.1.2.1 = pr then frameDates h.choose.2 else pr, ?_⟩
    intro z hz
    have h : ∃ w ∈ zs, w.1.2.1 = z.1.2.1 := ⟨z, hz, rfl⟩
    dsimp only
    rw [dif_pos h]
    exact (h2 _ h.choose_spec.1 z hz).1 h.choose_spec.2
  have hmem : ∀ pr, pr ∈ ((zs.map (·.1)).map fun x => x.2.1).eraseDups ↔ ∃ z ∈ zs, z.1.2.1 = pr := by
    intro pr
    rw [List.mem_eraseDups, List.map_map, List.mem_map]
    rfl
  have hone : ∀ z ∈ zs, z.2.columns = [z.1.2.2.1] ∧ z.2.data = [z.1.2.2.2] := by
    intro z hz
    rcases frameOf_dates (h1 z hz) with ⟨-, k1, k2⟩ | ⟨-, -, k1, k2⟩ <;> exact ⟨k1, k2⟩
  -- the data frame of a range
  have hframe : ∀ pr ∈ ((zs.map (·.1)).map fun x => x.2.1).eraseDups,
      frameOf ext (entryFor keyOf (zs.map (·.1)) pr) = .ok ⟨(d pr).freqstr, (d pr).index,
        (entryFor keyOf (zs.map (·.1)) pr).columns, (entryFor keyOf (zs.map (·.1)) pr).data⟩ := by
    intro pr hpr
    obtain ⟨w, hw, rfl⟩ := (hmem pr).1 hpr
    have hl : (entryFor keyOf (zs.map (·.1)) w.1.2.1).columns.length =
        (entryFor keyOf (zs.map (·.1)) w.1.2.1).data.length := by
      unfold entryFor
      rw [addNames_length]
      simp
    have hne : (entryFor keyOf (zs.map (·.1)) w.1.2.1).columns ≠ [] := by
      intro e
      rw [e] at hl
      have hnil : (entryFor keyOf (zs.map (·.1)) w.1.2.1).data = [] := List.length_eq_zero_iff.1 hl.symm
      unfold entryFor at hnil
      dsimp only at hnil
      rw [List.map_eq_nil_iff, List.filter_eq_nil_iff] at hnil
      exact hnil w.1 (List.mem_map_of_mem hw) (by simp)
    refine (frameOf_join hl hne _).2 ⟨rfl, rfl, ?_⟩
    intro v hv name
    unfold entryFor at hv
    dsimp only at hv
    obtain ⟨x, hx, rfl⟩ := List.mem_map.1 hv
    obtain ⟨hx1, hx2⟩ := List.mem_filter.1 hx
    obtain ⟨z, hz, rfl⟩ := List.mem_map.1 hx1
    have hx2 : z.1.2.1 = w.1.2.1 := of_decide_eq_true hx2
    have hj := ((frameOf_join (cols := [z.1.2.2.1]) (data := [z.1.2.2.2]) rfl (by simp) _).1 (h1 z hz)).2.2 _
      (List.mem_singleton.2 rfl) name
    rw [← hx2, hd z hz]
    exact hj
  refine ⟨((zs.map (·.1)).map fun x => x.2.1).eraseDups.map fun pr => ⟨(d pr).freqstr, (d pr).index,
        (entryFor keyOf (zs.map (·.1)) pr).columns, (entryFor keyOf (zs.map (·.1)) pr).data⟩, ?_, ?_, ?_, ?_⟩
  · apply framesOf_of
    rw [List.forall₂_map_left_iff, List.forall₂_map_right_iff]
    exact forall₂_self hframe
  · rw [List.map_map, List.map_map, List.map_map]
    rw [show zs.map (frameDates ∘ fun z => z.2) = (zs.map ((fun x : Known => x.2.1) ∘ fun z => z.1)).map d from by
      rw [List.map_map]
      exact List.map_congr_left fun z hz => (hd z hz).symm]
    rw [eraseDups_map_of (d := d)]
    · rfl
    · intro a ha b hb e
      obtain ⟨z, hz, rfl⟩ := List.mem_map.1 ha
      obtain ⟨w, hw, rfl⟩ := List.mem_map.1 hb
      refine (h2 z hz w hw).2 ?_
      rw [← hd z hz, ← hd w hw]
      exact e
  · intro f hf
    obtain ⟨pr, hpr, rfl⟩ := List.mem_map.1 hf
    obtain ⟨w, hw, rfl⟩ := (hmem pr).1 hpr
    rw [joined_filter h2 hd hw rfl, flatMap_one (k := fun z : Known × Frame => z.1.2.2.1)
      fun z hz => (hone z (List.mem_filter.1 hz).1).1]
    have := addNames_columnsOf .nil (((zs.filter fun z => decide (z.1.2.1 = w.1.2.1)).map fun z => z.1.2.2.1))
    rw [List.nil_append] at this
    unfold entryFor
    dsimp only
    rw [List.filter_map, List.map_map]
    exact this
  · intro f hf
    obtain ⟨pr, hpr, rfl⟩ := List.mem_map.1 hf
    obtain ⟨w, hw, rfl⟩ := (hmem pr).1 hpr
    rw [joined_filter h2 hd hw rfl, flatMap_one (k := fun z : Known × Frame => z.1.2.2.2)
      fun z hz => (hone z (List.mem_filter.1 hz).1).2]
    unfold entryFor
    dsimp only
    rw [List.filter_map, List.map_map]
    rfl

end Xls
