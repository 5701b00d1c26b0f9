/-
C122: a table read from a later row on.
-/
import Verif.Spec.Later
import Verif.Lemmas.Later
import Verif.Props.Cut

set_option autoImplicit false

namespace Xls

open Spec

theorem startAt_same {m : Int} {x y : SParams} (h : SameDates x y) : SameDates (startAt m x) (startAt m y) := by
  unfold SameDates at h ⊢
  unfold startAt
  rw [h]

theorem sameDates_starts {m : Int} {x : SParams} {sps : List SParams} (hx : ∀ y ∈ sps, SameDates x y) :
    ∀ y ∈ sps.map (startAt m), SameDates (startAt m x) y := by
  intro y hy
  obtain ⟨z, hz, rfl⟩ := List.mem_map.1 hy
  exact startAt_same (hx z hz)

/-- The end that is noted is the one that was found. -/
theorem noted_end {ext : Ext} {p : Params} {s s1 : Sheet} {x : SParams} {sps : List SParams} {stop e : Int} {pr : PRange}
    {k : Str × Time × Time} (hp : HasSeries p sps) (hne : sps ≠ []) (hx : ∀ y ∈ sps, SameDates x y)
    (ho : ∀ y ∈ sps, y.dataEnds = none) (hd : Dated ext s x stop s1 pr k)
    (he : HasSeries (scrape ext p s).2.1 (sps.map (endingAt e))) : stop = e := by
  obtain ⟨p1, hcd, hp1⟩ := (cleanData_same (ext := ext) (s := s) hp hne hx).2.2.2 stop s1 hd.clean hd.positive hd.header
  have h2 : (scrape ext p s).2.1 = p1 := by
    unfold scrape
    rw [hcd]
  rw [h2] at he
  have h3 := (hp1 .dataEnds).symm.trans (he .dataEnds)
  obtain ⟨x0, rest, rfl⟩ := List.exists_cons_of_ne_nil hne
  injection h3 with h3
  rw [List.map_cons, List.map_cons, List.map_cons, List.map_cons] at h3
  injection h3 with h3 _
  unfold endingAt at h3
  rw [ho x0 (by simp)] at h3
  injection h3

/-- The worksheet left behind by a reading has the cells of the cleaned one. -/
theorem scrape_leaves {ext : Ext} {p : Params} {s s1 : Sheet} {x : SParams} {sps : List SParams} {stop : Int} {pr : PRange}
    {k : Str × Time × Time} {fs : List Frame} (hp : HasSeries p sps) (hne : sps ≠ []) (hx : ∀ y ∈ sps, SameDates x y)
    (hd : Dated ext s x stop s1 pr k) (h : (scrape ext p s).1 = .ok fs) : (scrape ext p s).2.2.cells = s1.cells := by
  obtain ⟨p1, hcd, -⟩ := (cleanData_same (ext := ext) (s := s) hp hne hx).2.2.2 stop s1 hd.clean hd.positive hd.header
  unfold scrape at h ⊢
  rw [hcd] at h ⊢
  dsimp only at h ⊢
  exact getData_cells (s' := (getData ext p1 s1).2) (Prod.ext h rfl)

/-- The data frames of two readings that end in the same row and left the dates as they were, the second one with a later
start. -/
theorem rest_core {ext : Ext} {s s1 s1' : Sheet} {sps : List SParams} {e m hr hc : Int} {us : Nat} {pr pr' : PRange}
    {cols cols' : List (Str × List Num)} (hne : sps ≠ []) (hcol : ∀ x ∈ sps, TimeColumn x hr hc)
    (hdown : ∀ x ∈ sps, x.alignment = .vertical ∧ x.timeAlignment = 0)
    (hfreq : ∀ x ∈ sps, x.frequency ∈ [c!"A", c!"Y", c!"Q", c!"M", c!"W", c!"D"])
    (hi : ∀ x ∈ sps, NoImplicit x ∨ FilledIn s x hr hc e) (hs1 : s1.cells = s.cells) (hs1' : s1'.cells = s.cells)
    (hm : ∀ x ∈ sps, x.dataStarts ≤ m) (hme : m < e)
    (hdate : ∀ x ∈ sps, ∀ r ∈ [x.dataStarts, m, e], PlainDate us (s.cells r hc))
    (hg : List.Forall₂ (fun y c => Gives ext s1 [pr] { y with dataEnds := some e } [c]) sps cols)
    (hg' : List.Forall₂ (fun y c => Gives ext s1' [pr'] { startAt m y with dataEnds := some e } [c]) sps cols')
    (hlen : ∀ c ∈ cols, c.2.length = pr.index.length) (hlen' : ∀ c ∈ cols', c.2.length = pr'.index.length) :
    EndOf ⟨pr'.freqstr, pr'.index, addNames [] (cols'.map Prod.fst), cols'.map Prod.snd⟩
      ⟨pr.freqstr, pr.index, addNames [] (cols.map Prod.fst), cols.map Prod.snd⟩ ∧
      ∀ x ∈ sps, EveryRow x → (pr'.index.length : Int) = e - m + 1 := by
  have hone : ∀ y ∈ sps, y.frequency.length = 1 := fun y hy => (hcol y hy).oneLetter
  -- names and values
  have hcols : List.Forall₂ (fun c' c : Str × List Num => c'.1 = c.1 ∧ c'.2 <:+ c.2) cols' cols := by
    refine forall₂_common (fun y hy c' c h1 h2 => ?_) hg' hg
    have k1 := h1.series
    have k2 := h2.series
    rw [getSeries_congr ext _ (hs1.trans hs1'.symm)] at k2
    have hh : HeaderAt y hr hc := by
      obtain ⟨coord, hco1, hco2⟩ := (hcol y hy).header
      unfold HeaderAt
      rw [hco1]
      exact hco2
    have hi' : NoImplicit y ∨ FilledIn s1' y hr hc e := by
      refine (hi y hy).imp id fun k => ⟨k.missings, k.implicit, k.continuous, k.noBlankRows, ?_⟩
      have hcells : cellsAlong s1' .vertical hr hc y.dataStarts e = cellsAlong s .vertical hr hc y.dataStarts e := by
        unfold cellsAlong timeCell
        rw [hs1']
      rw [hcells]
      exact k.dates
    exact getSeries_suffix (hdown y hy).1 (hone y hy) hi' hh (hm y hy) (by omega) k2 k1
  -- the ranges
  have hranges : pr'.freqstr = pr.freqstr ∧ (pr'.index <:+ pr.index ∨ pr.index <:+ pr'.index) := by
    obtain ⟨y, rest, rfl⟩ := List.exists_cons_of_ne_nil hne
    cases hg with
    | cons h1 _ =>
      cases hg' with
      | cons h2 _ =>
        have hy : y ∈ y :: rest := by simp
        obtain ⟨th, e1, hth, he1, -, -, hr1⟩ := h1.bounds
        obtain ⟨th2, e2, hth2, he2, -, -, hr2⟩ := h2.bounds
        have e3 : th = th2 := singleHeader_eq hth.1 hth2.1
        subst e3
        cases he1
        cases he2
        obtain ⟨coord, hco1, hco2⟩ := (hcol y hy).header
        have e4 : th = coord := by
          have := hth.2
          dsimp only at this
          rw [hco1, (hcol y hy).single] at this
          cases this
          rfl
        subst e4
        have r1 := hr1 s1 (Grown.refl _)
        have r2 := hr2 s1' (Grown.refl _)
        dsimp only [startAt] at r1 r2
        rw [(hdown y hy).1, (hdown y hy).2] at r1 r2
        rw [seriesRanges_congr ext hs1 (hone y hy)] at r1
        rw [seriesRanges_congr ext hs1' (hone y hy)] at r2
        have hsh : ∃ sh, periodShift y.frequency = some sh := by
          have := hfreq y hy
          simp only [List.mem_cons, List.not_mem_nil, or_false] at this
          rcases this with k | k | k | k | k | k <;> rw [k] <;> exact ⟨_, rfl⟩
        obtain ⟨sh, hsh⟩ := hsh
        have hS : y.frequency ≠ c!"S" := by
          intro k
          have := hfreq y hy
          rw [k] at this
          exact absurd this (by decide)
        exact seriesRanges_suffix hsh hS hco2 (hcol y hy).starts (hm y hy) (by omega)
          (hdate y hy _ (by simp)) (hdate y hy _ (by simp)) (hdate y hy _ (by simp)) r1 r2
  refine ⟨⟨hranges.1, ?_, ?_, ?_⟩, ?_⟩
  · show addNames [] (cols'.map Prod.fst) = addNames [] (cols.map Prod.fst)
    rw [forall₂_map_fst (R := fun c' c => c'.1 = c.1 ∧ c'.2 <:+ c.2) (fun _ _ h => h.1.symm) hcols]
  · show pr'.index <:+ pr.index
    rcases hranges.2 with h1 | h1
    · exact h1
    · obtain ⟨c0, crest, rfl⟩ := List.exists_cons_of_ne_nil (forall₂_nonempty hg' hne)
      cases hcols with
      | cons hc _ =>
        have a1 := hlen' _ List.mem_cons_self
        have a2 := hlen _ List.mem_cons_self
        have a3 := hc.2.length_le
        rw [h1.eq_of_length_le (by omega)]
  · show List.Forall₂ _ (cols'.map Prod.snd) (cols.map Prod.snd)
    rw [List.forall₂_map_left_iff, List.forall₂_map_right_iff]
    exact hcols.imp fun _ _ h => h.2
  · intro y hy hev
    obtain ⟨c, hc1, hgc⟩ := forall₂_left hg' y hy
    show (pr'.index.length : Int) = _
    rw [← hlen' c hc1]
    have k1 := hgc.series
    obtain ⟨hv, r, c', hdc⟩ := getSeries_dataCells (sp := startAt m y) (hdown y hy).1 (by
      show m ≤ _
      omega) k1
    obtain ⟨xs, e1, e2⟩ := (C52_every_row hdc (hone y hy) hev.continuous hev.noMissings hev.noBlankRows
      (by dsimp only [startAt]; omega) [c.2]).1 hv
    have e3 := congrArg List.length e2
    rw [List.length_map, List.length_map, cellsAlong_length] at e3
    rw [List.singleton_inj.1 e1, ← e3]
    dsimp only [startAt]
    omega

/-- C122. A table is read once from its first row and once with `data_starts` set to a later row `m`. If both calls give a
data frame, the second one is the last part of the first: same frequency and columns, and its dates and values are the
last ones of it. If every row is read, it has exactly one date for each row from `m` on. Here `e` is the row where the
series were found to end, which the first call notes in the parameters. Conditions: the series have one frequency, other
than semesters, and their dates in common and go down beside them; the dates are date cells, in the rows where the readings
start and end with the same time of day, and the first reading left them as they were; either no missing values are to be
filled in from the dates, or the dates are some of consecutive periods and every row has a value; neither data frame is
one of working days. -/
theorem C122_rest (ext : Ext) {p q : Params} {s : Sheet} {sps : List SParams} {e m hr hc : Int} {us : Nat}
    {fs fs' : List Frame} (hp : HasSeries p sps) (hq : HasSeries q (sps.map (startAt m))) (hne : sps ≠ [])
    (hs : ∀ x ∈ sps, ∀ y ∈ sps, SameDates x y) (hcol : ∀ x ∈ sps, TimeColumn x hr hc) (ho : ∀ x ∈ sps, OpenDown x)
    (hfreq : ∀ x ∈ sps, x.frequency ∈ [c!"A", c!"Y", c!"Q", c!"M", c!"W", c!"D"])
    (hi : ∀ x ∈ sps, NoImplicit x ∨ FilledIn s x hr hc e)
    (he : HasSeries (scrape ext p s).2.1 (sps.map (endingAt e))) (hkeep : (scrape ext p s).2.2.cells = s.cells)
    (hm : ∀ x ∈ sps, x.dataStarts ≤ m) (hme : m < e)
    (hdate : ∀ x ∈ sps, ∀ r ∈ [x.dataStarts, m, e], PlainDate us (s.cells r hc))
    (h : (scrape ext p s).1 = .ok fs) (h' : (scrape ext q s).1 = .ok fs') (hB : ∀ f ∈ fs ++ fs', f.freq ≠ c!"B") :
    ∃ f f', fs = [f] ∧ fs' = [f'] ∧ EndOf f' f ∧ ∀ x ∈ sps, EveryRow x → (f'.index.length : Int) = e - m + 1 := by
  obtain ⟨x, hxm⟩ := List.exists_mem_of_ne_nil _ hne
  have hx := hs x hxm
  have hone : ∀ y ∈ sps, y.frequency.length = 1 := fun y hy => (hcol y hy).oneLetter
  obtain ⟨stop, s1, pr, k, cols, hd, hg, rfl, hlen⟩ := frame_of_call hp hne hx (hone x hxm) h
    fun f hf => hB f (List.mem_append_left _ hf)
  obtain ⟨stop', s1', pr', k', cols', hd', hg', rfl, hlen'⟩ := frame_of_call hq (by simpa using hne) (sameDates_starts hx)
    (hone x hxm) h' fun f hf => hB f (List.mem_append_right _ hf)
  rw [List.forall₂_map_left_iff] at hg'
  have hstop := noted_end hp hne hx (fun y hy => (ho y hy).open_end) hd he
  subst hstop
  have hs1 : s1.cells = s.cells := (scrape_leaves hp hne hx hd h).symm.trans hkeep
  obtain ⟨tm, htm, -⟩ := hdate x hxm m (by simp)
  obtain ⟨e1, hs1'⟩ := cleaned_later (hcol x hxm) (ho x hxm).beside (hm x hxm) hme (by
    unfold timeCell rowOf colOf
    rw [(ho x hxm).down]
    exact htm) hd.clean hs1 hd'.clean
  subst e1
  have ending : ∀ y ∈ sps, endingAt stop' y = { y with dataEnds := some stop' } := by
    intro y hy
    unfold endingAt
    rw [(ho y hy).open_end]
  have ending' : ∀ y ∈ sps, endingAt stop' (startAt m y) = { startAt m y with dataEnds := some stop' } := by
    intro y hy
    have : (startAt m y).dataEnds = none := (ho y hy).open_end
    unfold endingAt
    rw [this]
  have key := rest_core hne hcol (fun y hy => ⟨(ho y hy).down, (ho y hy).beside⟩) hfreq hi hs1 hs1' hm hme hdate
    (forall₂_common_left (fun y hy c h => by rw [← ending y hy]; exact h) hg)
    (forall₂_common_left (fun y hy c h => by rw [← ending' y hy]; exact h) hg') hlen hlen'
  exact ⟨_, _, rfl, rfl, key.1, key.2⟩

/-- C122, for an end that is given: both calls have `data_ends` set to row `n`. Every row down to `n` has a date. -/
theorem C122_given (ext : Ext) {p q : Params} {s : Sheet} {sps : List SParams} {n m hr hc : Int} {us : Nat}
    {fs fs' : List Frame} (hp : HasSeries p (sps.map (cutAt n))) (hq : HasSeries q (sps.map fun x => startAt m (cutAt n x)))
    (hne : sps ≠ []) (hs : ∀ x ∈ sps, ∀ y ∈ sps, SameDates x y) (hcol : ∀ x ∈ sps, TimeColumn x hr hc)
    (hdown : ∀ x ∈ sps, x.alignment = .vertical ∧ x.timeAlignment = 0)
    (hfreq : ∀ x ∈ sps, x.frequency ∈ [c!"A", c!"Y", c!"Q", c!"M", c!"W", c!"D"])
    (hi : ∀ x ∈ sps, NoImplicit x ∨ FilledIn s x hr hc n) (hkeep : (scrape ext p s).2.2.cells = s.cells)
    (hm : ∀ x ∈ sps, x.dataStarts ≤ m) (hmn : m < n)
    (hdate : ∀ x ∈ sps, ∀ r, x.dataStarts ≤ r → r ≤ n → PlainDate us (s.cells r hc))
    (h : (scrape ext p s).1 = .ok fs) (h' : (scrape ext q s).1 = .ok fs') (hB : ∀ f ∈ fs ++ fs', f.freq ≠ c!"B") :
    ∃ f f', fs = [f] ∧ fs' = [f'] ∧ EndOf f' f ∧ ∀ x ∈ sps, EveryRow x → (f'.index.length : Int) = n - m + 1 := by
  obtain ⟨x, hxm⟩ := List.exists_mem_of_ne_nil _ hne
  have hx := hs x hxm
  have hq' : HasSeries q ((sps.map (cutAt n)).map (startAt m)) := by
    rw [List.map_map]
    exact hq
  have hx1 := sameDates_cuts (n := n) hx
  have hn0 : 0 < n := by
    have h1 := (hcol x hxm).starts
    have h2 := hm x hxm
    omega
  have hcut : TimeColumn (cutAt n x) hr hc :=
    ⟨(hcol x hxm).single, (hcol x hxm).header, (hcol x hxm).starts, (hcol x hxm).aligned, (hcol x hxm).notComposed,
      (hcol x hxm).oneLetter⟩
  obtain ⟨stop, s1, pr, k, cols, hd, hg, rfl, hlen⟩ := frame_of_call hp (by simpa using hne) hx1 (hcol x hxm).oneLetter h
    fun f hf => hB f (List.mem_append_left _ hf)
  obtain ⟨stop', s1', pr', k', cols', hd', hg', rfl, hlen'⟩ := frame_of_call hq' (by simpa using hne)
    (sameDates_starts hx1) (hcol x hxm).oneLetter h' fun f hf => hB f (List.mem_append_right _ hf)
  rw [List.forall₂_map_left_iff] at hg hg'
  rw [List.forall₂_map_left_iff] at hg'
  have hs1 : s1.cells = s.cells := (scrape_leaves hp (by simpa using hne) hx1 hd h).symm.trans hkeep
  have cell : ∀ r, timeCell s (cutAt n x).alignment hr hc r = s.cells r hc := by
    intro r
    have : (cutAt n x).alignment = .vertical := (hdown x hxm).1
    unfold timeCell rowOf colOf
    rw [this]
    rfl
  have hstop := cleaned_given hcut (hdown x hxm).2 rfl hn0 (fun r h1 h2 => by
    obtain ⟨t, ht, -⟩ := hdate x hxm r h1 h2
    exact ⟨t, (cell r).trans ht⟩) hd.clean hs1
  subst hstop
  obtain ⟨tm, htm, -⟩ := hdate x hxm m (hm x hxm) (by omega)
  obtain ⟨-, hs1'⟩ := cleaned_later hcut (hdown x hxm).2 (hm x hxm) hmn ((cell m).trans htm) hd.clean hs1 hd'.clean
  have key := rest_core hne hcol hdown hfreq hi hs1 hs1' hm hmn (fun y hy r hr => by
      have h1 := hm y hy
      simp only [List.mem_cons, List.not_mem_nil, or_false] at hr
      rcases hr with rfl | rfl | rfl
      · exact hdate y hy _ (by omega) (by omega)
      · exact hdate y hy _ (by omega) (by omega)
      · exact hdate y hy _ (by omega) (by omega))
    (hg.imp fun y c h => by
      rw [endingAt_cutAt hn0] at h
      exact h)
    (hg'.imp fun y c h => by
      have e1 : endingAt stop' (startAt m (cutAt stop y)) = startAt m (cutAt stop y) :=
        endingAt_of_hasEnd (cutAt_hasEnd hn0 (startAt m y)) stop'
      rw [e1] at h
      exact h) hlen hlen'
  exact ⟨_, _, rfl, rfl, key.1, key.2⟩

/-- C122, for calls: the same of two calls in any mode, without and with the later `data_starts`, that ask for the same
worksheet or for worksheets that are equal. The end `e` is the one in the parameters that the first call gives back. -/
theorem C122_call (ext : Ext) (wb wb' : List Nat) (w w' w1 w1' : World) (given given' : Given)
    (name name' title title' : Str) (safe safe' preserve preserve' : Bool) (r r' kept kept' : Nat) {p q : Params}
    {sps : List SParams} {e m hr hc : Int} {us : Nat} {d d' : Dfs} (hreq : Requested ext wb w name r)
    (hreq' : Requested ext wb' w' name' r') (hwb : ∀ q ∈ wb, q < w.nextSheet ∧ WellFormed (w.sheets q))
    (hwb' : ∀ q ∈ wb', q < w'.nextSheet ∧ WellFormed (w'.sheets q)) (hsheet : w'.sheets r' = w.sheets r)
    (hgiven : GivenWith given w p) (hgiven' : GivenWith given' w' q) (hp : HasSeries p sps)
    (hq : HasSeries q (sps.map (startAt m))) (hne : sps ≠ []) (hs : ∀ x ∈ sps, ∀ y ∈ sps, SameDates x y)
    (hcol : ∀ x ∈ sps, TimeColumn x hr hc) (ho : ∀ x ∈ sps, OpenDown x)
    (hfreq : ∀ x ∈ sps, x.frequency ∈ [c!"A", c!"Y", c!"Q", c!"M", c!"W", c!"D"])
    (hi : ∀ x ∈ sps, NoImplicit x ∨ FilledIn (w.sheets r) x hr hc e)
    (hkeep : (scrape ext p (w.sheets r)).2.2.cells = (w.sheets r).cells) (hm : ∀ x ∈ sps, x.dataStarts ≤ m) (hme : m < e)
    (hdate : ∀ x ∈ sps, ∀ i ∈ [x.dataStarts, m, e], PlainDate us ((w.sheets r).cells i hc))
    (h : getDataFrames ext wb given name safe preserve w = (.ok (.dfs d, title, kept), w1))
    (he : HasSeries (w1.params kept) (sps.map (endingAt e)))
    (h' : getDataFrames ext wb' given' name' safe' preserve' w' = (.ok (.dfs d', title', kept'), w1'))
    (hB : ∀ f, d = .one f ∨ d' = .one f → f.freq ≠ c!"B") :
    ∃ f f', d = .one f ∧ d' = .one f' ∧ EndOf f' f ∧ ∀ x ∈ sps, EveryRow x → (f'.index.length : Int) = e - m + 1 := by
  have hf : ∀ y ∈ sps, y.frequency.length = 1 := fun y hy => (hcol y hy).oneLetter
  obtain ⟨fs, s1, k1, rfl⟩ := call_reads hp hne hreq hwb hgiven h
  obtain ⟨fs', s1', k1', rfl⟩ := call_reads hq (by simpa using hne) hreq' hwb' hgiven' h'
  rw [hsheet] at k1'
  obtain ⟨g, rfl⟩ := one_frame hp hne hs hf (by rw [k1])
  obtain ⟨g', rfl⟩ := one_frame hq (by simpa using hne) (by
    intro x hx y hy
    obtain ⟨x, hx1, rfl⟩ := List.mem_map.1 hx
    obtain ⟨y, hy1, rfl⟩ := List.mem_map.1 hy
    exact startAt_same (hs x hx1 y hy1)) (by
    intro x hx
    obtain ⟨x, hx1, rfl⟩ := List.mem_map.1 hx
    exact hf x hx1) (by rw [k1'])
  obtain ⟨f, f', e1, e2, e3⟩ := C122_rest ext hp hq hne hs hcol ho hfreq hi (by rw [k1]; exact he) hkeep hm hme hdate
    (by rw [k1]) (by rw [k1']) (by
      intro f hf
      rcases List.mem_append.1 hf with hm | hm
      · cases List.mem_singleton.1 hm
        exact hB _ (.inl rfl)
      · cases List.mem_singleton.1 hm
        exact hB _ (.inr rfl))
  cases e1
  cases e2
  exact ⟨_, _, rfl, rfl, e3⟩

/-! ### Examples -/

namespace Sample

/-- Two series of five months with a footnote. -/
def fromSheet : Sheet := rows
  [[.str c!"fecha", .str c!"PBI ", .str c!"IPC"],
   [day 2012 1 1, .int 10, .int 1],
   [day 2012 2 1, .int 11, .int 2],
   [day 2012 3 1, .int 12, .int 3],
   [day 2012 4 1, .int 13, .int 4],
   [day 2012 5 1, .int 14, .int 5],
   [.none, .none, .none],
   [.str c!"Fuente: INDEC", .none, .none]]

def fromPair : List SParams := [monthly, { monthly with headerCoord := c!"C1" }]

/-- All five months. -/
def fromWhole : Frame :=
  ⟨c!"MS", [⟨2012, 1, 1, 0⟩, ⟨2012, 2, 1, 0⟩, ⟨2012, 3, 1, 0⟩, ⟨2012, 4, 1, 0⟩, ⟨2012, 5, 1, 0⟩], [c!"PBI", c!"IPC"],
    [[.fin 10, .fin 11, .fin 12, .fin 13, .fin 14], [.fin 1, .fin 2, .fin 3, .fin 4, .fin 5]]⟩

/-- The last three. -/
def fromRest : Frame :=
  ⟨c!"MS", [⟨2012, 3, 1, 0⟩, ⟨2012, 4, 1, 0⟩, ⟨2012, 5, 1, 0⟩], [c!"PBI", c!"IPC"],
    [[.fin 12, .fin 13, .fin 14], [.fin 3, .fin 4, .fin 5]]⟩

theorem from_pair {P : SParams → Prop} (h1 : P monthly) (h2 : P { monthly with headerCoord := c!"C1" }) :
    ∀ x ∈ fromPair, P x := by
  intro x hx
  simp only [fromPair, List.mem_cons, List.not_mem_nil, or_false] at hx
  rcases hx with rfl | rfl
  · exact h1
  · exact h2

set_option maxRecDepth 4000 in
theorem from_keeps : (scrape ext0 (paramsOf fromPair) fromSheet).2.2.cells = fromSheet.cells := by
  have h : (scrape ext0 (paramsOf fromPair) fromSheet).2.2.cells =
      (((((fromSheet.set 2 1 (day 2012 1 1)).set 3 1 (day 2012 2 1)).set 4 1 (day 2012 3 1)).set 5 1
        (day 2012 4 1)).set 6 1 (day 2012 5 1)).cells := rfl
  rw [h]
  funext r c
  simp only [set_cells]
  repeat' split
  all_goals
    first
      | rfl
      | (next k => obtain ⟨rfl, rfl⟩ := k; rfl)

theorem from_same : ∀ x ∈ fromPair, ∀ y ∈ fromPair, SameDates x y :=
  from_pair (from_pair rfl rfl) (from_pair rfl rfl)

theorem from_column : ∀ x ∈ fromPair, TimeColumn x 1 1 :=
  from_pair ⟨rfl, ⟨_, rfl, rfl⟩, by decide, .inl rfl, rfl, rfl⟩ ⟨rfl, ⟨_, rfl, rfl⟩, by decide, .inl rfl, rfl, rfl⟩

theorem from_dates : ∀ x ∈ fromPair, ∀ r ∈ [x.dataStarts, 4, 6], PlainDate 0 (fromSheet.cells r 1) := by
  have h : ∀ r ∈ ([2, 4, 6] : List Int), PlainDate 0 (fromSheet.cells r 1) := by
    intro r hr
    simp only [List.mem_cons, List.not_mem_nil, or_false] at hr
    rcases hr with rfl | rfl | rfl <;> exact ⟨_, rfl, by decide, by decide, rfl⟩
  exact from_pair h h

end Sample

/-- Of five months the last three, from row 4 on. -/
example : ∃ f f', [Sample.fromWhole] = [f] ∧ [Sample.fromRest] = [f'] ∧ EndOf f' f ∧
    ∀ x ∈ Sample.fromPair, EveryRow x → (f'.index.length : Int) = 6 - 4 + 1 :=
  C122_rest Sample.ext0 (p := Sample.paramsOf Sample.fromPair)
    (q := Sample.paramsOf (Sample.fromPair.map (startAt 4))) (s := Sample.fromSheet) (sps := Sample.fromPair) (e := 6)
    (m := 4) (hr := 1) (hc := 1) (us := 0) (fun _ => rfl) (fun _ => rfl) (by decide)
    Sample.from_same Sample.from_column (Sample.from_pair ⟨rfl, rfl, rfl⟩ ⟨rfl, rfl, rfl⟩) (by decide)
    (Sample.from_pair (.inl fun h => by cases h) (.inl fun h => by cases h)) (fun n => by cases n <;> rfl) Sample.from_keeps
    (by decide) (by decide) Sample.from_dates (by decide +kernel) (by decide +kernel) (by decide)

set_option maxRecDepth 4000 in
/-- The same for calls, one of them in safe mode on a copy of the workbook. -/
example : ∃ f f', Dfs.one Sample.fromWhole = .one f ∧ Dfs.one Sample.fromRest = .one f' ∧ EndOf f' f ∧
    ∀ x ∈ Sample.fromPair, EveryRow x → (f'.index.length : Int) = 6 - 4 + 1 :=
  C122_call Sample.ext0 [0] [0] (Sample.world Sample.fromSheet (Sample.paramsOf Sample.fromPair))
    (Sample.world Sample.fromSheet (Sample.paramsOf (Sample.fromPair.map (startAt 4)))) _ _ (.object 0) (.object 0)
    [] [] c!"S" c!"S" true false true false 0 0 0 0 (p := Sample.paramsOf Sample.fromPair)
    (q := Sample.paramsOf (Sample.fromPair.map (startAt 4))) (sps := Sample.fromPair) (e := 6) (m := 4) (hr := 1) (hc := 1)
    (us := 0) ⟨by simp, by simp, .inl ⟨rfl, rfl⟩⟩ ⟨by simp, by simp, .inl ⟨rfl, rfl⟩⟩
    (by
      intro q hq
      cases List.mem_singleton.1 hq
      exact ⟨Nat.zero_lt_one, Sample.rows_wellFormed (by decide) (by decide) (by decide)⟩)
    (by
      intro q hq
      cases List.mem_singleton.1 hq
      exact ⟨Nat.zero_lt_one, Sample.rows_wellFormed (by decide) (by decide) (by decide)⟩)
    rfl (.inl ⟨0, rfl, rfl⟩) (.inl ⟨0, rfl, rfl⟩) (fun _ => rfl) (fun _ => rfl) (by decide) Sample.from_same
    Sample.from_column (Sample.from_pair ⟨rfl, rfl, rfl⟩ ⟨rfl, rfl, rfl⟩) (by decide)
    (Sample.from_pair (.inl fun h => by cases h) (.inl fun h => by cases h)) Sample.from_keeps (by decide) (by decide)
    Sample.from_dates (Prod.ext (by decide +kernel) rfl) (fun n => by cases n <;> rfl)
    (Prod.ext (by decide +kernel) rfl) (by rintro f (h | h) <;> cases h <;> decide)

namespace Sample

/-- Four of six months. -/
def gapsSheet : Sheet := rows
  [[.str c!"fecha", .str c!"PBI"],
   [day 2012 1 1, .int 10],
   [day 2012 3 1, .int 11],
   [day 2012 4 1, .int 12],
   [day 2012 6 1, .int 13],
   [.none, .none]]

def gapsSeries : SParams :=
  { monthly with missings := true, missingValue := .list [.str c!"Implicit"], continuity := true, blankRows := false }

set_option maxRecDepth 4000 in
theorem gaps_keeps : (scrape ext0 (paramsOf [gapsSeries]) gapsSheet).2.2.cells = gapsSheet.cells := by
  have h : (scrape ext0 (paramsOf [gapsSeries]) gapsSheet).2.2.cells =
      ((((gapsSheet.set 2 1 (day 2012 1 1)).set 3 1 (day 2012 3 1)).set 4 1 (day 2012 4 1)).set 5 1
        (day 2012 6 1)).cells := rfl
  rw [h]
  funext r c
  simp only [set_cells]
  repeat' split
  all_goals
    first
      | rfl
      | (next k => obtain ⟨rfl, rfl⟩ := k; rfl)

theorem gaps_dates : ∀ x ∈ [gapsSeries], ∀ r ∈ [x.dataStarts, 4, 5], PlainDate 0 (gapsSheet.cells r 1) := by
  intro x hx r hr
  cases List.mem_singleton.1 hx
  have hr : r ∈ ([2, 4, 5] : List Int) := hr
  simp only [List.mem_cons, List.not_mem_nil, or_false] at hr
  rcases hr with rfl | rfl | rfl <;> exact ⟨_, rfl, by decide, by decide, rfl⟩

theorem gaps_filled : FilledIn gapsSheet gapsSeries 1 1 5 := by
  refine ⟨rfl, ⟨_, rfl, List.mem_singleton.2 rfl⟩, rfl, rfl,
    [⟨2012, 1, 1, 0⟩, ⟨2012, 2, 1, 0⟩, ⟨2012, 3, 1, 0⟩, ⟨2012, 4, 1, 0⟩, ⟨2012, 5, 1, 0⟩, ⟨2012, 6, 1, 0⟩],
    [⟨2012, 1, 1, 0⟩, ⟨2012, 3, 1, 0⟩, ⟨2012, 4, 1, 0⟩, ⟨2012, 6, 1, 0⟩], by decide +kernel,
    ⟨by decide, ?_, by decide, rfl, rfl⟩, ?_⟩
  · exact ⟨⟨_, rfl, rfl, rfl, rfl⟩, ⟨_, rfl, rfl, rfl, rfl⟩, ⟨_, rfl, rfl, rfl, rfl⟩, ⟨_, rfl, rfl, rfl, rfl⟩,
      ⟨_, rfl, rfl, rfl, rfl⟩, trivial⟩
  · intro z h
    injection h with h
    subst h
    exact ⟨⟨2012, 7, 1, 0⟩, by decide, _, rfl, rfl, rfl, rfl⟩

end Sample

/-- The months left out are filled in, and from row 4 on there are three months left, the second of them without a
value. -/
example : ∃ f f', [(⟨c!"MS", [⟨2012, 1, 1, 0⟩, ⟨2012, 2, 1, 0⟩, ⟨2012, 3, 1, 0⟩, ⟨2012, 4, 1, 0⟩, ⟨2012, 5, 1, 0⟩,
      ⟨2012, 6, 1, 0⟩], [c!"PBI"], [[.fin 10, .nan, .fin 11, .fin 12, .nan, .fin 13]]⟩ : Frame)] = [f] ∧
    [(⟨c!"MS", [⟨2012, 4, 1, 0⟩, ⟨2012, 5, 1, 0⟩, ⟨2012, 6, 1, 0⟩], [c!"PBI"], [[.fin 12, .nan, .fin 13]]⟩ : Frame)] = [f'] ∧
    EndOf f' f ∧ ∀ x ∈ [Sample.gapsSeries], EveryRow x → (f'.index.length : Int) = 5 - 4 + 1 :=
  C122_rest Sample.ext0 (p := Sample.paramsOf [Sample.gapsSeries])
    (q := Sample.paramsOf ([Sample.gapsSeries].map (startAt 4))) (s := Sample.gapsSheet) (sps := [Sample.gapsSeries])
    (e := 5) (m := 4) (hr := 1) (hc := 1) (us := 0) (fun _ => rfl) (fun _ => rfl) (by simp)
    (by simp [SameDates]) (by
      intro x hx
      cases List.mem_singleton.1 hx
      exact ⟨rfl, ⟨_, rfl, rfl⟩, by decide, .inl rfl, rfl, rfl⟩) (by
      intro x hx
      cases List.mem_singleton.1 hx
      exact ⟨rfl, rfl, rfl⟩) (by
      intro x hx
      cases List.mem_singleton.1 hx
      decide) (by
      intro x hx
      cases List.mem_singleton.1 hx
      exact .inr Sample.gaps_filled) (fun n => by cases n <;> rfl) Sample.gaps_keeps (by
      intro x hx
      cases List.mem_singleton.1 hx
      decide) (by decide) Sample.gaps_dates (by decide +kernel) (by decide +kernel) (by decide)

namespace Sample

set_option maxRecDepth 4000 in
theorem gaps_given : (scrape ext0 (paramsOf ([gapsSeries].map (cutAt 5))) gapsSheet).2.2.cells = gapsSheet.cells := by
  have h : (scrape ext0 (paramsOf ([gapsSeries].map (cutAt 5))) gapsSheet).2.2.cells =
      ((((gapsSheet.set 2 1 (day 2012 1 1)).set 3 1 (day 2012 3 1)).set 4 1 (day 2012 4 1)).set 5 1
        (day 2012 6 1)).cells := rfl
  rw [h]
  funext r c
  simp only [set_cells]
  repeat' split
  all_goals
    first
      | rfl
      | (next k => obtain ⟨rfl, rfl⟩ := k; rfl)

end Sample

/-- The same with the end given in both calls. -/
example : ∃ f f', [(⟨c!"MS", [⟨2012, 1, 1, 0⟩, ⟨2012, 2, 1, 0⟩, ⟨2012, 3, 1, 0⟩, ⟨2012, 4, 1, 0⟩, ⟨2012, 5, 1, 0⟩,
      ⟨2012, 6, 1, 0⟩], [c!"PBI"], [[.fin 10, .nan, .fin 11, .fin 12, .nan, .fin 13]]⟩ : Frame)] = [f] ∧
    [(⟨c!"MS", [⟨2012, 4, 1, 0⟩, ⟨2012, 5, 1, 0⟩, ⟨2012, 6, 1, 0⟩], [c!"PBI"], [[.fin 12, .nan, .fin 13]]⟩ : Frame)] = [f'] ∧
    EndOf f' f ∧ ∀ x ∈ [Sample.gapsSeries], EveryRow x → (f'.index.length : Int) = 5 - 4 + 1 :=
  C122_given Sample.ext0 (p := Sample.paramsOf ([Sample.gapsSeries].map (cutAt 5)))
    (q := Sample.paramsOf ([Sample.gapsSeries].map fun x => startAt 4 (cutAt 5 x))) (s := Sample.gapsSheet)
    (sps := [Sample.gapsSeries]) (n := 5) (m := 4) (hr := 1) (hc := 1) (us := 0) (fun _ => rfl) (fun _ => rfl) (by simp)
    (by simp [SameDates]) (by
      intro x hx
      cases List.mem_singleton.1 hx
      exact ⟨rfl, ⟨_, rfl, rfl⟩, by decide, .inl rfl, rfl, rfl⟩) (by
      intro x hx
      cases List.mem_singleton.1 hx
      exact ⟨rfl, rfl⟩) (by
      intro x hx
      cases List.mem_singleton.1 hx
      decide) (by
      intro x hx
      cases List.mem_singleton.1 hx
      exact .inr Sample.gaps_filled) Sample.gaps_given (by
      intro x hx
      cases List.mem_singleton.1 hx
      decide) (by decide) (by
      intro x hx r h1 h2
      cases List.mem_singleton.1 hx
      have h1 : 2 ≤ r := h1
      have : r = 2 ∨ r = 3 ∨ r = 4 ∨ r = 5 := by omega
      rcases this with rfl | rfl | rfl | rfl <;> exact ⟨_, rfl, by decide, by decide, rfl⟩)
    (by decide +kernel) (by decide +kernel) (by decide)

end Xls
