/-
C121: a table read up to a given row.
-/
import Verif.Spec.Cut
import Verif.Lemmas.Cut
import Verif.Props.Appended

set_option autoImplicit false

namespace Xls

open Spec

/-- The data frame of series that end where it is said: it has the range and the columns. -/
theorem frame_of_call {ext : Ext} {p : Params} {s : Sheet} {x : SParams} {sps : List SParams} {fs : List Frame}
    (hp : HasSeries p sps) (hne : sps ≠ []) (hx : ∀ y ∈ sps, SameDates x y) (hf : x.frequency.length = 1)
    (h : (scrape ext p s).1 = .ok fs) (hB : ∀ f ∈ fs, f.freq ≠ c!"B") :
    ∃ stop s1 pr k cols, Dated ext s x stop s1 pr k ∧
      List.Forall₂ (fun y c => Gives ext s1 [pr] (endingAt stop y) [c]) sps cols ∧
      fs = [⟨pr.freqstr, pr.index, addNames [] (cols.map Prod.fst), cols.map Prod.snd⟩] ∧
      ∀ c ∈ cols, c.2.length = pr.index.length := by
  obtain ⟨stop, s1, pr, k, cols, hd, hg⟩ := scrape_inv hp hne hx hf h
  rw [scrape_dated hp hne hx hd hg] at h
  split at h
  next f hfr =>
    cases h
    obtain ⟨rfl, hlen⟩ := frameOf_plain hfr (hB f (by simp))
    exact ⟨stop, s1, pr, k, cols, hd, hg, rfl, fun c hc => hlen _ (List.mem_map_of_mem hc)⟩
  · cases h

/-- Two readings of the same series, up to row `m` and up to row `n`, of worksheets that agree up to row `n`. -/
theorem beginning_core {ext : Ext} {s1 s1' : Sheet} {sps : List SParams} {m n : Int} {pr pr' : PRange}
    {cols cols' : List (Str × List Num)} (hne : sps ≠ []) (hf : ∀ x ∈ sps, x.frequency.length = 1)
    (hal : ∀ x ∈ sps, x.alignment = .vertical) (hta : ∀ x ∈ sps, x.timeAlignment = 0) (hle : n ≤ m)
    (hn : ∀ x ∈ sps, NamedAbove n x) (hag : ∀ r c, r ≤ n → s1'.cells r c = s1.cells r c)
    (hg : List.Forall₂ (fun y c => Gives ext s1 [pr] (cutAt m y) [c]) sps cols)
    (hg' : List.Forall₂ (fun y c => Gives ext s1' [pr'] (cutAt n y) [c]) sps cols')
    (hlen : ∀ c ∈ cols, c.2.length = pr.index.length) (hlen' : ∀ c ∈ cols', c.2.length = pr'.index.length) :
    GoesOn ⟨pr'.freqstr, pr'.index, addNames [] (cols'.map Prod.fst), cols'.map Prod.snd⟩
      ⟨pr.freqstr, pr.index, addNames [] (cols.map Prod.fst), cols.map Prod.snd⟩ ∧
      ∀ x ∈ sps, EveryRow x → (pr'.index.length : Int) = n - x.dataStarts + 1 := by
  have hstart : ∀ y ∈ sps, y.dataStarts < n := by
    intro y hy
    obtain ⟨c, -, hc⟩ := forall₂_left hg' y hy
    obtain ⟨_, m, -, hm, -, hlt, -⟩ := hc.bounds
    cases hm
    exact hlt
  -- names and values
  have hcols : List.Forall₂ (fun c' c : Str × List Num => c.1 = c'.1 ∧ c'.2 <+: c.2) cols' cols := by
    refine forall₂_common (fun y hy c' c h1 h2 => ?_) hg' hg
    exact getSeries_prefix (hal y hy) (hta y hy) (hf y hy) (by have := hstart y hy; omega) hle
      (fun r c hr => (hag r c hr).symm) (hn y hy) h1.series h2.series
  -- the ranges
  have hranges : pr.freqstr = pr'.freqstr ∧ (pr'.index <+: pr.index ∨ pr.index <+: pr'.index) := by
    obtain ⟨x, rest, rfl⟩ := List.exists_cons_of_ne_nil hne
    cases hg with
    | cons h1 _ =>
      cases hg' with
      | cons h2 _ =>
        obtain ⟨th, e1, hth, he1, -, -, hr1⟩ := h1.bounds
        obtain ⟨th2, e2, hth2, he2, -, -, hr2⟩ := h2.bounds
        have e3 : th = th2 := singleHeader_eq hth.1 hth2.1
        subst e3
        have r1 := hr1 s1 (Grown.refl _)
        have r2 := hr2 s1' (Grown.refl _)
        have k1 : (cutAt m x).alignment = .vertical := hal x (by simp)
        have k2 : (cutAt m x).timeAlignment = 0 := hta x (by simp)
        have k3 : (cutAt n x).alignment = .vertical := hal x (by simp)
        have k4 : (cutAt n x).timeAlignment = 0 := hta x (by simp)
        rw [k1, k2] at r1
        rw [k3, k4] at r2
        have := hstart x (by simp)
        exact seriesRanges_comparable (hf x (by simp)) (fun c => (hag _ c (by
          show x.dataStarts ≤ n
          omega)).symm) r2 r1
  refine ⟨⟨hranges.1, ?_, ?_, ?_⟩, ?_⟩
  · show addNames [] (cols.map Prod.fst) = addNames [] (cols'.map Prod.fst)
    rw [forall₂_map_fst (R := fun c c' => c'.1 = c.1 ∧ c.2 <+: c'.2) (fun _ _ h => h.1) hcols]
  · show pr'.index <+: pr.index
    rcases hranges.2 with h1 | h1
    · exact h1
    · obtain ⟨c0, crest, rfl⟩ := List.exists_cons_of_ne_nil (forall₂_nonempty hg' hne)
      cases hcols with
      | cons hc _ =>
        have a1 := hlen' _ List.mem_cons_self
        have a2 := hlen _ List.mem_cons_self
        have a3 := hc.2.length_le
        have := h1.eq_of_length_le (by omega)
        rw [this]
  · show List.Forall₂ _ (cols'.map Prod.snd) (cols.map Prod.snd)
    rw [List.forall₂_map_left_iff, List.forall₂_map_right_iff]
    exact hcols.imp fun _ _ h => h.2
  · intro y hy hev
    obtain ⟨c, hc, hgc⟩ := forall₂_left hg' y hy
    rw [← hlen' c hc]
    have hlt := hstart y hy
    obtain ⟨hv, hr, hc', hdc⟩ := getSeries_dataCells (hal y hy) (by omega) hgc.series
    obtain ⟨xs, e1, e2⟩ := (C52_every_row hdc (hf y hy) hev.continuous hev.noMissings hev.noBlankRows
      (by dsimp only; omega) [c.2]).1 hv
    have e3 := congrArg List.length e2
    rw [List.length_map, List.length_map, cellsAlong_length] at e3
    rw [List.singleton_inj.1 e1, ← e3]
    dsimp only
    omega

theorem endingAt_cutAt {n : Int} (hn : 0 < n) (stop : Int) (y : SParams) : endingAt stop (cutAt n y) = cutAt n y :=
  endingAt_of_hasEnd (cutAt_hasEnd hn y) stop

theorem sameDates_cuts {n : Int} {x : SParams} {sps : List SParams} (hx : ∀ y ∈ sps, SameDates x y) :
    ∀ y ∈ sps.map (cutAt n), SameDates (cutAt n x) y := by
  intro y hy
  obtain ⟨z, hz, rfl⟩ := List.mem_map.1 hy
  exact cutAt_same (hx z hz)

/-- C121. A table is read once as far as it goes and once with `data_ends` set to a row `n` of it. If both calls give a
data frame, the second one is the beginning of the first: same frequency and columns, and its dates and values are the
first ones of it. If every row is read, it has exactly one date for each row up to `n`. Here `e` is the row where the
series were found to end, which the first call notes in the parameters. Conditions: the series have one frequency and
their dates in common and go down beside them; the cells with their names are not below row `n`; neither data frame is one
of working days. -/
theorem C121_beginning (ext : Ext) {p q : Params} {s : Sheet} {sps : List SParams} {e n : Int} {fs fs' : List Frame}
    (hp : HasSeries p sps) (hq : HasSeries q (sps.map (cutAt n))) (hne : sps ≠ [])
    (hs : ∀ x ∈ sps, ∀ y ∈ sps, SameDates x y) (hf : ∀ x ∈ sps, x.frequency.length = 1) (ho : ∀ x ∈ sps, OpenDown x)
    (he : HasSeries (scrape ext p s).2.1 (sps.map (endingAt e))) (hn0 : 0 < n) (hne' : n ≤ e)
    (hn : ∀ x ∈ sps, NamedAbove n x) (h : (scrape ext p s).1 = .ok fs) (h' : (scrape ext q s).1 = .ok fs')
    (hB : ∀ f ∈ fs ++ fs', f.freq ≠ c!"B") :
    ∃ f f', fs = [f] ∧ fs' = [f'] ∧ GoesOn f' f ∧
      ∀ x ∈ sps, EveryRow x → (f'.index.length : Int) = n - x.dataStarts + 1 := by
  obtain ⟨x, hxm⟩ := List.exists_mem_of_ne_nil _ hne
  have hx := hs x hxm
  have ending : ∀ y ∈ sps, ∀ m, endingAt m y = cutAt m y := by
    intro y hy m
    unfold endingAt cutAt
    rw [(ho y hy).open_end]
  obtain ⟨stop, s1, pr, k, cols, hd, hg, rfl, hlen⟩ := frame_of_call hp hne hx (hf x hxm) h
    fun f hf => hB f (List.mem_append_left _ hf)
  obtain ⟨stop', s1', pr', k', cols', hd', hg', rfl, hlen'⟩ := frame_of_call hq (by simpa using hne) (sameDates_cuts hx)
    (hf x hxm) h' fun f hf => hB f (List.mem_append_right _ hf)
  rw [List.forall₂_map_left_iff] at hg'
  -- the end is the one noted
  have hstop : stop = e := by
    obtain ⟨p1, hcd, hp1⟩ := (cleanData_same (ext := ext) (s := s) hp hne hx).2.2.2 stop s1 hd.clean hd.positive hd.header
    have h2 : (scrape ext p s).2.1 = p1 := by
      unfold scrape
      rw [hcd]
    rw [h2] at he
    have h3 := (hp1 .dataEnds).symm.trans (he .dataEnds)
    obtain ⟨x0, rest, rfl⟩ := List.exists_cons_of_ne_nil hne
    injection h3 with h3
    rw [List.map_cons, List.map_cons, List.map_cons, List.map_cons, ending x0 (by simp), ending x0 (by simp)] at h3
    injection h3 with h3 _
    unfold rawValue cutAt at h3
    dsimp only at h3
    injection h3
  subst hstop
  have hag := cleaned_cut (ho x hxm).down (ho x hxm).beside hn0 hne' hd.clean hd'.clean
  have key := beginning_core hne hf (fun y hy => (ho y hy).down) (fun y hy => (ho y hy).beside) hne' hn hag
    (forall₂_common_left (fun y hy c h => by rw [← ending y hy]; exact h) hg)
    (hg'.imp fun y c h => by rw [← endingAt_cutAt hn0 stop' y]; exact h) hlen hlen'
  exact ⟨_, _, rfl, rfl, key.1, key.2⟩

/-- C121, for two ends that are given: the data frame up to the earlier row is the beginning of the one up to the
later row. -/
theorem C121_ends (ext : Ext) {p q : Params} {s : Sheet} {sps : List SParams} {m n : Int} {fs fs' : List Frame}
    (hp : HasSeries p (sps.map (cutAt m))) (hq : HasSeries q (sps.map (cutAt n))) (hne : sps ≠ [])
    (hs : ∀ x ∈ sps, ∀ y ∈ sps, SameDates x y) (hf : ∀ x ∈ sps, x.frequency.length = 1)
    (hdown : ∀ x ∈ sps, x.alignment = .vertical ∧ x.timeAlignment = 0) (hn0 : 0 < n) (hle : n ≤ m)
    (hn : ∀ x ∈ sps, NamedAbove n x) (h : (scrape ext p s).1 = .ok fs) (h' : (scrape ext q s).1 = .ok fs')
    (hB : ∀ f ∈ fs ++ fs', f.freq ≠ c!"B") :
    ∃ f f', fs = [f] ∧ fs' = [f'] ∧ GoesOn f' f ∧
      ∀ x ∈ sps, EveryRow x → (f'.index.length : Int) = n - x.dataStarts + 1 := by
  obtain ⟨x, hxm⟩ := List.exists_mem_of_ne_nil _ hne
  have hx := hs x hxm
  obtain ⟨stop, s1, pr, k, cols, hd, hg, rfl, hlen⟩ := frame_of_call hp (by simpa using hne) (sameDates_cuts hx)
    (hf x hxm) h fun f hf => hB f (List.mem_append_left _ hf)
  obtain ⟨stop', s1', pr', k', cols', hd', hg', rfl, hlen'⟩ := frame_of_call hq (by simpa using hne) (sameDates_cuts hx)
    (hf x hxm) h' fun f hf => hB f (List.mem_append_right _ hf)
  rw [List.forall₂_map_left_iff] at hg hg'
  have hag := cleaned_cuts (hdown x hxm).1 (hdown x hxm).2 hn0 hle hd.clean hd'.clean
  have key := beginning_core hne hf (fun y hy => (hdown y hy).1) (fun y hy => (hdown y hy).2) hle hn hag
    (hg.imp fun y c h => by rw [← endingAt_cutAt (by omega : 0 < m) stop y]; exact h)
    (hg'.imp fun y c h => by rw [← endingAt_cutAt hn0 stop' y]; exact h) hlen hlen'
  exact ⟨_, _, rfl, rfl, key.1, key.2⟩

/-- A call with complete parameters reads the worksheet once. -/
theorem call_reads {ext : Ext} {wb : List Nat} {w w1 : World} {given : Given} {name title : Str} {safe preserve : Bool}
    {r kept : Nat} {d : Dfs} {p : Params} {sps : List SParams} (hp : HasSeries p sps) (hne : sps ≠ [])
    (hreq : Requested ext wb w name r) (hwb : ∀ q ∈ wb, q < w.nextSheet ∧ WellFormed (w.sheets q))
    (hgiven : GivenWith given w p)
    (h : getDataFrames ext wb given name safe preserve w = (.ok (.dfs d, title, kept), w1)) :
    ∃ fs s', scrape ext p (w.sheets r) = (.ok fs, w1.params kept, s') ∧ d = unwrap fs := by
  obtain ⟨ws, pr, w2, e1, e2, e3, e4⟩ := call_state (safe := safe) (preserve := preserve) hreq hwb hgiven
  rw [e4] at h
  rcases hs : scraperFrames ext ws pr safe w2 with ⟨_ | ⟨a, q0⟩, w3⟩
  · rw [hs] at h
    cases h
  · rw [hs] at h
    cases h
    obtain ⟨q, fs, k1, ⟨s', k2⟩, k3⟩ := scraperFrames_remembers e2 (by rw [e1]; exact (hwb r hreq.1).2) hs
    rw [e3] at k1
    rw [e1, tried_complete (complete_series hp hne) k1] at k2
    exact ⟨fs, s', k2, k3⟩

/-- Series with dates in common and one frequency give one data frame. -/
theorem one_frame {ext : Ext} {p : Params} {s : Sheet} {sps : List SParams} {gs : List Frame} (hp : HasSeries p sps)
    (hne : sps ≠ []) (hs : ∀ x ∈ sps, ∀ y ∈ sps, SameDates x y) (hf : ∀ x ∈ sps, x.frequency.length = 1)
    (h : (scrape ext p s).1 = .ok gs) : ∃ g, gs = [g] := by
  obtain ⟨x, rest, rfl⟩ := List.exists_cons_of_ne_nil hne
  have hx : ∀ y ∈ x :: rest, SameDates x y := hs x (by simp)
  obtain ⟨stop, s1, pr, k, cols, hd, hgv⟩ := scrape_inv hp hne hx (hf x (by simp)) h
  rw [scrape_dated hp hne hx hd hgv] at h
  split at h
  · cases h
    exact ⟨_, rfl⟩
  · cases h

/-- C121, for calls: the same of two calls in any mode, without and with `data_ends`, that ask for the same worksheet or for
worksheets that are equal. The end `e` is the one in the parameters that the first call gives back. -/
theorem C121_call (ext : Ext) (wb wb' : List Nat) (w w' w1 w1' : World) (given given' : Given)
    (name name' title title' : Str) (safe safe' preserve preserve' : Bool) (r r' kept kept' : Nat) {p q : Params}
    {sps : List SParams} {e n : Int} {d d' : Dfs} (hreq : Requested ext wb w name r)
    (hreq' : Requested ext wb' w' name' r') (hwb : ∀ q ∈ wb, q < w.nextSheet ∧ WellFormed (w.sheets q))
    (hwb' : ∀ q ∈ wb', q < w'.nextSheet ∧ WellFormed (w'.sheets q)) (hsheet : w'.sheets r' = w.sheets r)
    (hgiven : GivenWith given w p) (hgiven' : GivenWith given' w' q) (hp : HasSeries p sps)
    (hq : HasSeries q (sps.map (cutAt n))) (hne : sps ≠ []) (hs : ∀ x ∈ sps, ∀ y ∈ sps, SameDates x y)
    (hf : ∀ x ∈ sps, x.frequency.length = 1) (ho : ∀ x ∈ sps, OpenDown x) (hn0 : 0 < n) (hle : n ≤ e)
    (hn : ∀ x ∈ sps, NamedAbove n x)
    (h : getDataFrames ext wb given name safe preserve w = (.ok (.dfs d, title, kept), w1))
    (he : HasSeries (w1.params kept) (sps.map (endingAt e)))
    (h' : getDataFrames ext wb' given' name' safe' preserve' w' = (.ok (.dfs d', title', kept'), w1'))
    (hB : ∀ f, d = .one f ∨ d' = .one f → f.freq ≠ c!"B") :
    ∃ f f', d = .one f ∧ d' = .one f' ∧ GoesOn f' f ∧
      ∀ x ∈ sps, EveryRow x → (f'.index.length : Int) = n - x.dataStarts + 1 := by
  obtain ⟨fs, s1, k1, rfl⟩ := call_reads hp hne hreq hwb hgiven h
  obtain ⟨fs', s1', k1', rfl⟩ := call_reads hq (by simpa using hne) hreq' hwb' hgiven' h'
  rw [hsheet] at k1'
  obtain ⟨g, rfl⟩ := one_frame hp hne hs hf (by rw [k1])
  obtain ⟨g', rfl⟩ := one_frame hq (by simpa using hne) (by
    intro x hx y hy
    obtain ⟨x, hx1, rfl⟩ := List.mem_map.1 hx
    obtain ⟨y, hy1, rfl⟩ := List.mem_map.1 hy
    exact cutAt_same (hs x hx1 y hy1)) (by
    intro x hx
    obtain ⟨x, hx1, rfl⟩ := List.mem_map.1 hx
    exact hf x hx1) (by rw [k1'])
  obtain ⟨f, f', e1, e2, e3⟩ := C121_beginning ext hp hq hne hs hf ho (by rw [k1]; exact he) hn0 hle hn
    (by rw [k1]) (by rw [k1']) (by
      intro f hf
      rcases List.mem_append.1 hf with hm | hm
      · cases List.mem_singleton.1 hm
        exact hB _ (.inl rfl)
      · cases List.mem_singleton.1 hm
        exact hB _ (.inr rfl))
  cases e1
  cases e2
  exact ⟨_, _, rfl, rfl, e3⟩

/-! ### Examples -/

/-- Five quarters, written as texts, of which three are asked for. -/
example : ∃ f f', [Sample.quarterFrame] = [f] ∧ [Sample.quarterFirst] = [f'] ∧ GoesOn f' f ∧
    ∀ x ∈ Sample.quarterPair, EveryRow x → (f'.index.length : Int) = 4 - x.dataStarts + 1 :=
  C121_beginning Sample.ext0 (p := Sample.paramsOf Sample.quarterPair)
    (q := Sample.paramsOf (Sample.quarterPair.map (cutAt 4))) (s := Sample.quarterMore) (sps := Sample.quarterPair) (e := 6)
    (n := 4) (fun _ => rfl) (fun _ => rfl) (by decide) Sample.quarter_same (by decide) Sample.quarter_open
    (fun n => by cases n <;> rfl) (by decide) (by decide) Sample.quarter_named (by decide +kernel) (by decide +kernel)
    (by decide)

/-- Of the same quarters the first three and the first four. -/
example : ∃ f f', [{ Sample.quarterFrame with
      index := Sample.quarterFrame.index.take 4, data := Sample.quarterFrame.data.map fun c => c.take 4 }] = [f] ∧
    [Sample.quarterFirst] = [f'] ∧ GoesOn f' f ∧
    ∀ x ∈ Sample.quarterPair, EveryRow x → (f'.index.length : Int) = 4 - x.dataStarts + 1 :=
  C121_ends Sample.ext0 (p := Sample.paramsOf (Sample.quarterPair.map (cutAt 5)))
    (q := Sample.paramsOf (Sample.quarterPair.map (cutAt 4))) (s := Sample.quarterMore) (sps := Sample.quarterPair) (m := 5)
    (n := 4) (fun _ => rfl) (fun _ => rfl) (by decide) Sample.quarter_same (by decide)
    (fun x hx => ⟨(Sample.quarter_open x hx).down, (Sample.quarter_open x hx).beside⟩) (by decide) (by decide)
    Sample.quarter_named (by decide +kernel) (by decide +kernel) (by decide)

set_option maxRecDepth 4000 in
/-- The same for calls, one of them in safe mode on a copy of the workbook. -/
example : ∃ f f', Dfs.one Sample.quarterFrame = .one f ∧ Dfs.one Sample.quarterFirst = .one f' ∧ GoesOn f' f ∧
    ∀ x ∈ Sample.quarterPair, EveryRow x → (f'.index.length : Int) = 4 - x.dataStarts + 1 :=
  C121_call Sample.ext0 [0] [0] (Sample.world Sample.quarterMore (Sample.paramsOf Sample.quarterPair))
    (Sample.world Sample.quarterMore (Sample.paramsOf (Sample.quarterPair.map (cutAt 4)))) _ _ (.object 0) (.object 0)
    [] [] c!"S" c!"S" true false true false 0 0 0 0 (p := Sample.paramsOf Sample.quarterPair)
    (q := Sample.paramsOf (Sample.quarterPair.map (cutAt 4))) (sps := Sample.quarterPair) (e := 6) (n := 4)
    ⟨by simp, by simp, .inl ⟨rfl, rfl⟩⟩ ⟨by simp, by simp, .inl ⟨rfl, rfl⟩⟩
    (by
      intro q hq
      cases List.mem_singleton.1 hq
      exact ⟨Nat.zero_lt_one, Sample.rows_wellFormed (by decide) (by decide) (by decide)⟩)
    (by
      intro q hq
      cases List.mem_singleton.1 hq
      exact ⟨Nat.zero_lt_one, Sample.rows_wellFormed (by decide) (by decide) (by decide)⟩)
    rfl (.inl ⟨0, rfl, rfl⟩) (.inl ⟨0, rfl, rfl⟩) (fun _ => rfl) (fun _ => rfl) (by decide) Sample.quarter_same (by decide)
    Sample.quarter_open (by decide) (by decide) Sample.quarter_named (Prod.ext (by decide +kernel) rfl)
    (fun n => by cases n <;> rfl) (Prod.ext (by decide +kernel) rfl) (by rintro f (h | h) <;> cases h <;> decide)

end Xls
