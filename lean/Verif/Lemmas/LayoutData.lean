/-
The values, names and index of the tables of Spec/Layout.lean after cleaning.
-/
import Verif.Lemmas.Layout
import Verif.Props.Extraction
import Verif.Props.Periods

set_option autoImplicit false

namespace Xls

open Spec

theorem placed_unique {grid ts : List Time} {xs ys zs : List Num} (hn : grid.Nodup)
    (hl : ts.length = xs.length) (h1 : Placed grid ts xs ys) (h2 : Placed grid ts xs zs) : ys = zs := by
  refine List.ext_getElem (by rw [h1.size, h2.size]) fun i hi hi' => ?_
  have hg : i < grid.length := by rw [← h1.size]; exact hi
  have hgi := List.getElem?_eq_getElem hg
  by_cases hm : grid[i] ∈ ts
  · obtain ⟨j, hj, hje⟩ := List.mem_iff_getElem.1 hm
    have hz : (grid[i], xs[j]'(by omega)) ∈ ts.zip xs := by
      rw [← hje, ← List.getElem_zip (h := by rw [List.length_zip]; omega)]
      exact List.getElem_mem _
    have key : ∀ ws : List Num, Placed grid ts xs ws → ws[i]? = some (xs[j]'(by omega)) := by
      intro ws hw
      obtain ⟨k, hk1, hk2⟩ := hw.observed _ _ hz
      obtain ⟨hk, hke⟩ := List.getElem?_eq_some_iff.1 hk1
      have : k = i := (List.Nodup.getElem_inj_iff hn).1 hke
      rw [← this]; exact hk2
    have e1 := key ys h1
    have e2 := key zs h2
    rw [List.getElem?_eq_getElem hi] at e1
    rw [List.getElem?_eq_getElem hi'] at e2
    exact Option.some.inj (e1.trans e2.symm)
  · have e1 := h1.others i _ hgi hm
    have e2 := h2.others i _ hgi hm
    rw [List.getElem?_eq_getElem hi] at e1
    rw [List.getElem?_eq_getElem hi'] at e2
    exact Option.some.inj (e1.trans e2.symm)

/-- A cell that is not on the time line is as it was. -/
theorem Spec.DatesWritten.apart {s s1 : Sheet} {al : Align} {tr tc start : Int} {ots : List (Option Time)}
    (h : DatesWritten s s1 al tr tc start ots) {r c : Int}
    (ha : if al = .vertical then c ≠ tc else r ≠ tr) : s1.cells r c = s.cells r c := by
  refine h.others r c fun i t _ hat => ?_
  unfold IsAt rowOf colOf at hat
  by_cases hv : al = .vertical
  · rw [if_pos hv] at ha
    rw [if_pos hv] at hat
    exact ha (by simpa [hv] using hat.2)
  · rw [if_neg hv] at ha
    rw [if_neg hv] at hat
    exact ha (by simpa [hv] using hat.1)

theorem Spec.DatesWritten.data {s s1 : Sheet} {al : Align} {tr tc start : Int} {ots : List (Option Time)}
    (h : DatesWritten s s1 al tr tc start ots) {hr hc lo hi : Int}
    (ha : if al = .vertical then hc ≠ tc else hr ≠ tr) :
    cellsAlong s1 al hr hc lo hi = cellsAlong s al hr hc lo hi := by
  unfold cellsAlong
  refine List.map_congr_left fun i _ => ?_
  unfold timeCell
  refine h.apart ?_
  unfold rowOf colOf
  by_cases hv : al = .vertical
  · rw [if_pos hv] at ha ⊢
    simpa [hv] using ha
  · rw [if_neg hv] at ha ⊢
    simpa [hv] using ha

/-- The cells of the time index after cleaning. -/
theorem dates_after {ext : Ext} {sp : SParams} {s s1 : Sheet} {style : Style} {tr tc last : Int}
    {ots : List (Option Time)} (h : TimeTable ext sp s style tr tc last ots)
    (hw : DatesWritten s s1 sp.alignment tr tc sp.dataStarts ots) :
    List.Forall₂ (fun (c : Cell) (o : Option Time) => ∀ t, c = .dt t ↔ o = some t)
      (cellsAlong s1 sp.alignment tr tc sp.dataStarts last) ots := by
  refine forall₂_of_get (by rw [h.reads.length, readsAlong_length, cellsAlong_length]) ?_
  intro i c o hc ho
  have hcell := cellsAlong_get hc
  cases o with
  | some t =>
    rw [hw.dates i t ho] at hcell
    intro u
    rw [← hcell]
    exact ⟨fun e => by cases e; rfl, fun e => by cases e; rfl⟩
  | none =>
    obtain ⟨c0, hc0, hb⟩ := h.reads.blank_at ho
    have hsame : timeCell s1 sp.alignment tr tc (sp.dataStarts + i) =
        timeCell s sp.alignment tr tc (sp.dataStarts + i) := by
      unfold timeCell
      refine hw.others _ _ ?_
      intro j t hj hat
      have := isAt_inj (al := sp.alignment) (hr := tr) (hc := tc) (a := sp.dataStarts + i) ⟨rfl, rfl⟩ hat
      have : i = j := by omega
      subst this
      rw [ho] at hj
      cases hj
    rw [hsame] at hcell
    rw [← readsAlong_get hc0] at hb
    have hi := (List.getElem?_eq_some_iff.1 hc).1
    rw [cellsAlong_length] at hi
    intro u
    refine ⟨fun e => ?_, fun e => by cases e⟩
    rw [e] at hcell
    exact absurd hcell (not_dt_of_blank h.header (h.plain _ (by omega) (by omega)) hb u)

theorem zip_dated {g : Cell → Option Num} : ∀ {tcs : List Cell} {ots : List (Option Time)} (cs : List Cell),
    List.Forall₂ (fun (c : Cell) (o : Option Time) => ∀ t, c = .dt t ↔ o = some t) tcs ots →
    ((cs.zip tcs).filterMap fun p => if IsDate p.2 then g p.1 else none) =
      (cs.zip ots).filterMap fun p => if p.2.isSome then g p.1 else none
  | _, _, [], _ => by simp
  | _, _, _ :: _, .nil => by simp
  | tc :: tcs, o :: ots, c :: cs, .cons h1 h2 => by
    rw [List.zip_cons_cons, List.zip_cons_cons, List.filterMap_cons, List.filterMap_cons, zip_dated cs h2]
    have : (IsDate tc) ↔ o.isSome = true := by
      cases o with
      | none =>
        refine ⟨fun h => ?_, fun h => by cases h⟩
        cases tc with
        | dt t => exact absurd ((h1 t).1 rfl) (by simp)
        | _ => exact h.elim
      | some t =>
        rw [(h1 t).2 rfl]
        exact ⟨fun _ => rfl, fun _ => trivial⟩
    simp only [this]

theorem dates_all {tcs : List Cell} {ots : List (Option Time)} (hn : none ∉ ots)
    (h : List.Forall₂ (fun (c : Cell) (o : Option Time) => ∀ t, c = .dt t ↔ o = some t) tcs ots) :
    tcs = (ots.filterMap id).map .dt := by
  induction h with
  | nil => rfl
  | @cons c o cs os h1 h2 ih =>
    cases o with
    | none => exact absurd (List.mem_cons_self) hn
    | some t =>
      rw [(h1 t).2 rfl, ih fun hx => hn (List.mem_cons_of_mem _ hx)]
      rfl

/-- The name of a series after cleaning. -/
theorem name_table {ext : Ext} {sp : SParams} {s s1 : Sheet} {al : Align} {tr tc start : Int}
    {ots : List (Option Time)} {name : Str} (hw : DatesWritten s s1 al tr tc start ots)
    (hal : sp.alignment = al)
    (hapart : ∀ coord ∈ sp.headerCoord :: sp.composedHeaders.getD [], ∀ r c, coordOf coord = .ok (r, c) →
      if sp.alignment = .vertical then c ≠ tc else r ≠ tr)
    (hname : NameIs ext sp s name) (ends : Option Int) :
    getName ext { sp with dataEnds := ends } s1 = .ok name := by
  have hap : ∀ coord ∈ sp.headerCoord :: sp.composedHeaders.getD [], ∀ r c, coordOf coord = .ok (r, c) →
      s1.cells r c = s.cells r c := by
    intro coord hm r c hrc
    have := hapart coord hm r c hrc
    rw [hal] at this
    exact hw.apart this
  cases hname with
  | given h1 h2 => exact C58_given_name ext _ s1 h1 h2
  | @composed r c texts h1 h2 h3 =>
    have h3' : List.Forall₂ (TextAt s1) (sp.composedHeaders.getD []) texts := by
      have hsub : ∀ x ∈ sp.composedHeaders.getD [], x ∈ sp.headerCoord :: sp.composedHeaders.getD [] :=
        fun x hx => List.mem_cons_of_mem _ hx
      have key : ∀ {cs : List Str} {ts : List Str},
          List.Forall₂ (fun coord t => ∃ r c, coordOf coord = .ok (r, c) ∧ s.cells r c = .str t) cs ts →
          (∀ x ∈ cs, x ∈ sp.headerCoord :: sp.composedHeaders.getD []) →
          List.Forall₂ (TextAt s1) cs ts := by
        intro cs ts hf
        induction hf with
        | nil => intro _; exact .nil
        | @cons a b as bs q1 q2 ih =>
          intro hm
          refine .cons ?_ (ih fun x hx => hm x (List.mem_cons_of_mem _ hx))
          obtain ⟨r, c, q3, q4⟩ := q1
          exact ⟨r, c, q3, by rw [hap a (hm a (by simp)) r c q3]; exact q4⟩
      exact key h3 hsub
    have := C58_composed_name (ext := ext) (sp := { sp with dataEnds := ends }) (s := s1) h1 h2 h3'
    rw [hap sp.headerCoord (by simp) r c h2] at this
    exact this

/-- The values of a series after cleaning. -/
theorem values_table {ext : Ext} {sp0 sp : SParams} {s s1 : Sheet} {style : Style} {tr tc last : Int}
    {ots : List (Option Time)} {grid : List Time} {name : Str} {xs : List Num}
    (h : TimeTable ext sp0 s style tr tc last ots) (hg : OnPeriods sp0 grid (ots.filterMap id))
    (hw : DatesWritten s s1 sp0.alignment tr tc sp0.dataStarts ots)
    (hH : TimeHeaderAt sp tr tc) (hfr : sp.frequency = sp0.frequency)
    (hst : sp.dataStarts = sp0.dataStarts) (hta : sp.timeAlignment = 0)
    (hal : sp.alignment = sp0.alignment) (hs : SeriesOn ext s tr tc last ots grid sp name xs)
    (hxne : xs ≠ []) :
    getSeries ext (endingAt last sp) s1 = .ok [(name, xs)] := by
  obtain ⟨n2, hlen, hne, sh, hsh⟩ := notY_of_periods hg
  have htwo := h.two
  have hstarts := h.starts
  have he := endingAt_same last sp
  have hends : (endingAt last sp).dataEnds = some last := by
    rw [endingAt_ends]
    rcases hs.ends with e | e | e <;> rw [e] <;> dsimp only
    · rw [if_pos rfl]
    · split <;> rfl
  rw [hends] at he
  rw [he]
  obtain ⟨hr, hc, hcoord, hvals⟩ := hs.cells
  have hapart := hs.apart sp.headerCoord (by simp) hr hc hcoord
  rw [hal] at hapart
  have hdata : cellsAlong s1 sp.alignment hr hc sp.dataStarts last =
      cellsAlong s sp.alignment hr hc sp.dataStarts last := by
    rw [hal]; exact hw.data hapart
  have hD : DataCells { sp with dataEnds := some last } hr hc last :=
    ⟨hcoord, by dsimp only; rw [hal]; exact h.aligned, by dsimp only; rw [hst]; exact h.starts, rfl⟩
  have hF : ({ sp with dataEnds := some last } : SParams).frequency.length = 1 := by
    dsimp only; rw [hfr]; exact hlen
  have hle : ({ sp with dataEnds := some last } : SParams).dataStarts ≤ last := by
    dsimp only; omega
  have hHA : HeaderAt { sp with dataEnds := some last } tr tc := by
    exact hH.first
  have htimes := dates_after h hw
  rw [← hal, ← hst] at htimes
  have hV : getValues ext { sp with dataEnds := some last } s1 = .ok [xs] := by
    cases hvals with
    | every h1 h2 h3 h4 =>
      exact (C52_every_row hD hF h1 h3 h2 hle _).2 ⟨xs, rfl, by dsimp only; rw [hdata]; exact h4⟩
    | blankRows h1 h2 h3 h4 =>
      exact (C52_blank_rows hD hF h1 h3 h2 _).2 ⟨xs, by rw [if_neg hxne], by dsimp only; rw [hdata]; exact h4⟩
    | marked h1 h2 h3 h4 h5 h6 =>
      exact (C53_markers hD hF h1 h3 h4 h5 h2 hle _).2 ⟨xs, rfl, by dsimp only; rw [hdata]; exact h6⟩
    | @implicit xs0 _ markers h1 h2 h3 h4 h5 h6 hnS h7 h8 =>
      rw [hfr] at hnS
      have n1 := hnS
      have hon : OnGrid sp.frequency grid (ots.filterMap id) :=
        ⟨hg.valid, by rw [hfr]; exact consecutive_of_run n1 n2 hg.run, hg.sub, hg.first, hg.last⟩
      obtain ⟨ys, e1, e2⟩ := C55_values_on_their_dates (ext := ext) (s := s1) hD hF h1 h2 h3 h4 h5 hHA hle
        (by dsimp only; rw [hdata]; exact h7) (dates_all h6 htimes) hon (by
          intro z hz
          have hzm : z ∈ grid := List.mem_of_getLast? hz
          obtain ⟨z', hz'⟩ := increment_exists (hg.frequency.imp id And.left) (hg.valid z hzm) (hg.representable z hzm)
            (n := 1) (by omega) (by omega)
          obtain ⟨sh', q1, q2, q3⟩ := incrementTime_ok (hg.valid z hzm) hz'
          exact ⟨z', q2, sh', by dsimp only; rw [hfr]; exact q1, q3⟩)
      have hnd : grid.Nodup := by
        have := run_sorted hg.valid hg.run
        refine List.Pairwise.imp (fun {a b} (hlt : a < b) (e : a = b) => ?_) this
        exact Time.lt_irrefl b (e ▸ hlt)
      have hl : (ots.filterMap id).length = xs0.length := by
        have l1 := congrArg List.length (dates_all h6 htimes)
        have l2 := congrArg List.length h7
        rw [cellsAlong_length, List.length_map] at l1
        rw [List.length_map, List.length_map, cellsAlong_length] at l2
        omega
      rw [placed_unique hnd hl h8 e2]
      exact e1
    | @dated _ markers h1 h2 h3 h4 =>
      have hk : HeaderKind { sp with dataEnds := some last } := by
        exact hH.kind
      have := C54_dated_rows (ext := ext) (s := s1) hD hF h1 hk hHA h2 h3
        (by dsimp only; rw [hta, hst]; omega)
      dsimp only at this
      rw [show sp.dataStarts + sp.timeAlignment = sp.dataStarts by omega,
        show last + sp.timeAlignment = last by omega, hdata, zip_dated _ htimes, ← h4, if_neg hxne] at this
      exact this
  have hN := name_table hw hal hs.apart hs.name (some last)
  unfold getSeries
  rw [hN]
  dsimp only
  rw [hV]
  rfl

theorem forall₂_single {α : Type} {l m : List α} (h : List.Forall₂ (fun (a b : α) => [a][0]? = some b) l m) :
    l = m := by
  induction h with
  | nil => rfl
  | cons q1 q2 ih =>
    rw [ih]
    cases q1
    rfl

theorem table_columns (nvs : List (Str × List Num)) :
    ColumnsOf (nvs.map Prod.fst) (addNames [] (nvs.map Prod.fst)) := by
  simpa using addNames_columnsOf .nil (nvs.map Prod.fst)

theorem mkFrame_table (freq : Str) (index : List Time) {nvs : List (Str × List Num)} (hne : nvs ≠ [])
    (hsz : ∀ nv ∈ nvs, nv.2.length = index.length) :
    mkFrame freq index (addNames [] (nvs.map Prod.fst)) (nvs.map Prod.snd) =
      .ok ⟨freq, index, addNames [] (nvs.map Prod.fst), nvs.map Prod.snd⟩ := by
  have hnames := addNames_length (nvs.map Prod.fst) []
  have hcpos : 0 < nvs.length := List.length_pos_iff.2 hne
  unfold mkFrame
  rw [if_pos ⟨by intro h0; rw [h0] at hnames; simp at hnames; omega, by rw [hnames]; simp, by
    intro d hd
    obtain ⟨nv, hnv, rfl⟩ := List.mem_map.1 hd
    exact hsz nv hnv⟩]

theorem mkFrame_refused (freq : Str) (index : List Time) {nvs : List (Str × List Num)}
    (hsz : ¬ ∀ nv ∈ nvs, nv.2.length = index.length) :
    mkFrame freq index (addNames [] (nvs.map Prod.fst)) (nvs.map Prod.snd) = .error .valueError := by
  unfold mkFrame
  rw [if_neg fun h => hsz fun nv hnv => h.2.2 _ (List.mem_map_of_mem hnv)]

theorem foldl_single (b : Bucket) : ∀ nvs : List (Str × List Num),
    (nvs.map fun nv => [nv]).foldl (List.zipWith Bucket.with) [b] =
      [⟨b.key, b.range, addNames b.columns (nvs.map Prod.fst), b.data ++ nvs.map Prod.snd⟩]
  | [] => by simp [addNames]
  | nv :: nvs => by
    rw [List.map_cons, List.foldl_cons]
    show (nvs.map fun nv => [nv]).foldl _ [Bucket.with b nv] = _
    rw [foldl_single (Bucket.with b nv) nvs]
    simp [Bucket.with, addNames]

/-- The single entry a table gives rise to. -/
def tableBucket (freq : Str) (grid : List Time) (a z : Time) (nvs : List (Str × List Num)) : Bucket :=
  ⟨(indexFreq freq, a, z), ⟨indexFreq freq, grid⟩, addNames [] (nvs.map Prod.fst), nvs.map Prod.snd⟩

theorem singleHeader_at {sp : SParams} {tr tc : Int} (h : HeaderAt sp tr tc) :
    ∃ first, singleHeader true sp.timeHeader = .ok first ∧ coordOf first = .ok (tr, tc) := by
  unfold HeaderAt at h
  split at h
  next hh => exact ⟨_, by rw [hh]; rfl, h⟩
  · exact h.elim
  next hh => exact ⟨_, by rw [hh]; rfl, h⟩

theorem singleHeader_both {sp : SParams} {tr tc : Int} (h : TimeHeaderAt sp tr tc) {first : Str}
    (hf : singleHeader true sp.timeHeader = .ok first) :
    singleHeader true sp.timeHeader = .ok first ∧ singleHeader sp.timeMulticolumn sp.timeHeader = .ok first := by
  refine ⟨hf, ?_⟩
  cases hth : sp.timeHeader with
  | single c => rw [hth] at hf; exact hf
  | multi cs =>
    rw [h.kind.2 ⟨cs, hth⟩, ← hth]
    exact hf

/-- Cleaning and extraction of a table, up to the data frame. -/
theorem scrape_table_any {ext : Ext} {p : Params} {s : Sheet} {sps : List SParams} {sp0 : SParams} {th : TimeHeader}
    {start : Int} {al : Align} {freq : Str} {style : Style} {tr tc last : Int} {ots : List (Option Time)}
    {grid : List Time} {nvs : List (Str × List Num)} (hp : HasSeries p sps) (h0 : sps.head? = some sp0)
    (hsame : SameIndex sps th freq start 0 al) (ht : TimeTable ext sp0 s style tr tc last ots)
    (hg : OnPeriods sp0 grid (ots.filterMap id))
    (hser : List.Forall₂ (fun sp nv => SeriesOn ext s tr tc last ots grid sp nv.1 nv.2 ∧ nv.2 ≠ []) sps nvs) :
    ∃ a z p' s', grid.head? = some a ∧ grid.getLast? = some z ∧
      scrape ext p s = (framesOf ext [tableBucket freq grid a z nvs], p', s') ∧
      HasSeries p' (sps.map (endingAt last)) ∧ DatesWritten s s' al tr tc start ots := by
  have hm0 : sp0 ∈ sps := List.mem_of_head? h0
  obtain ⟨n2, hlen, hne, sh, hsh⟩ := notY_of_periods hg
  obtain ⟨s1, hc1, hw⟩ := clean_table ht hlen (progresses_of hg)
  have htwo := ht.two
  have hstarts := ht.starts
  have hHs : ∀ sp ∈ sps, TimeHeaderAt sp tr tc := by
    intro sp hm
    refine ht.header.congr ((hsame.header sp hm).trans (hsame.header sp0 hm0).symm) ?_
    rw [Bool.eq_iff_iff, hsame.multicolumn sp hm, hsame.multicolumn sp0 hm0]
  obtain ⟨first, hfirst, hthc⟩ := singleHeader_at ht.header.first
  rw [hsame.header sp0 hm0] at hfirst
  obtain ⟨a, ha⟩ := ht.first
  obtain ⟨z, hz⟩ := ht.ends
  have ha' : grid.head? = some a := by
    rw [← hg.first]
    cases ots with
    | nil => cases ha
    | cons o os => cases ha; rfl
  have hz' : grid.getLast? = some z := by
    rw [← hg.last]
    obtain ⟨l', rfl⟩ := List.getLast?_eq_some_iff.1 hz
    rw [List.filterMap_append]
    simp
  have hcells : ∀ s' : Sheet, s'.cells = s1.cells →
      timeCell s' sp0.alignment tr tc sp0.dataStarts = .dt a ∧
      timeCell s' sp0.alignment tr tc last = .dt z := by
    intro s' hs'
    have e : ∀ pos, timeCell s' sp0.alignment tr tc pos = timeCell s1 sp0.alignment tr tc pos := by
      intro pos; unfold timeCell; rw [hs']
    have hl : ots.length = (last + 1 - sp0.dataStarts).toNat := by
      rw [ht.reads.length, readsAlong_length]
    refine ⟨?_, ?_⟩
    · rw [e]
      have := hw.dates 0 a (by rw [← List.head?_eq_getElem?]; exact ha)
      simpa using this
    · rw [e]
      have := hw.dates (ots.length - 1) z (by rw [← List.getLast?_eq_getElem?]; exact hz)
      rw [show sp0.dataStarts + ((ots.length - 1 : Nat) : Int) = last by omega] at this
      exact this
  have hrange : ∀ s' : Sheet, s'.cells = s1.cells →
      seriesRanges ext s' freq start first last 0 al = .ok [⟨indexFreq freq, grid⟩] := by
    intro s' hs'
    obtain ⟨c1, c2⟩ := hcells s' hs'
    rw [← hsame.frequency sp0 hm0, ← hsame.starts sp0 hm0, ← hsame.alignment sp0 hm0]
    exact C60_index_of_periods ext ht.aligned hthc (by omega) (by omega) (by simpa using c1) (by simpa using c2)
      (hg.start a ha') ha' hz' hg.run hg.valid (hg.representable a (List.mem_of_head? ha'))
      (hg.representable z (List.mem_of_getLast? hz'))
  have hgives : List.Forall₂ (Gives ext s1 [⟨indexFreq freq, grid⟩]) (sps.map (endingAt last))
      (nvs.map fun nv => [nv]) := by
    rw [List.forall₂_map_left_iff, List.forall₂_map_right_iff]
    refine forall₂_of_get hser.length_eq ?_
    intro i sp nv hi hi'
    obtain ⟨hi1, rfl⟩ := List.getElem?_eq_some_iff.1 hi
    obtain ⟨hi2, rfl⟩ := List.getElem?_eq_some_iff.1 hi'
    have hs := hser.get hi1 hi2
    simp only [List.get_eq_getElem] at hs
    obtain ⟨hs, hxne⟩ := hs
    generalize hspd : sps[i] = sp at hs
    have hm : sp ∈ sps := hspd ▸ List.getElem_mem hi1
    have hV := values_table ht hg hw (hHs sp hm)
      ((hsame.frequency sp hm).trans (hsame.frequency sp0 hm0).symm)
      ((hsame.starts sp hm).trans (hsame.starts sp0 hm0).symm) (hsame.timeAlignment sp hm)
      ((hsame.alignment sp hm).trans (hsame.alignment sp0 hm0).symm) hs hxne
    have he := endingAt_same last sp
    have hends : (endingAt last sp).dataEnds = some last := by
      rw [endingAt_ends]
      rcases hs.ends with e | e | e <;> rw [e] <;> dsimp only
      · rw [if_pos rfl]
      · split <;> rfl
    refine ⟨⟨first, last, ?_, hends, by omega, ?_, ?_⟩, hV, rfl, by simp⟩
    · rw [he]
      exact singleHeader_both (hHs sp hm) (by rw [hsame.header sp hm]; exact hfirst)
    · rw [he]
      show sp.dataStarts < last
      rw [hsame.starts sp hm, ← hsame.starts sp0 hm0]
      exact ht.two
    · intro s' hgr
      rw [he]
      show seriesRanges ext s' sp.frequency sp.dataStarts first last sp.timeAlignment sp.alignment = _
      rw [hsame.frequency sp hm, hsame.starts sp hm, hsame.timeAlignment sp hm, hsame.alignment sp hm]
      exact hrange s' hgr.1
  have hkeys : Keys [⟨indexFreq freq, grid⟩] [(indexFreq freq, a, z)] := by
    refine ⟨.cons ?_ .nil, by simp⟩
    unfold rangeKey
    dsimp only
    rw [ha', hz']
  obtain ⟨p', s', e1, e3, e4⟩ := scrape_buckets (by rintro rfl; cases h0)
    (cleanData_index hp h0 hsame hc1 (by omega) fun x hx => by
      obtain ⟨i, hi, rfl⟩ := List.mem_iff_getElem.1 hx
      exact (hser.get hi (by rw [← hser.length_eq]; exact hi)).1.ends) hkeys hgives
  refine ⟨a, z, p', s', ha', hz', ?_, e4, ?_⟩
  · rw [e1, show emptyBuckets [⟨indexFreq freq, grid⟩] [(indexFreq freq, a, z)] =
      [⟨(indexFreq freq, a, z), ⟨indexFreq freq, grid⟩, [], []⟩] from rfl, foldl_single]
    unfold tableBucket
    simp
  · rw [← hsame.starts sp0 hm0, ← hsame.alignment sp0 hm0]
    refine ⟨?_, ?_⟩
    · intro i t hi
      have := hw.dates i t hi
      unfold timeCell at this ⊢
      rw [e3]; exact this
    · intro r c hoff
      rw [e3]; exact hw.others r c hoff

/-- Cleaning and extraction of a table. -/
theorem scrape_table {ext : Ext} {p : Params} {s : Sheet} {sps : List SParams} {sp0 : SParams} {th : TimeHeader}
    {start : Int} {al : Align} {freq : Str} {style : Style} {tr tc last : Int} {ots : List (Option Time)}
    {grid : List Time} {nvs : List (Str × List Num)} (hp : HasSeries p sps) (h0 : sps.head? = some sp0)
    (hsame : SameIndex sps th freq start 0 al) (ht : TimeTable ext sp0 s style tr tc last ots)
    (hg : OnPeriods sp0 grid (ots.filterMap id))
    (hser : List.Forall₂ (fun sp nv => SeriesIs ext s tr tc last ots grid sp nv.1 nv.2) sps nvs) :
    ∃ cols p' s', scrape ext p s = (.ok [⟨indexFreq freq, grid, cols, nvs.map Prod.snd⟩], p', s') ∧
      ColumnsOf (nvs.map Prod.fst) cols ∧ HasSeries p' (sps.map (endingAt last)) ∧
      DatesWritten s s' al tr tc start ots := by
  have hgne : grid ≠ [] := by
    intro he
    obtain ⟨a, ha⟩ := ht.first
    have : a ∈ ots.filterMap id := List.mem_filterMap.2 ⟨some a, List.mem_of_head? ha, rfl⟩
    have := hg.sub.subset this
    rw [he] at this
    cases this
  obtain ⟨a, z, p', s', _, _, e, e1, e2⟩ := scrape_table_any hp h0 hsame ht hg
    (hser.imp fun _ _ h => ⟨h.toSeriesOn, fun he => hgne (List.eq_nil_of_length_eq_zero (by
      rw [← h.size, he]; rfl))⟩)
  refine ⟨addNames [] (nvs.map Prod.fst), p', s', ?_, table_columns nvs, e1, e2⟩
  rw [e]
  have hne : nvs ≠ [] := forall₂_nonempty hser (by rintro rfl; cases h0)
  have hfr : frameOf ext (tableBucket freq grid a z nvs) =
      .ok ⟨indexFreq freq, grid, addNames [] (nvs.map Prod.fst), nvs.map Prod.snd⟩ := by
    unfold frameOf tableBucket
    dsimp only
    rw [mkFrame_table _ _ hne (by
      intro nv hnv
      obtain ⟨sp, _, hs⟩ := forall₂_right hser nv hnv
      exact hs.size)]
  rw [framesOf_of (.cons hfr .nil)]

end Xls
