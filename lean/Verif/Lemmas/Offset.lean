/-
Cleaning and extraction over the time indexes of Spec/Offset.lean.
-/
import Verif.Spec.Offset
import Verif.Lemmas.LayoutData
import Verif.Lemmas.MultiRange

set_option autoImplicit false

namespace Xls

open Spec

theorem mustBe_passed {sp : SParams} {c : Cell} (h : PassedOver sp c) : mustBeTimeValue sp c = false := by
  rcases h with h | ⟨h, x, rfl⟩
  · exact mustBe_blank sp h
  · simp [mustBeTimeValue, h, Cell.isFloat]

theorem passed_not_date {sp : SParams} {c : Cell} (h : PassedOver sp c) : dateIn c = none := by
  rcases h with h | ⟨_, x, rfl⟩
  · cases c <;> first | rfl | exact h.elim
  · rfl

theorem isDate_iff {c : Cell} : IsDate c ↔ ∃ t, c = .dt t := by
  cases c <;> simp [IsDate]

theorem dateIn_some {c : Cell} {t : Time} : dateIn c = some t ↔ c = .dt t := by
  cases c <;> simp [dateIn]

theorem Spec.OffsetIndex.headerAt {sp : SParams} {s : Sheet} {tr tc last : Int} (h : OffsetIndex sp s tr tc last) :
    TimeHeaderAt sp tr tc := by
  obtain ⟨coord, h1, h2⟩ := h.header
  exact .single h.single h1 h2

theorem Progresses.drop {sp : SParams} {ts : List Time} (n : Nat) (h : Progresses sp ts) :
    Progresses sp (ts.drop n) := by
  intro pre l t post e
  refine h (ts.take n ++ pre) l t post ?_
  rw [List.append_assoc, ← e, List.take_append_drop]

/-- A window of cells without its first ones. -/
theorem filterMap_drop_suffix {α β : Type} (f : α → Option β) (l : List α) (k : Nat) :
    ∃ n, (l.drop k).filterMap f = (l.filterMap f).drop n := by
  refine ⟨((l.take k).filterMap f).length, ?_⟩
  have e : l.filterMap f = (l.take k).filterMap f ++ (l.drop k).filterMap f := by
    rw [← List.filterMap_append, List.take_append_drop]
  rw [e, List.drop_left]

theorem filterMap_drop_none {α β : Type} (f : α → Option β) (l : List α) (k : Nat)
    (h : ∀ (i : Nat) (a : α), i < k → l[i]? = some a → f a = none) :
    (l.drop k).filterMap f = l.filterMap f := by
  have e : l.filterMap f = (l.take k).filterMap f ++ (l.drop k).filterMap f := by
    rw [← List.filterMap_append, List.take_append_drop]
  have e0 : (l.take k).filterMap f = [] := by
    rw [List.filterMap_eq_nil_iff]
    intro a ha
    obtain ⟨i, hi⟩ := List.getElem?_of_mem ha
    have hlt : i < k := by
      have := (List.getElem?_eq_some_iff.1 hi).1
      rw [List.length_take] at this
      omega
    rw [List.getElem?_take_of_lt hlt] at hi
    exact h i a hlt hi
  rw [e, e0, List.nil_append]

/-- The dates the cleaner visits. -/
theorem visited_progress {sp : SParams} {s : Sheet} {tr tc last : Int} (h : OffsetIndex sp s tr tc last)
    (hp : Progresses sp ((datesOf sp s tr tc last).filterMap id)) :
    Progresses sp (((cellsAlong s sp.alignment tr tc sp.dataStarts (last + sp.timeAlignment)).map
      dateIn).filterMap id) := by
  unfold datesOf at hp
  rw [List.filterMap_map] at hp ⊢
  by_cases hta : sp.timeAlignment ≤ 0
  · obtain ⟨k, hk⟩ : ∃ k : Nat, sp.dataStarts = sp.dataStarts + sp.timeAlignment + k :=
      ⟨(-sp.timeAlignment).toNat, by omega⟩
    have e := cellsAlong_drop s sp.alignment tr tc (sp.dataStarts + sp.timeAlignment)
      (last + sp.timeAlignment) (k := k)
    rw [← hk] at e
    rw [e]
    obtain ⟨n, hn⟩ := filterMap_drop_suffix (id ∘ dateIn) (cellsAlong s sp.alignment tr tc
      (sp.dataStarts + sp.timeAlignment) (last + sp.timeAlignment)) k
    rw [hn]
    exact hp.drop n
  · obtain ⟨k, hk⟩ : ∃ k : Nat, sp.timeAlignment = k := ⟨sp.timeAlignment.toNat, by omega⟩
    have e := cellsAlong_drop s sp.alignment tr tc sp.dataStarts (last + sp.timeAlignment) (k := k)
    rw [← hk] at e
    rw [e, filterMap_drop_none] at hp
    · exact hp
    · intro i c hi hc
      have := h.before (sp.dataStarts + i) (by omega) (by omega)
      rw [cellsAlong_get hc] at this
      exact passed_not_date this

/-- The cleaner finds the end of the index and changes nothing. -/
theorem clean_offset {ext : Ext} {sp : SParams} {s : Sheet} {tr tc last : Int} (h : OffsetIndex sp s tr tc last)
    (hf : sp.frequency.length = 1) (hp : Progresses sp ((datesOf sp s tr tc last).filterMap id)) :
    ∃ s1, cleanTimeIndex ext sp s = (.ok last, s1) ∧ s1.cells = s.cells := by
  obtain ⟨coord, hth, hrc⟩ := h.header
  have hline : TimeLine sp tr tc := ⟨h.headerAt, h.starts, h.aligned, by
    intro e; rw [e] at hf; cases hf⟩
  have hp' := visited_progress h hp
  have hread : ∀ pos, readCell ext sp s pos = timeCell s sp.alignment tr tc pos := fun _ => readCell_single hth hrc
  obtain ⟨m, hm⟩ : ∃ m, m = last + sp.timeAlignment := ⟨_, rfl⟩
  have htwo := h.two
  have hmore := h.more
  have hwithin := h.within
  have hafter' := h.after
  have hbetween := h.between
  have hshort := h.shortGaps
  obtain ⟨z, hz⟩ := h.final
  rw [← hm] at hmore hwithin hafter' hbetween hshort hz hp'
  obtain ⟨ots, hots⟩ : ∃ ots, ots = (cellsAlong s sp.alignment tr tc sp.dataStarts m).map dateIn := ⟨_, rfl⟩
  rw [← hots] at hp'
  have hlen : ots.length = (m + 1 - sp.dataStarts).toNat := by
    rw [hots, List.length_map, cellsAlong_length]
  have hget : ∀ (i : Nat) (ot : Option Time), ots[i]? = some ot →
      dateIn (timeCell s sp.alignment tr tc (sp.dataStarts + i)) = ot := by
    intro i ot hi
    rw [hots, List.getElem?_map] at hi
    obtain ⟨c, hc, he⟩ := Option.map_eq_some_iff.1 hi
    rw [cellsAlong_get hc]; exact he
  have hgets : ∀ (i : Nat), i < ots.length →
      ots[i]? = some (dateIn (timeCell s sp.alignment tr tc (sp.dataStarts + i))) := by
    intro i hi
    rw [List.getElem?_eq_getElem hi, hget i _ (List.getElem?_eq_getElem hi)]
  have hzl : ots.getLast? = some (some z) := by
    rw [List.getLast?_eq_getElem?, hgets _ (by omega),
      show sp.dataStarts + ((ots.length - 1 : Nat) : Int) = m by omega, hz]
    rfl
  have hg1 : 1 ≤ gapLimit sp := by unfold gapLimit; split <;> omega
  have hg41 : gapLimit sp ≤ 41 := by unfold gapLimit; split <;> omega
  obtain ⟨k, hk, hcase⟩ : ∃ k : Nat, k ≤ gapLimit sp - 1 ∧
      ((m + k = lastPosition sp s ∧ (k = 0 ∨ sp.alignment = .vertical)) ∨
        (sp.alignment = .vertical ∧ k = gapLimit sp - 1 ∧ m + k < lastPosition sp s)) := by
    rcases hafter' with ha | ⟨ha, _⟩
    · exact ⟨0, by omega, .inl ⟨by omega, .inl rfl⟩⟩
    · by_cases hc : lastPosition sp s - m ≤ ((gapLimit sp - 1 : Nat) : Int)
      · exact ⟨(lastPosition sp s - m).toNat, by omega, .inl ⟨by omega, .inr ha⟩⟩
      · exact ⟨gapLimit sp - 1, Nat.le_refl _, .inr ⟨ha, rfl, by omega⟩⟩
  have hafter : ∀ pos, m < pos → pos ≤ lastPosition sp s → pos ≤ m + k + 1 →
      PassedOver sp (timeCell s sp.alignment tr tc pos) := by
    intro pos h1 h2 h3
    rcases hafter' with ha | ⟨_, ha⟩
    · omega
    · exact ha pos h1 h2 (by omega)
  have hkpos : m + k ≤ lastPosition sp s := by
    rcases hcase with ⟨h1, _⟩ | ⟨_, _, h1⟩ <;> omega
  have hall : ∀ (i : Nat), (ots ++ List.replicate k none)[i]? = some none →
      PassedOver sp (timeCell s sp.alignment tr tc (sp.dataStarts + i)) ∧ Tolerant sp := by
    intro i hi
    rcases Nat.lt_or_ge i ots.length with hlt | hge
    · rw [List.getElem?_append_left hlt] at hi
      rcases hbetween (sp.dataStarts + i) (by omega) (by omega) with hd | hd
      · obtain ⟨t, ht⟩ := isDate_iff.1 hd
        have := hget i _ hi
        rw [ht] at this
        cases this
      · exact hd
    · have hik : i < ots.length + k := by
        have := (List.getElem?_eq_some_iff.1 hi).1
        rw [List.length_append, List.length_replicate] at this
        exact this
      refine ⟨hafter _ (by omega) (by omega) (by omega), ?_⟩
      exact tolerant_of_gap (by omega)
  have hinit : ReadInv .dates (ots ++ List.replicate k none) 0 .init :=
    ⟨fun _ _ => .inl rfl, rfl, rfl⟩
  have hmain : ∃ s1, cleanTimeIndex ext sp s = (.ok (m - sp.timeAlignment), s1) ∧
      DatesWritten s s1 sp.alignment tr tc sp.dataStarts ots := by
    refine clean_line hline (last := m) (k := k) (ReadInv .dates (ots ++ List.replicate k none)) hinit ?_
      (fun pos _ _ => plainAt_single hth s pos) (by omega) (by omega) (by omega) hzl ?_ ?_
    · intro i ot hi
      have hil := (List.getElem?_eq_some_iff.1 hi).1
      rw [List.length_append, List.length_replicate] at hil
      have htake : (ots ++ List.replicate k none).take (i + 1) =
          (ots ++ List.replicate k none).take i ++ [ot] := by
        rw [List.take_add_one, hi]; rfl
      rw [hread]
      cases ot with
      | none =>
        obtain ⟨hb, htol⟩ := hall i hi
        refine ⟨mustBe_passed hb, htol, fun st hst => ⟨?_, hst.parser, ?_, ?_⟩⟩
        · show st.blanks < 40
          rw [hst.blanks]
          refine Nat.lt_of_not_le fun hge => ?_
          have hT : ((ots ++ List.replicate k none).take i).length = i := by
            rw [List.length_take, List.length_append, List.length_replicate]; omega
          have hnone : ∀ j, j < 40 → j < i ∧ (ots ++ List.replicate k none)[i - 1 - j]? = some none := by
            intro j hj
            obtain ⟨h1, h2⟩ := trail_get (Nat.lt_of_lt_of_le hj hge)
            rw [hT] at h1 h2
            rw [List.getElem?_take_of_lt (by omega)] at h2
            exact ⟨h1, h2⟩
          have h39 := (hnone 39 (by omega)).1
          rcases Nat.lt_or_ge i ots.length with hlt | hge2
          · have hlast : i ≠ ots.length - 1 := by
              intro e
              rw [List.getElem?_append_left hlt, e, ← List.getLast?_eq_getElem?, hzl] at hi
              cases hi
            have hgl := gapLimit_tolerant htol
            obtain ⟨j, hj, hd⟩ := hshort (sp.dataStarts + ((i - 40 : Nat) : Int)) (by omega) (by omega)
            rw [hgl] at hj
            obtain ⟨t, ht⟩ := isDate_iff.1 hd
            rw [show sp.dataStarts + ((i - 40 : Nat) : Int) + (j : Int) =
              sp.dataStarts + ((i - 40 + j : Nat) : Int) by omega] at ht
            have hno : ots[i - 40 + j]? = some none := by
              by_cases hj40 : j = 40
              · rw [hj40, show i - 40 + 40 = i by omega]
                rw [List.getElem?_append_left hlt] at hi
                exact hi
              · have := (hnone (39 - j) (by omega)).2
                rw [List.getElem?_append_left (by omega)] at this
                rw [show i - 40 + j = i - 1 - (39 - j) by omega]
                exact this
            have := hget _ _ hno
            rw [ht] at this
            cases this
          · have hk40 : k ≤ 40 := by omega
            have := (hnone (i - ots.length) (by omega)).2
            rw [List.getElem?_append_left (by omega), show i - 1 - (i - ots.length) = ots.length - 1 by omega,
              ← List.getLast?_eq_getElem?, hzl] at this
            cases this
        · show st.last = _
          rw [htake, lastDate_snoc_none]; exact hst.last
        · show st.blanks + 1 = _
          rw [htake, trail_none, hst.blanks]
      | some t =>
        have hlt : i < ots.length := by
          refine Nat.lt_of_not_le fun hge => ?_
          rw [List.getElem?_append_right hge, List.getElem?_replicate] at hi
          split at hi <;> cases hi
        have hi' : ots[i]? = some (some t) := by rw [← hi, List.getElem?_append_left hlt]
        rw [dateIn_some.1 (hget i _ hi')]
        refine ⟨mustBe_dt sp t, fun st hst => ?_⟩
        have hlast : st.last = lastDate none (ots.take i) := by
          rw [hst.last, List.take_append_of_le_length (by omega)]
        obtain ⟨p', hp1, hp2⟩ := says_parse (ext := ext) (sp := sp) (style := .dates) (last := st.last) h.plain
          (.date (t := t)) (readCell ext sp s (sp.dataStarts + i + 1)) hst.parser
        have hprog : correctProgression st.last t sp.frequency sp.missings sp.missingValue = .ok (some t) ∧
            st.last ≠ some t := by
          cases hl : st.last with
          | none => exact ⟨rfl, by simp⟩
          | some l =>
            rw [hl] at hlast
            obtain ⟨pre, post, hn⟩ := neighbours hi' hlast.symm
            obtain ⟨q1, q2⟩ := hp' pre l t post hn
            exact ⟨q1, fun e => q2 (Option.some.inj e)⟩
        refine ⟨t, p', { st with blanks := 0, parser := p' }, hp1, ?_, fun hx => hprog.2 hx.1, hp2, ?_, ?_⟩
        · unfold correctStep
          rw [if_pos hf]
          dsimp only
          rw [hprog.1]
        · show some t = _
          rw [htake, lastDate_snoc_some]
        · show 0 = _
          rw [htake, trail_some]
    · intro x h1 h2 h3 t ht
      have := passed_not_date (hafter x h1 h3 h2)
      rw [ht] at this
      cases this
    · rcases hcase with hc | ⟨ha, hkk, hlt⟩
      · exact .inl hc
      · refine .inr ⟨ha, hlt, fun st hst s0 r c => ?_⟩
        have hb := hafter (m + k + 1) (by omega) (by omega) (by omega)
        unfold cleanValue
        rw [hread, mustBe_passed hb]
        dsimp only
        rw [if_neg (by simp), if_neg]
        rintro ⟨h1, h2⟩
        have h1 : st.blanks < 40 := h1
        rw [hst.blanks, List.take_of_length_le (by simp), trail_replicate _ ⟨z, hzl⟩] at h1
        rw [gapLimit_tolerant h2] at hkk
        omega
  obtain ⟨s1, e, hw⟩ := hmain
  rw [show m - sp.timeAlignment = last by omega] at e
  refine ⟨s1, e, ?_⟩
  funext r c
  by_cases hon : ∃ (i : Nat) (t : Time), ots[i]? = some (some t) ∧
      r = rowOf sp.alignment tr (sp.dataStarts + i) ∧ c = colOf sp.alignment tc (sp.dataStarts + i)
  · obtain ⟨i, t, hi, hr, hc⟩ := hon
    have h1 := hw.dates i t hi
    have h2 := dateIn_some.1 (hget i _ hi)
    unfold timeCell at h1 h2
    rw [hr, hc, h1, h2]
  · refine hw.others r c fun i t hi hat => hon ⟨i, t, hi, ?_⟩
    exact hat

/-! ### Extraction -/

theorem cellsAlong_same {s s1 : Sheet} (h : s1.cells = s.cells) (al : Align) (hr hc lo hi : Int) :
    cellsAlong s1 al hr hc lo hi = cellsAlong s al hr hc lo hi := by
  unfold cellsAlong
  refine List.map_congr_left fun i _ => ?_
  unfold timeCell
  rw [h]

theorem name_same {ext : Ext} {sp : SParams} {s s1 : Sheet} {name : Str} (h : s1.cells = s.cells)
    (hname : NameIs ext sp s name) (ends : Option Int) :
    getName ext { sp with dataEnds := ends } s1 = .ok name := by
  cases hname with
  | given h1 h2 => exact C58_given_name ext _ s1 h1 h2
  | @composed r c texts h1 h2 h3 =>
    have h3' : List.Forall₂ (TextAt s1) (sp.composedHeaders.getD []) texts :=
      h3.imp fun coord t ⟨r, c, q1, q2⟩ => ⟨r, c, q1, by rw [h]; exact q2⟩
    have := C58_composed_name (ext := ext) (sp := { sp with dataEnds := ends }) (s := s1) h1 h2 h3'
    rw [h] at this
    exact this

theorem zip_dates {g : Cell → Option Num} : ∀ (cs tcs : List Cell),
    ((cs.zip tcs).filterMap fun p => if IsDate p.2 then g p.1 else none) =
      (cs.zip (tcs.map dateIn)).filterMap fun p => if p.2.isSome then g p.1 else none
  | [], _ => rfl
  | _ :: _, [] => rfl
  | c :: cs, t :: tcs => by
    have ih := zip_dates (g := g) cs tcs
    have e : (if IsDate t then g c else none) = if (dateIn t).isSome then g c else none := by
      cases t <;> simp [IsDate, dateIn]
    simp only [List.zip_cons_cons, List.map_cons, List.filterMap_cons, e, ih]

/-- The series over such an index, after cleaning. -/
theorem series_offset {ext : Ext} {sp : SParams} {s s1 : Sheet} {tr tc last : Int} {grid : List Time} {name : Str}
    {xs : List Num} (hs1 : s1.cells = s.cells) (hal : sp.alignment = .vertical ∨ sp.alignment = .horizontal)
    (hstart : 1 ≤ sp.dataStarts) (hdates : 1 ≤ sp.dataStarts + sp.timeAlignment) (htwo : sp.dataStarts < last)
    (hH : TimeHeaderAt sp tr tc) (hF : sp.frequency.length = 1)
    (hs : OffsetSeries ext s tr tc last grid sp name xs) (hxne : xs ≠ []) :
    getSeries ext (endingAt last sp) s1 = .ok [(name, xs)] := by
  have he := endingAt_same last sp
  have hends : (endingAt last sp).dataEnds = some last := by
    rw [endingAt_ends]
    rcases hs.ends with e | e | e <;> rw [e] <;> dsimp only
    · rw [if_pos rfl]
    · split <;> rfl
  rw [hends] at he
  rw [he]
  obtain ⟨hr, hc, hcoord, hvals⟩ := hs.cells
  have hdata := cellsAlong_same hs1 sp.alignment hr hc sp.dataStarts last
  have hD : DataCells { sp with dataEnds := some last } hr hc last := ⟨hcoord, hal, hstart, rfl⟩
  have hle : ({ sp with dataEnds := some last } : SParams).dataStarts ≤ last := by
    dsimp only; omega
  have hHA : HeaderAt { sp with dataEnds := some last } tr tc := hH.first
  have hV : getValues ext { sp with dataEnds := some last } s1 = .ok [xs] := by
    cases hvals with
    | every h1 h2 h3 h4 =>
      exact (C52_every_row hD hF h1 h3 h2 hle _).2 ⟨xs, rfl, by dsimp only; rw [hdata]; exact h4⟩
    | blankRows h1 h2 h3 h4 =>
      exact (C52_blank_rows hD hF h1 h3 h2 _).2 ⟨xs, by rw [if_neg hxne], by dsimp only; rw [hdata]; exact h4⟩
    | marked h1 h2 h3 h4 h5 h6 =>
      exact (C53_markers hD hF h1 h3 h4 h5 h2 hle _).2 ⟨xs, rfl, by dsimp only; rw [hdata]; exact h6⟩
    | @implicit xs0 _ markers h1 h2 h3 h4 h5 h6 h7 h8 =>
      obtain ⟨m, e1, e2⟩ := hs.notImplicit h3
      rw [h4] at e1
      cases e1
      exact absurd h5 e2
    | @dated _ markers h1 h2 h3 h4 =>
      have hk : HeaderKind { sp with dataEnds := some last } := hH.kind
      have := C54_dated_rows (ext := ext) (s := s1) hD hF h1 hk hHA h2 h3 hdates
      dsimp only at this
      rw [hdata, cellsAlong_same hs1, zip_dates] at this
      unfold datesOf at h4
      rw [← h4, if_neg hxne] at this
      exact this
  have hN := name_same hs1 hs.name (some last)
  unfold getSeries
  rw [hN]
  dsimp only
  rw [hV]
  rfl

/-- Cleaning and extraction of series over such an index. -/
theorem scrape_offset {ext : Ext} {p : Params} {s : Sheet} {sps : List SParams} {sp0 : SParams} {th : TimeHeader}
    {start ta : Int} {al : Align} {freq : Str} {tr tc last : Int} {grid : List Time} {nvs : List (Str × List Num)}
    (hp : HasSeries p sps) (h0 : sps.head? = some sp0) (hsame : SameIndex sps th freq start ta al)
    (ht : OffsetIndex sp0 s tr tc last) (hg : OnPeriods sp0 grid ((datesOf sp0 s tr tc last).filterMap id))
    (hser : List.Forall₂ (fun sp nv => OffsetSeries ext s tr tc last grid sp nv.1 nv.2) sps nvs) :
    ∃ cols p' s', scrape ext p s = (.ok [⟨indexFreq freq, grid, cols, nvs.map Prod.snd⟩], p', s') ∧
      ColumnsOf (nvs.map Prod.fst) cols ∧ HasSeries p' (sps.map (endingAt last)) ∧ s'.cells = s.cells := by
  have hm0 : sp0 ∈ sps := List.mem_of_head? h0
  obtain ⟨n2, hlen, hne, sh, hsh⟩ := notY_of_periods hg
  obtain ⟨s1, hc1, hw⟩ := clean_offset (ext := ext) ht hlen (progresses_of hg)
  have htwo := ht.two
  have hstarts := ht.starts
  have hds := ht.dates
  have hHs : ∀ sp ∈ sps, TimeHeaderAt sp tr tc := by
    intro sp hm
    refine ht.headerAt.congr ((hsame.header sp hm).trans (hsame.header sp0 hm0).symm) ?_
    rw [Bool.eq_iff_iff, hsame.multicolumn sp hm, hsame.multicolumn sp0 hm0]
  obtain ⟨first, hfirst, hthc⟩ := singleHeader_at ht.headerAt.first
  rw [hsame.header sp0 hm0] at hfirst
  obtain ⟨a, ha⟩ := ht.first
  obtain ⟨z, hz⟩ := ht.final
  have hlend : (datesOf sp0 s tr tc last).length = (last + 1 - sp0.dataStarts).toNat := by
    unfold datesOf
    rw [List.length_map, cellsAlong_length]
    congr 1
    omega
  have hgetd : ∀ i : Nat, i < (datesOf sp0 s tr tc last).length → (datesOf sp0 s tr tc last)[i]? =
      some (dateIn (timeCell s sp0.alignment tr tc (sp0.dataStarts + sp0.timeAlignment + i))) := by
    intro i hi
    have hi2 := List.getElem?_eq_getElem hi
    unfold datesOf at hi2 ⊢
    rw [List.getElem?_map] at hi2 ⊢
    obtain ⟨c, hc, he⟩ := Option.map_eq_some_iff.1 hi2
    rw [hc, cellsAlong_get hc]
    rfl
  have ha' : grid.head? = some a := by
    rw [← hg.first]
    have : (datesOf sp0 s tr tc last).head? = some (some a) := by
      rw [List.head?_eq_getElem?, hgetd 0 (by omega)]
      simp only [Int.natCast_zero, Int.add_zero, ha]
      rfl
    cases hd : datesOf sp0 s tr tc last with
    | nil => rw [hd] at this; cases this
    | cons o os => rw [hd] at this; cases this; rfl
  have hz' : grid.getLast? = some z := by
    rw [← hg.last]
    have : (datesOf sp0 s tr tc last).getLast? = some (some z) := by
      rw [List.getLast?_eq_getElem?, hgetd _ (by omega),
        show sp0.dataStarts + sp0.timeAlignment + (((datesOf sp0 s tr tc last).length - 1 : Nat) : Int) =
          last + sp0.timeAlignment by omega, hz]
      rfl
    obtain ⟨l', hl'⟩ := List.getLast?_eq_some_iff.1 this
    rw [hl', List.filterMap_append]
    simp
  have hgne : grid ≠ [] := by intro e; rw [e] at ha'; cases ha'
  have hrange : ∀ s' : Sheet, s'.cells = s1.cells →
      seriesRanges ext s' freq start first last ta al = .ok [⟨indexFreq freq, grid⟩] := by
    intro s' hs'
    have e : ∀ pos, timeCell s' sp0.alignment tr tc pos = timeCell s sp0.alignment tr tc pos := by
      intro pos; unfold timeCell; rw [hs', hw]
    rw [← hsame.frequency sp0 hm0, ← hsame.starts sp0 hm0, ← hsame.alignment sp0 hm0, ← hsame.timeAlignment sp0 hm0]
    exact C60_index_of_periods ext ht.aligned hthc (by omega) (by omega) (by rw [e]; exact ha)
      (by rw [e]; exact hz)
      (hg.start a ha') ha' hz' hg.run hg.valid (hg.representable a (List.mem_of_head? ha'))
      (hg.representable z (List.mem_of_getLast? hz'))
  have hgives : List.Forall₂ (Gives ext s1 [⟨indexFreq freq, grid⟩]) (sps.map (endingAt last))
      (nvs.map fun nv => [nv]) := by
    rw [List.forall₂_map_left_iff, List.forall₂_map_right_iff]
    refine forall₂_of_get hser.length_eq ?_
    intro i sp nv hi hi'
    obtain ⟨hi1, rfl⟩ := List.getElem?_eq_some_iff.1 hi
    obtain ⟨hi2, rfl⟩ := List.getElem?_eq_some_iff.1 hi'
    have hs := hser.get hi1 hi2
    simp only [List.get_eq_getElem] at hs
    generalize hspd : sps[i] = sp at hs
    have hm : sp ∈ sps := hspd ▸ List.getElem_mem hi1
    have h1 := (hsame.starts sp hm).trans (hsame.starts sp0 hm0).symm
    have h2 := (hsame.timeAlignment sp hm).trans (hsame.timeAlignment sp0 hm0).symm
    have h3 := (hsame.alignment sp hm).trans (hsame.alignment sp0 hm0).symm
    have h4 := (hsame.frequency sp hm).trans (hsame.frequency sp0 hm0).symm
    have hV := series_offset hw (by rw [h3]; exact ht.aligned) (by omega) (by omega) (by omega) (hHs sp hm)
      (by rw [h4]; exact hlen) hs (fun he => hgne (List.eq_nil_of_length_eq_zero (by
        rw [← hs.size, he]; rfl)))
    have he := endingAt_same last sp
    have hends : (endingAt last sp).dataEnds = some last := by
      rw [endingAt_ends]
      rcases hs.ends with e | e | e <;> rw [e] <;> dsimp only
      · rw [if_pos rfl]
      · split <;> rfl
    refine ⟨⟨first, last, ?_, hends, by omega, ?_, ?_⟩, hV, rfl, by simp⟩
    · rw [he]
      exact singleHeader_both (hHs sp hm) (by rw [hsame.header sp hm]; exact hfirst)
    · rw [he]
      show sp.dataStarts < last
      omega
    · intro s' hgr
      rw [he]
      show seriesRanges ext s' sp.frequency sp.dataStarts first last sp.timeAlignment sp.alignment = _
      rw [hsame.frequency sp hm, hsame.starts sp hm, hsame.timeAlignment sp hm, hsame.alignment sp hm]
      exact hrange s' hgr.1
  have hkeys : Keys [⟨indexFreq freq, grid⟩] [(indexFreq freq, a, z)] := by
    refine ⟨.cons ?_ .nil, by simp⟩
    unfold rangeKey
    dsimp only
    rw [ha', hz']
  obtain ⟨p', s', e1, e3, e4⟩ := scrape_buckets (by rintro rfl; cases h0)
    (cleanData_index hp h0 hsame hc1 (by omega) fun x hx => by
      obtain ⟨i, hi, rfl⟩ := List.mem_iff_getElem.1 hx
      exact (hser.get hi (by rw [← hser.length_eq]; exact hi)).ends) hkeys hgives
  refine ⟨addNames [] (nvs.map Prod.fst), p', s', ?_, table_columns nvs, e4, by rw [e3, hw]⟩
  have hne : nvs ≠ [] := forall₂_nonempty hser (by rintro rfl; cases h0)
  have hfr : frameOf ext (tableBucket freq grid a z nvs) =
      .ok ⟨indexFreq freq, grid, addNames [] (nvs.map Prod.fst), nvs.map Prod.snd⟩ := by
    unfold frameOf tableBucket
    dsimp only
    rw [mkFrame_table _ _ hne (by
      intro nv hnv
      obtain ⟨sp, _, hs⟩ := forall₂_right hser nv hnv
      exact hs.size)]
  rw [e1, show emptyBuckets [⟨indexFreq freq, grid⟩] [(indexFreq freq, a, z)] =
    [⟨(indexFreq freq, a, z), ⟨indexFreq freq, grid⟩, [], []⟩] from rfl, foldl_single]
  have := framesOf_of (.cons hfr .nil)
  unfold tableBucket at this
  simp only [List.nil_append]
  rw [this]

end Xls
