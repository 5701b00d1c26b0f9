/-
Tables in rows: what the cleaning of one does to the next.
-/
import Verif.Lemmas.SeveralTables

set_option autoImplicit false

namespace Xls

open Spec

/-! ### Blank cells after the dates of a row -/

/-- The end of an index in a row is not found if blank cells follow within the sheet. -/
theorem clean_row_tail {ext : Ext} {sp : SParams} {s : Sheet} {style : Style} {tr tc last : Int}
    {ots : List (Option Time)} (h : TimeCells ext sp s style tr tc last ots)
    (hf : sp.frequency.length = 1) (hp : Progresses sp (ots.filterMap id)) (hal : sp.alignment = .horizontal)
    (hlt : last < lastPosition sp s)
    (hblank : ∀ pos, last < pos → pos ≤ lastPosition sp s → pos ≤ last + gapLimit sp →
      BlankCell (readCell ext sp s pos)) :
    (cleanTimeIndex ext sp s).1 = .error .typeError := by
  have hline : TimeLine sp tr tc := ⟨h.header, h.starts, h.aligned, by
    intro e; rw [e] at hf; cases hf⟩
  have hlen : ots.length = (last + 1 - sp.dataStarts).toNat := by
    rw [h.reads.length, readsAlong_length]
  have htwo := h.two
  obtain ⟨hg1, hg41⟩ := gapLimit_bounds sp
  obtain ⟨k, hk, hcase⟩ : ∃ k : Nat, k ≤ gapLimit sp - 1 ∧
      ((last + k = lastPosition sp s ∧ k ≠ 0) ∨ (k = gapLimit sp - 1 ∧ last + k < lastPosition sp s)) := by
    by_cases hc : lastPosition sp s - last ≤ ((gapLimit sp - 1 : Nat) : Int)
    · exact ⟨(lastPosition sp s - last).toNat, by omega, .inl ⟨by omega, by omega⟩⟩
    · exact ⟨gapLimit sp - 1, Nat.le_refl _, .inr ⟨rfl, by omega⟩⟩
  have hkpos : last + k ≤ lastPosition sp s := by
    rcases hcase with ⟨h1, _⟩ | ⟨_, h1⟩ <;> omega
  have hafter : ∀ pos, last < pos → pos ≤ lastPosition sp s → pos ≤ last + k + 1 →
      BlankCell (readCell ext sp s pos) := fun pos h1 h2 h3 => hblank pos h1 h2 (by omega)
  obtain ⟨st, s1, hst, hinv, hw⟩ := steps_line hline (ReadInv style (ots ++ List.replicate k none))
    (⟨fun _ _ => .inl rfl, rfl, rfl⟩ : ReadInv style (ots ++ List.replicate k none) 0 .init)
    (table_takes h hf hp hk fun pos h1 h2 => hafter pos h1 (by omega) (by omega))
    (fun pos h1 h2 => h.plain pos h1 (by
      rw [List.length_append, List.length_replicate] at h2; omega)) (ots ++ List.replicate k none).length (Nat.le_refl _)
  rw [List.take_length] at hw
  have hw := datesWritten_blanks hw
  rw [List.length_append, List.length_replicate] at hst hinv
  rw [show sp.dataStarts + ((ots.length + k : Nat) : Int) = last + k + 1 by omega] at hst
  have hrest : ∀ p, last + 1 ≤ p → ∀ r c, s1.cells (rowOf sp.alignment r p) (colOf sp.alignment c p) =
      s.cells (rowOf sp.alignment r p) (colOf sp.alignment c p) := by
    intro p hp
    exact DatesWritten_line hw (by omega)
  -- the cell where the loop ends is not a date
  have hest : ∀ (s' : Sheet) (pos : Int), s'.cells = s1.cells → last < pos → pos ≤ lastPosition sp s →
      pos ≤ last + k + 1 → estimateEnd sp s' tr tc pos = .error .typeError := by
    intro s' pos e h1 h2 h3
    have hn := not_dt_of_blank h.header (h.plain pos (by omega) (by omega)) (hafter pos h1 h2 h3)
    unfold timeCell at hn
    rw [← hrest pos (by omega), ← e] at hn
    unfold estimateEnd
    rw [hal] at hn ⊢
    dsimp only
    rw [if_neg]
    intro hd
    cases hcell : s'.cells tr pos with
    | dt t => exact hn t hcell
    | _ => rw [hcell] at hd; cases hd
  rcases hcase with ⟨hend, h0⟩ | ⟨hkk, hend⟩
  · rw [cleanLine_done hline hst (by omega) (by omega), show last + k + 1 - 1 = last + k by omega]
    exact hest s1 _ rfl (by omega) (by omega) (by omega)
  · obtain ⟨s0, hs0, hcs⟩ := cleanStep_line (ext := ext) hline (by omega : sp.dataStarts ≤ last + k + 1) st s1
      (plainAt_same (hrest _ (by omega)) (h.plain _ (by omega) (by omega)))
      (plainAt_same (hrest _ (by omega)) (h.plain _ (by omega) (by omega)))
    rw [readCell_same (hrest _ (by omega)), readCell_same (hrest _ (by omega)),
      table_stops h hkk (hafter _ (by omega) (by omega) (by omega)) st hinv s0] at hcs
    rw [cleanLine_stop hline hst (by omega) hcs]
    exact hest s0 _ hs0 (by omega) (by omega) (by omega)

/-! ### The column after the dates comes into being -/

/-- Reading a date looks up its cell. -/
theorem time_touches {ext : Ext} {sp : SParams} {th : Str} (hth : sp.timeHeader = .single th)
    (hal : sp.alignment = .horizontal) {pos : Int} {s s1 : Sheet} {v : Cell}
    (h : getTimeValue ext sp pos s = (.ok v, s1)) : pos ≤ s1.maxCol := by
  unfold getTimeValue at h
  split at h
  · cases h
  · cases h
  · split at h
    · cases h
    · dsimp only at h
      split at h
      · cases h
        unfold axisCell Sheet.touch
        rw [hal]
        exact Int.le_max_right ..
      · cases h
  · next hh => rw [hth] at hh; cases hh

/-- Unless it raises, a step of the loop at a position looks up the next one. -/
theorem step_touches {ext : Ext} {sp : SParams} {th : Str} (hth : sp.timeHeader = .single th)
    (hal : sp.alignment = .horizontal) {st : CState} {pos : Int} {s s1 : Sheet} {se : StepEnd}
    (h : cleanStep ext sp st s pos = (se, s1)) (hn : ∀ e, se ≠ .raise e) : pos + 1 ≤ s1.maxCol := by
  unfold cleanStep at h
  split at h
  · cases h; exact absurd rfl (hn _)
  · next curr sa ha =>
    split at h
    · cases h; exact absurd rfl (hn _)
    · next nxt sb hb =>
      have h1 := time_touches hth hal hb
      split at h
      · cases h; exact absurd rfl (hn _)
      · next hr hc _ =>
        dsimp only at h
        have h2 := wider_value ext sp st (sb.touch (axisCell sp.alignment hr hc pos).1 (axisCell sp.alignment hr hc pos).2)
          (axisCell sp.alignment hr hc pos).1 (axisCell sp.alignment hr hc pos).2 curr nxt
        rw [h] at h2
        exact Int.le_trans h1 (Int.le_trans (wider_touch _ _ _).2 h2.2)

theorem loop_touches {ext : Ext} {sp : SParams} {th : Str} (hth : sp.timeHeader = .single th)
    (hal : sp.alignment = .horizontal) : ∀ (ps : List Int) (st : CState) (s s1 : Sheet) (reached : Option Int) (q : Int),
    (∀ x, reached = some x → x + 1 ≤ s.maxCol) →
    cleanLoop ext sp st s reached ps = (.ok (some q), s1) → q + 1 ≤ s1.maxCol
  | [], _, s, s1, reached, q, hr, h => by
    unfold cleanLoop at h
    cases h
    exact hr q rfl
  | pos :: rest, st, s, s1, reached, q, hr, h => by
    unfold cleanLoop at h
    split at h
    · cases h
    · next hs => cases h; exact step_touches hth hal hs (by simp)
    · next hs =>
      exact loop_touches hth hal rest _ _ s1 _ q (fun x hx => by
        cases hx; exact step_touches hth hal hs (by simp)) h

/-- Cleaning an index in a row looks up the column after its end. -/
theorem clean_touches {ext : Ext} {sp : SParams} {th : Str} (hth : sp.timeHeader = .single th)
    (hal : sp.alignment = .horizontal) (hta : sp.timeAlignment = 0) {s s1 : Sheet} {e : Int}
    (h : cleanTimeIndex ext sp s = (.ok e, s1)) : e + 1 ≤ s1.maxCol := by
  unfold cleanTimeIndex at h
  split at h
  · cases h
  · unfold cleanWith at h
    rw [if_neg (by rw [hal]; decide)] at h
    split at h
    · cases h
    · cases h
    · next pos s2 hl =>
      split at h
      · cases h
      · have h1 := congrArg Prod.fst h
        have h2 := congrArg Prod.snd h
        dsimp only at h1 h2
        subst h2
        have := loop_touches hth hal _ _ _ _ _ _ (by simp) hl
        unfold estimateEnd at h1
        rw [hal] at h1
        dsimp only at h1
        split at h1
        · split at h1
          · cases h1; omega
          · cases h1
        · cases h1

/-! ### The second of two tables in rows -/

theorem scrape_rows {ext : Ext} {s : Sheet} {ms mid post : List Member} {m0 m1 : Member} (h : TablesOn ext s ms)
    (hms : ms = m0 :: mid ++ m1 :: post) (hmid : ∀ m ∈ mid, m.table = m0.table) (hne : m1.table ≠ m0.table)
    (h0 : m0.table.al = .horizontal) (hfull : m0.table.last = s.maxCol)
    (h1 : m1.table.al = .horizontal) (hopen : ¬ EndGiven m1.sp)
    (hout : ∀ r c : Int, s.maxCol < c → s.cells r c = .none) {p : Params} (hp : HasSeries p (ms.map Member.sp)) :
    (scrape ext p s).1 = .error .typeError := by
  have hm0 : m0 ∈ ms := by rw [hms]; simp
  have hm1 : m1 ∈ ms := by rw [hms]; simp
  have hb0 := h.belong m0 hm0
  have hb1 := h.belong m1 hm1
  have hlen : ms.length = (m0 :: mid).length + (m1 :: post).length := by rw [hms, List.length_append]
  obtain ⟨ht0, hg0⟩ := h.index [] m0 (mid ++ m1 :: post) (by rw [hms]; rfl) (by simp)
  obtain ⟨ht1, hg1⟩ := h.index (m0 :: mid) m1 post hms (by
    intro x hx
    rcases List.mem_cons.1 hx with rfl | hx
    · exact fun e => hne e.symm
    · rw [hmid x hx]; exact fun e => hne e.symm)
  -- the first series
  obtain ⟨s1, e1, hw⟩ := clean_table ht0 (notY_of_periods hg0).2.1 (progresses_of hg0)
  have hgood : Cleaned s s1 [m0] := by
    have hwide := wider_clean ext m0.sp s
    rw [e1] at hwide
    rw [hb0.alignment, hb0.starts] at hw
    refine ⟨⟨?_, ?_⟩, hwide⟩
    · intro x hx i d hd
      rw [List.mem_singleton.1 hx] at hd ⊢
      exact hw.dates i d hd
    · intro r c hrc
      exact hw.others r c fun j t hj hat => hrc m0 (by simp) ⟨j, t, hj, hat⟩
  have hcol := clean_touches hb0.header (hb0.alignment.trans h0) hb0.offset e1
  rw [hms] at hp
  obtain ⟨p1, s1', ends1, r1, hp1, hc1, he1, _, hs1⟩ := cleanSeries_round (p := p) (sk := s) (ends := []) h
    (pre := []) (m := m0) (post := mid ++ m1 :: post) (by rw [hms]; rfl) (by simpa using hp)
    ⟨⟨by simp, fun _ _ _ => rfl⟩, Wider.refl s⟩ ⟨by simp, fun _ _ => rfl⟩ (fun _ => ⟨s1, e1, hgood⟩)
    (List.range' 1 (mid ++ m1 :: post).length)
  rw [e1] at hs1
  have hs1 := hs1 (by simp)
  dsimp only at hs1
  subst hs1
  -- the other series of the first table
  obtain ⟨p2, s2, ends2, r2, hp2, hc2, he2, hw2⟩ := cleanSeries_rounds h (m1 :: post) mid [m0] p1 s1' ends1
    (by rw [hms]; rfl) (by
      intro q m r sk hq hn _
      exact absurd (hmid m (by rw [hq]; simp)).symm (hn m0 (by simp))) hp1 hc1 he1
  have hcol2 : s.maxCol + 1 ≤ s2.maxCol := by
    rw [← hfull]
    exact Int.le_trans hcol hw2.2
  -- the second table
  have hpre : ∀ x ∈ m0 :: mid, x ∈ ms ∧ x.table ≠ m1.table := by
    intro x hx
    refine ⟨by rw [hms]; exact List.mem_append_left _ hx, ?_⟩
    rcases List.mem_cons.1 hx with rfl | hx
    · exact fun e => hne e.symm
    · rw [hmid x hx]; exact fun e => hne e.symm
  have hagree : AgreeOn m1 s s2 := hc2.agree fun m' hm' r c hd =>
    h.apart m' (hpre m' hm').1 m1 hm1 (hpre m' hm').2 r c hd
  have hlast : ∀ s' : Sheet, lastPosition m1.sp s' = s'.maxCol := by
    intro s'
    have hal : m1.sp.alignment ≠ .vertical := by rw [hb1.alignment, h1]; decide
    unfold lastPosition
    split
    next e he =>
      by_cases h0 : e = 0
      · rw [if_neg (by simpa using h0), if_neg hal]
      · exact absurd ⟨by rw [he]; simp, by rw [he]; simpa using h0⟩ hopen
    next => rw [if_neg hal]
  have hend : m1.table.last = s.maxCol := by
    rcases ht1.after with he | ⟨hv, _⟩
    · rw [he, hlast]
    · rw [hb1.alignment, h1] at hv; cases hv
  have hc := header_single hb1.header ht1.header
  have htwo := ht1.two
  rw [hb1.starts] at htwo
  have hread : ∀ pos, m1.table.start ≤ pos → pos ≤ m1.table.last + gapLimit m1.sp + 1 →
      readCell ext m1.sp s2 pos = readCell ext m1.sp s pos := by
    intro pos h1 h2
    rw [read_single hb1.header hc, read_single hb1.header hc, hb1.alignment]
    exact hagree.line h1 h2
  have hcells : TimeCells ext m1.sp s2 m1.table.style m1.table.tr m1.table.tc m1.table.last m1.table.ots := by
    refine { ht1.cells with reads := ?_, plain := ?_ }
    · have : readsAlong ext m1.sp s2 m1.sp.dataStarts m1.table.last =
          readsAlong ext m1.sp s m1.sp.dataStarts m1.table.last := by
        unfold readsAlong
        refine List.map_congr_left fun i hi => ?_
        have hi := List.mem_range.1 hi
        rw [hb1.starts] at hi ⊢
        exact hread _ (by omega) (by omega)
      rw [this]
      exact ht1.reads
    · intro pos _ _ coords hcs
      rw [hb1.header] at hcs
      cases hcs
  have herr := clean_row_tail hcells (notY_of_periods hg1).2.1 (progresses_of hg1) (hb1.alignment.trans h1)
    (by rw [hlast]; omega) (by
      intro pos q1 _ q3
      rw [hread pos (by omega) (by omega), read_single hb1.header hc, hb1.alignment, h1]
      unfold timeCell rowOf colOf
      rw [if_neg (by decide), if_neg (by decide), hout _ _ (by omega)]
      trivial)
  have hi : ((m0 :: mid).map Member.ended ++ (m1 :: post).map Member.sp)[(m0 :: mid).length]? = some m1.sp := by
    rw [List.getElem?_append_right (by simp)]
    simp
  have hfail : (cleanData ext p s).1 = .error .typeError := by
    rw [cleanData_single h (by rw [hms]; simp) (by rw [hms]; exact hp), List.range_eq_range',
      show ms.length = (mid ++ m1 :: post).length + 1 by rw [hms]; simp, List.range'_succ]
    have r1 := r1
    rw [List.length_nil] at r1
    rw [r1]
    rw [List.length_singleton] at r2
    rw [r2, List.length_cons (a := m1), List.range'_succ]
    conv => lhs; unfold cleanSeries
    rw [List.singleton_append] at hp2 he2 ⊢
    rw [header_of_series hp2 hi hb1.header]
    dsimp only
    unfold cleanOnce
    rw [he2.unknown _ fun x hx e => (hpre x hx).2 (h.oneHeader x (hpre x hx).1 m1 hm1 e)]
    dsimp only
    rw [typed_of_series hp2 hi]
    dsimp only
    obtain ⟨res, hres⟩ : ∃ res, cleanTimeIndex ext m1.sp s2 = res := ⟨_, rfl⟩
    rw [hres] at herr ⊢
    obtain ⟨a, b⟩ := res
    dsimp only at herr
    subst herr
    rfl
  unfold scrape
  obtain ⟨res, hres⟩ : ∃ res, cleanData ext p s = res := ⟨_, rfl⟩
  rw [hres] at hfail ⊢
  obtain ⟨a, b, c⟩ := res
  dsimp only at hfail
  subst hfail
  rfl

end Xls
