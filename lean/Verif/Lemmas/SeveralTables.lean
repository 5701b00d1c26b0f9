/-
Cleaning and extraction of several tables on one worksheet.
-/
import Verif.Spec.SeveralTables
import Verif.Spec.Scraper
import Verif.Lemmas.LayoutData
import Verif.Lemmas.MixedData

set_option autoImplicit false

namespace Xls

open Spec

/-! ### Extraction when the series have different indexes -/

theorem eraseDups_foldl {α : Type} [DecidableEq α] : ∀ (l acc : List α),
    l.foldl (fun ds a => if a ∈ ds then ds else ds ++ [a]) acc = acc ++ (l.filter (· ∉ acc)).eraseDups
  | [], acc => by simp
  | a :: l, acc => by
    rw [List.foldl_cons]
    by_cases h : a ∈ acc
    · rw [if_pos h, eraseDups_foldl l acc, List.filter_cons, if_neg (by simpa using h)]
    · rw [if_neg h, eraseDups_foldl l (acc ++ [a]), List.filter_cons, if_pos (by simpa using h),
        List.eraseDups_cons, List.append_assoc, List.singleton_append, List.filter_filter]
      congr 3
      refine List.filter_congr fun x _ => ?_
      by_cases hx : x = a <;> by_cases hx' : x ∈ acc <;> simp [hx, hx']

theorem foldl_distinct {α : Type} [DecidableEq α] : ∀ (l acc : List α), acc.Nodup →
    (l.foldl (fun ds a => if a ∈ ds then ds else ds ++ [a]) acc).Nodup
  | [], _, h => h
  | a :: l, acc, h => by
    rw [List.foldl_cons]
    refine foldl_distinct l _ ?_
    by_cases ha : a ∈ acc
    · rw [if_pos ha]; exact h
    · rw [if_neg ha, List.nodup_append]
      refine ⟨h, by simp, ?_⟩
      intro x hx y hy e
      rw [List.mem_singleton.1 hy] at e
      exact ha (e ▸ hx)

theorem eraseDups_distinct {α : Type} [DecidableEq α] (l : List α) : l.eraseDups.Nodup := by
  have h := foldl_distinct l [] (by simp)
  rw [eraseDups_foldl, List.nil_append, List.filter_eq_self.2 (by simp)] at h
  exact h

/-- What is known of a series when its values are extracted: parameters, range, name and values. -/
abbrev Known := SParams × PRange × (Str × List Num)

/-- The entry for a range after the series `xs`. -/
def entryFor (k : PRange → Str × Time × Time) (xs : List Known) (pr : PRange) : Bucket :=
  ⟨k pr, pr, addNames [] ((xs.filter fun x => x.2.1 = pr).map fun x => x.2.2.1),
    (xs.filter fun x => x.2.1 = pr).map fun x => x.2.2.2⟩

theorem bucketLoop_known {ext : Ext} {p : Params} {s : Sheet} {k : PRange → Str × Time × Time}
    (hmp : (p .timeMulticolumn).truthy = true) :
    ∀ (xs : List Known) (ds : List PRange) (s1 : Sheet), Grown s s1 →
    (∀ x ∈ xs, rangeKey x.2.1 = .ok (k x.2.1)) →
    (∀ x ∈ xs, ∀ d, d ∈ ds ∨ d ∈ xs.map (fun y => y.2.1) → k x.2.1 = k d → x.2.1 = d) →
    (∀ x ∈ xs, Gives ext s [x.2.1] x.1 [x.2.2]) →
    ∃ s2, bucketLoop ext p (xs.map fun x => argsOf x.1) s1 (ds.map (entryFor k [])) =
      .ok (((xs.map fun x => x.2.1).foldl (fun ds a => if a ∈ ds then ds else ds ++ [a]) ds).map (entryFor k []), s2) ∧
      Grown s s2
  | [], ds, s1, hs, _, _, _ => ⟨s1, rfl, hs⟩
  | x :: xs, ds, s1, hs, hk, hi, hg => by
    obtain ⟨reads, hr⟩ := rangesOfArgs_series (p := p) (hg x (by simp)) hs hmp
    rw [List.map_cons]
    unfold bucketLoop
    rw [hr]
    dsimp only
    have ha : addBuckets (ds.map (entryFor k [])) [x.2.1] =
        .ok ((if x.2.1 ∈ ds then ds else ds ++ [x.2.1]).map (entryFor k [])) := by
      unfold addBuckets addBucket
      rw [hk x (by simp)]
      dsimp only
      unfold addBuckets
      by_cases hd : x.2.1 ∈ ds
      · rw [if_pos (List.any_eq_true.2 ⟨entryFor k [] x.2.1, List.mem_map_of_mem hd, by simp [entryFor]⟩), if_pos hd]
      · rw [if_neg (by
          intro h
          obtain ⟨b, hb, e⟩ := List.any_eq_true.1 h
          obtain ⟨d, hd', rfl⟩ := List.mem_map.1 hb
          have e : k d = k x.2.1 := of_decide_eq_true e
          rw [hi x (by simp) d (.inl hd') e.symm] at hd
          exact hd hd'), if_neg hd]
        simp [entryFor, addNames]
    rw [ha]
    dsimp only
    rw [List.map_cons, List.foldl_cons]
    refine bucketLoop_known hmp xs _ _ (hs.trans (grown_touchAll _ _))
      (fun y hy => hk y (List.mem_cons_of_mem _ hy)) ?_ (fun y hy => hg y (List.mem_cons_of_mem _ hy))
    intro y hy d hd
    refine hi y (List.mem_cons_of_mem _ hy) d ?_
    rcases hd with hd | hd
    · by_cases hx : x.2.1 ∈ ds
      · rw [if_pos hx] at hd; exact .inl hd
      · rw [if_neg hx] at hd
        rcases List.mem_append.1 hd with hd | hd
        · exact .inl hd
        · exact .inr (by rw [List.mem_singleton.1 hd]; simp)
    · exact .inr (by rw [List.map_cons]; exact List.mem_cons_of_mem _ hd)

theorem entryFor_snoc (k : PRange → Str × Time × Time) (xs : List Known) (x : Known) :
    entryFor k (xs ++ [x]) x.2.1 = (entryFor k xs x.2.1).with x.2.2 := by
  unfold entryFor Bucket.with
  rw [List.filter_append, List.filter_cons, if_pos (by simp), List.filter_nil, List.map_append, List.map_append]
  simp [addNames]

theorem entryFor_other (k : PRange → Str × Time × Time) (xs : List Known) (x : Known) {d : PRange}
    (h : x.2.1 ≠ d) : entryFor k (xs ++ [x]) d = entryFor k xs d := by
  unfold entryFor
  rw [List.filter_append, List.filter_cons, if_neg (by simpa using h), List.filter_nil, List.append_nil]

theorem put_known {k : PRange → Str × Time × Time} {xs : List Known} {x : Known} {ds : List PRange}
    (hn : ds.Nodup) (hm : x.2.1 ∈ ds) (hi : ∀ d ∈ ds, k x.2.1 = k d → x.2.1 = d) :
    putSeries x.2.2.1 x.2.2.2 (k x.2.1) (ds.map (entryFor k xs)) = .ok (ds.map (entryFor k (xs ++ [x]))) := by
  obtain ⟨d1, d2, rfl⟩ := List.append_of_mem hm
  rw [List.nodup_append, List.nodup_cons] at hn
  have h1 : ∀ d ∈ d1, x.2.1 ≠ d := fun d hd e => hn.2.2 d hd _ (List.mem_cons_self ..) e.symm
  have h2 : ∀ d ∈ d2, x.2.1 ≠ d := fun d hd e => hn.2.1.1 (e ▸ hd)
  have hput := putSeries_at (name := x.2.2.1) (values := x.2.2.2) (b := entryFor k xs x.2.1)
    (post := d2.map (entryFor k xs)) (d1.map (entryFor k xs)) (by
      intro hmem
      rw [List.map_map] at hmem
      obtain ⟨d, hd, e⟩ := List.mem_map.1 hmem
      exact h1 d hd (hi d (by simp [hd]) (show k x.2.1 = k d from e.symm)))
  rw [List.map_append, List.map_cons]
  refine hput.trans ?_
  rw [List.map_append, List.map_cons, entryFor_snoc]
  congr 2
  · exact List.map_congr_left fun d hd => (entryFor_other k xs x (h1 d hd)).symm
  · congr 1
    exact List.map_congr_left fun d hd => (entryFor_other k xs x (h2 d hd)).symm

theorem seriesStep_known {ext : Ext} {p : Params} {s s1 : Sheet} {sps : List SParams}
    (hp : HasSeries p sps) {i : Nat} {pr : PRange} {k : Str × Time × Time} (hk : rangeKey pr = .ok k)
    {sp : SParams} (hi : sps[i]? = some sp) {nv : Str × List Num} (hg : Gives ext s [pr] sp [nv])
    (hs : Grown s s1) {bs bs' : List Bucket} (hput : putSeries nv.1 nv.2 k bs = .ok bs') :
    ∃ s2, seriesStep ext p i s1 bs = .ok (bs', s2) ∧ Grown s s2 := by
  obtain ⟨th, e, hth, he, h0, hlt, hr⟩ := hg.bounds
  have hfreq : sp.frequency ≠ [] := by
    intro h
    have := hr s (Grown.refl s)
    rw [h] at this
    cases this
  obtain ⟨x, hx⟩ := extractor_exists hfreq
  unfold seriesStep
  rw [bind_intro (typed_of_series hp hi), hx]
  dsimp only
  rw [bind_intro ((getSeries_congr ext sp hs.1).trans hg.series)]
  rw [if_neg (by simp), bind_intro hth.2, he]
  dsimp only
  have hs2 := hs.trans (grown_touchAll (seriesReads ext sp s1) s1)
  rw [bind_intro (hr _ hs2)]
  have hput' : putAll ([pr].zip [nv]) bs = .ok bs' := by
    show putAll [(pr, nv.1, nv.2)] bs = _
    unfold putAll
    rw [hk]
    dsimp only
    rw [hput]
    rfl
  rw [bind_intro hput']
  exact ⟨_, rfl, hs2.trans (grown_touchAll _ _)⟩

theorem seriesLoop_known {ext : Ext} {p : Params} {s : Sheet} {k : PRange → Str × Time × Time}
    {ds : List PRange} (hn : ds.Nodup) :
    ∀ (rest pre : List Known) (s1 : Sheet), HasSeries p ((pre ++ rest).map (·.1)) →
    (∀ x ∈ rest, rangeKey x.2.1 = .ok (k x.2.1)) → (∀ x ∈ rest, x.2.1 ∈ ds) →
    (∀ x ∈ rest, ∀ d ∈ ds, k x.2.1 = k d → x.2.1 = d) →
    (∀ x ∈ rest, Gives ext s [x.2.1] x.1 [x.2.2]) → Grown s s1 →
    ∃ s2, seriesLoop ext p (List.range' pre.length rest.length) s1 (ds.map (entryFor k pre)) =
      .ok (ds.map (entryFor k (pre ++ rest)), s2) ∧ Grown s s2
  | [], pre, s1, _, _, _, _, _, hs => ⟨s1, by rw [List.append_nil]; rfl, hs⟩
  | x :: rest, pre, s1, hp, hk, hm, hi, hg, hs => by
    rw [List.length_cons, List.range'_succ]
    unfold seriesLoop
    obtain ⟨s2, e2, hs2⟩ := seriesStep_known hp (i := pre.length) (hk x (by simp)) (sp := x.1) (by simp)
      (hg x (by simp)) hs (put_known (xs := pre) hn (hm x (by simp)) (hi x (by simp)))
    rw [e2]
    dsimp only
    obtain ⟨s3, e3, hs3⟩ := seriesLoop_known hn rest (pre ++ [x]) s2
      (by rw [List.append_assoc]; exact hp) (fun y hy => hk y (List.mem_cons_of_mem _ hy))
      (fun y hy => hm y (List.mem_cons_of_mem _ hy)) (fun y hy => hi y (List.mem_cons_of_mem _ hy))
      (fun y hy => hg y (List.mem_cons_of_mem _ hy)) hs2
    refine ⟨s3, ?_, hs3⟩
    rw [List.append_assoc] at e3
    rw [show pre ++ x :: rest = pre ++ ([x] ++ rest) from rfl, ← e3]
    congr 2
    simp

/-- Extraction when each series has one range. -/
theorem getData_known {ext : Ext} {p : Params} {s : Sheet} {k : PRange → Str × Time × Time} {xs : List Known}
    (hp : HasSeries p (xs.map (·.1))) (hne : xs ≠ []) (hk : ∀ x ∈ xs, rangeKey x.2.1 = .ok (k x.2.1))
    (hi : ∀ x ∈ xs, ∀ y ∈ xs, k x.2.1 = k y.2.1 → x.2.1 = y.2.1)
    (hg : ∀ x ∈ xs, Gives ext s [x.2.1] x.1 [x.2.2]) :
    ∃ s', getData ext p s = (framesOf ext ((xs.map fun x => x.2.1).eraseDups.map (entryFor k xs)), s') ∧
      Grown s s' := by
  unfold getData
  rw [rangeArgs_series hp]
  dsimp only [Except.bind]
  obtain ⟨s2, e2, hs2⟩ := bucketLoop_known (p := p) (k := k) (by
      rw [hp .timeMulticolumn]
      unfold PVal.truthy
      simpa using hne) xs [] s (Grown.refl s) hk (by
      intro x hx d hd
      rcases hd with hd | hd
      · cases hd
      · obtain ⟨y, hy, rfl⟩ := List.mem_map.1 hd
        exact hi x hx y hy) hg
  rw [List.map_map]
  rw [List.map_nil] at e2
  have e2' := e2
  rw [eraseDups_foldl, List.nil_append, List.filter_eq_self.2 (by simp)] at e2'
  rw [show (argsOf ∘ fun x : Known => x.1) = fun x => argsOf x.1 from rfl, e2']
  dsimp only
  have hl : Params.len (p .headersCoord) = .ok xs.length := by
    rw [hp .headersCoord]
    unfold Params.len
    simp
  rw [hl]
  dsimp only
  rw [List.range_eq_range']
  have hmem : ∀ d, d ∈ (xs.map fun x => x.2.1).eraseDups ↔ ∃ x ∈ xs, x.2.1 = d := by
    intro d
    rw [List.mem_eraseDups, List.mem_map]
  obtain ⟨s3, e3, hs3⟩ := seriesLoop_known (p := p) (k := k) (s := s) (ds := (xs.map fun x => x.2.1).eraseDups)
    (eraseDups_distinct _) xs [] s2 hp hk (fun x hx => (hmem _).2 ⟨x, hx, rfl⟩) (by
      intro x hx d hd e
      obtain ⟨y, hy, rfl⟩ := (hmem d).1 hd
      exact hi x hx y hy e) hg hs2
  rw [List.length_nil, List.nil_append] at e3
  rw [e3]
  exact ⟨s3, rfl, hs3⟩

/-! ### Reading on a sheet with other cells changed -/

/-- The sheets agree on the cells a series is made of. -/
def AgreeOn (m : Member) (s s' : Sheet) : Prop := ∀ r c, m.UsesCell r c → s'.cells r c = s.cells r c

theorem read_single {ext : Ext} {sp : SParams} {s : Sheet} {th : Str} {tr tc : Int} (hth : sp.timeHeader = .single th)
    (hc : coordOf th = .ok (tr, tc)) (pos : Int) : readCell ext sp s pos = timeCell s sp.alignment tr tc pos := by
  unfold readCell cellBeside
  rw [hth]
  dsimp only
  rw [hc]

theorem header_single {sp : SParams} {th : Str} {tr tc : Int} (hth : sp.timeHeader = .single th)
    (h : TimeHeaderAt sp tr tc) : coordOf th = .ok (tr, tc) := by
  have := h.first
  unfold HeaderAt at this
  rw [hth] at this
  exact this

theorem AgreeOn.line {m : Member} {s s' : Sheet} (h : AgreeOn m s s') {pos : Int} (h1 : m.table.start ≤ pos)
    (h2 : pos ≤ m.table.last + gapLimit m.sp + 1) :
    timeCell s' m.table.al m.table.tr m.table.tc pos = timeCell s m.table.al m.table.tr m.table.tc pos :=
  h _ _ (.inl ⟨pos, h1, h2, rfl, rfl⟩)

theorem lastPosition_wider {sp : SParams} {s s' : Sheet} (h : Wider s s') :
    lastPosition sp s ≤ lastPosition sp s' := by
  unfold lastPosition
  obtain ⟨h1, h2⟩ := h
  split
  · split
    · exact Int.le_refl _
    · split <;> assumption
  · split <;> assumption

theorem lastPosition_given {sp : SParams} {s s' : Sheet} (h : EndGiven sp) : lastPosition sp s' = lastPosition sp s := by
  unfold lastPosition
  obtain ⟨h1, h2⟩ := h
  split
  next e he =>
    rw [if_pos (fun e0 => h2 (by rw [he, e0])), if_pos (fun e0 => h2 (by rw [he, e0]))]
  next he => exact absurd he h1

/-- The time index of a table is read the same where other cells have changed and the marks have grown. -/
theorem table_agree {ext : Ext} {m : Member} {s s' : Sheet} (hb : BelongsTo m.sp m.table)
    (ht : TimeTable ext m.sp s m.table.style m.table.tr m.table.tc m.table.last m.table.ots)
    (hends : m.table.al = .vertical ∨ EndGiven m.sp) (hout : ∀ r c : Int, s.maxRow < r → s.cells r c = .none)
    (ha : AgreeOn m s s') (hw : Wider s s') :
    TimeTable ext m.sp s' m.table.style m.table.tr m.table.tc m.table.last m.table.ots := by
  have hc := header_single hb.header ht.header
  have hread : ∀ pos, m.table.start ≤ pos → pos ≤ m.table.last + gapLimit m.sp + 1 →
      readCell ext m.sp s' pos = readCell ext m.sp s pos := by
    intro pos h1 h2
    rw [read_single hb.header hc, read_single hb.header hc, hb.alignment]
    exact ha.line h1 h2
  refine { ht with reads := ?_, plain := ?_, within := ?_, after := ?_ }
  · have : readsAlong ext m.sp s' m.sp.dataStarts m.table.last = readsAlong ext m.sp s m.sp.dataStarts m.table.last := by
      unfold readsAlong
      refine List.map_congr_left fun i hi => ?_
      have hi := List.mem_range.1 hi
      rw [hb.starts] at hi ⊢
      exact hread _ (by omega) (by omega)
    rw [this]
    exact ht.reads
  · intro pos _ _ coords hcs
    rw [hb.header] at hcs
    cases hcs
  · exact Int.le_trans ht.within (lastPosition_wider hw)
  · rcases hends with hv | hg
    · refine .inr ⟨hb.alignment.trans hv, ?_⟩
      intro pos h1 h2 h3
      have htwo := ht.two
      rw [hb.starts] at htwo
      rw [hread pos (by omega) (by omega)]
      by_cases hp : pos ≤ lastPosition m.sp s
      · rcases ht.after with he | ⟨_, hb'⟩
        · omega
        · exact hb' pos h1 hp h3
      · by_cases hg : EndGiven m.sp
        · rw [lastPosition_given hg] at h2
          exact absurd h2 hp
        · have hrow : lastPosition m.sp s = s.maxRow := by
            have hal : m.sp.alignment = .vertical := hb.alignment.trans hv
            unfold lastPosition
            split
            next e he =>
              by_cases h0 : e = 0
              · rw [if_neg (by simpa using h0), if_pos hal]
              · exact absurd ⟨by rw [he]; simp, by rw [he]; simpa using h0⟩ hg
            next => rw [if_pos hal]
          rw [read_single hb.header hc, hb.alignment, hv]
          unfold timeCell rowOf colOf
          rw [if_pos rfl, hout _ _ (by omega)]
          trivial
    · rw [lastPosition_given hg]
      rcases ht.after with he | ⟨hal, hb'⟩
      · exact .inl he
      · refine .inr ⟨hal, ?_⟩
        intro pos h1 h2 h3
        have htwo := ht.two
        rw [hb.starts] at htwo
        rw [hread pos (by omega) (by omega)]
        exact hb' pos h1 h2 h3

theorem name_agree {ext : Ext} {m : Member} {s s' : Sheet} (ha : AgreeOn m s s') {name : Str}
    (h : NameIs ext m.sp s name) : NameIs ext m.sp s' name := by
  have hcell : ∀ coord ∈ m.sp.headerCoord :: m.sp.composedHeaders.getD [], ∀ r c, coordOf coord = .ok (r, c) →
      s'.cells r c = s.cells r c := fun coord hm r c hrc => ha r c (.inr (.inl ⟨coord, hm, hrc⟩))
  cases h with
  | given h1 h2 => exact .given h1 h2
  | @composed r c texts h1 h2 h3 =>
    have key : ∀ {cs : List Str} {ts : List Str},
        List.Forall₂ (fun coord t => ∃ r c, coordOf coord = .ok (r, c) ∧ s.cells r c = .str t) cs ts →
        (∀ x ∈ cs, x ∈ m.sp.headerCoord :: m.sp.composedHeaders.getD []) →
        List.Forall₂ (fun coord t => ∃ r c, coordOf coord = .ok (r, c) ∧ s'.cells r c = .str t) cs ts := by
      intro cs ts hf
      induction hf with
      | nil => intro _; exact .nil
      | @cons a b as bs q1 q2 ih =>
        intro hm
        refine .cons ?_ (ih fun x hx => hm x (List.mem_cons_of_mem _ hx))
        obtain ⟨r, c, q3, q4⟩ := q1
        exact ⟨r, c, q3, by rw [hcell a (hm a (by simp)) r c q3]; exact q4⟩
    have := NameIs.composed (ext := ext) (s := s') h1 h2 (key h3 fun x hx => List.mem_cons_of_mem _ hx)
    rw [hcell _ (by simp) r c h2] at this
    exact this

theorem series_agree {ext : Ext} {m : Member} {s s' : Sheet} (hb : BelongsTo m.sp m.table) (ha : AgreeOn m s s')
    {tr tc : Int} {ots : List (Option Time)} {grid : List Time} {name : Str} {xs : List Num}
    (h : SeriesOn ext s tr tc m.table.last ots grid m.sp name xs) :
    SeriesOn ext s' tr tc m.table.last ots grid m.sp name xs := by
  obtain ⟨hr, hc, h1, h2⟩ := h.cells
  refine { h with cells := ⟨hr, hc, h1, ?_⟩, name := name_agree ha h.name }
  have : cellsAlong s' m.sp.alignment hr hc m.sp.dataStarts m.table.last =
      cellsAlong s m.sp.alignment hr hc m.sp.dataStarts m.table.last := by
    unfold cellsAlong
    refine List.map_congr_left fun i hi => ?_
    have hi := List.mem_range.1 hi
    rw [hb.starts] at hi ⊢
    rw [hb.alignment]
    exact ha _ _ (.inr (.inr ⟨hr, hc, _, h1, by omega, by omega, rfl, rfl⟩))
  rw [this]
  exact h2

/-! ### Cleaning -/

/-- What is known while cleaning: the dates of the tables of `ms` are written, the marks have grown. -/
structure Cleaned (s s' : Sheet) (ms : List Member) : Prop extends AllDatesWritten s s' ms where
  wider : Wider s s'

/-- A series of which nothing is written into its cells for the tables of `ms`. -/
theorem Cleaned.agree {s s' : Sheet} {ms : List Member} (h : Cleaned s s' ms) {m : Member}
    (ha : ∀ m' ∈ ms, ∀ r c, m'.table.Dated r c → ¬ m.UsesCell r c) : AgreeOn m s s' :=
  fun r c hu => h.others r c fun m' hm' hd => ha m' hm' r c hd hu

theorem dated_uses {ext : Ext} {m : Member} {s : Sheet} {sp : SParams} (hst : sp.dataStarts = m.table.start)
    (ht : TimeTable ext sp s m.table.style m.table.tr m.table.tc m.table.last m.table.ots) {r c : Int}
    (hd : m.table.Dated r c) : m.UsesCell r c := by
  obtain ⟨i, d, h1, h2⟩ := hd
  have hl : m.table.ots.length = (m.table.last + 1 - m.table.start).toNat := by
    rw [ht.reads.length, readsAlong_length, hst]
  have hi := (List.getElem?_eq_some_iff.1 h1).1
  exact .inl ⟨_, by omega, by omega, h2⟩

theorem first_member (ms : List Member) : ∀ m ∈ ms, ∃ pre m0 post, ms = pre ++ m0 :: post ∧ m0.table = m.table ∧
    ∀ x ∈ pre, x.table ≠ m0.table := by
  induction ms with
  | nil => intro m hm; cases hm
  | cons a ms ih =>
    intro m hm
    by_cases h : a.table = m.table
    · exact ⟨[], a, ms, rfl, h, by simp⟩
    · rcases List.mem_cons.1 hm with rfl | hm
      · exact absurd rfl h
      · obtain ⟨pre, m0, post, e, h1, h2⟩ := ih m hm
        refine ⟨a :: pre, m0, post, by rw [e]; rfl, h1, ?_⟩
        intro x hx
        rcases List.mem_cons.1 hx with rfl | hx
        · rw [h1]; exact h
        · exact h2 x hx

/-- The ends known so far: those of the tables of `ms`. -/
structure EndsOf (ends : List (Str × Int)) (ms : List Member) : Prop where
  known : ∀ m ∈ ms, endOf ends m.table.header = some m.table.last
  unknown : ∀ th, (∀ m ∈ ms, m.table.header ≠ th) → endOf ends th = none

theorem endOf_snoc (ends : List (Str × Int)) (h : Str) (e : Int) (th : Str) :
    endOf (ends ++ [(h, e)]) th = match endOf ends th with
      | some x => some x
      | none => if h = th then some e else none := by
  unfold endOf
  rw [List.find?_append]
  cases hf : ends.find? fun kv => decide (kv.1 = th) with
  | some x => rfl
  | none =>
    by_cases hh : h = th
    · simp [hh]
    · simp [hh]

theorem EndsOf.snoc_known {ends : List (Str × Int)} {ms : List Member} (h : EndsOf ends ms) {m m' : Member}
    (hm : m' ∈ ms) (he : m'.table = m.table) : EndsOf ends (ms ++ [m]) where
  known := by
    intro x hx
    rcases List.mem_append.1 hx with hx | hx
    · exact h.known x hx
    · rw [List.mem_singleton.1 hx, ← he]; exact h.known m' hm
  unknown := fun th ht => h.unknown th fun x hx => ht x (by simp [hx])

theorem EndsOf.snoc_new {ends : List (Str × Int)} {ms : List Member} (h : EndsOf ends ms) {m : Member}
    (hn : ∀ x ∈ ms, x.table.header ≠ m.table.header) :
    EndsOf (ends ++ [(m.table.header, m.table.last)]) (ms ++ [m]) where
  known := by
    intro x hx
    rw [endOf_snoc]
    rcases List.mem_append.1 hx with hx | hx
    · rw [h.known x hx]
    · rw [List.mem_singleton.1 hx, h.unknown _ hn]
      simp
  unknown := by
    intro th ht
    rw [endOf_snoc, h.unknown th fun x hx => ht x (by simp [hx])]
    dsimp only
    rw [if_neg (ht m (by simp))]

/-- A series with the end found. -/
def Spec.Member.ended (m : Member) : SParams := endingAt m.table.last m.sp

theorem clean_next {ext : Ext} {s sk : Sheet} {ms pre post : List Member} {m : Member} (h : TablesOn ext s ms)
    (hends : EndsKnown ms) (hout : ∀ r c : Int, s.maxRow < r → s.cells r c = .none)
    (hms : ms = pre ++ m :: post) (hnew : ∀ x ∈ pre, x.table ≠ m.table) (hc : Cleaned s sk pre) :
    ∃ s1, cleanTimeIndex ext m.sp sk = (.ok m.table.last, s1) ∧ Cleaned s s1 (pre ++ [m]) := by
  have hm : m ∈ ms := by rw [hms]; simp
  have hpre : ∀ x ∈ pre, x ∈ ms := fun x hx => by rw [hms]; simp [hx]
  obtain ⟨ht, hg⟩ := h.index pre m post hms hnew
  have hb := h.belong m hm
  have hagree : AgreeOn m s sk := hc.agree fun m' hm' r c hd => h.apart m' (hpre m' hm') m hm (hnew m' hm') r c hd
  have ht' := table_agree hb ht (hends m hm) hout hagree hc.wider
  obtain ⟨_, hlen, _⟩ := notY_of_periods hg
  obtain ⟨s1, e, hw⟩ := clean_table ht' hlen (progresses_of hg)
  have hwide := wider_clean ext m.sp sk
  rw [e] at hwide
  rw [hb.alignment, hb.starts] at hw
  refine ⟨s1, e, ⟨⟨?_, ?_⟩, hc.wider.trans hwide⟩⟩
  · intro x hx i d hd
    rcases List.mem_append.1 hx with hx | hx
    · have hdx : x.table.Dated (rowOf x.table.al x.table.tr (x.table.start + i))
          (colOf x.table.al x.table.tc (x.table.start + i)) := ⟨i, d, hd, rfl, rfl⟩
      have hnot := h.apart x (hpre x hx) m hm (hnew x hx) _ _ hdx
      rw [← hc.dates x hx i d hd]
      unfold timeCell
      exact hw.others _ _ fun j t hj hat => hnot (dated_uses hb.starts ht ⟨j, t, hj, hat⟩)
    · rw [List.mem_singleton.1 hx] at hd ⊢
      exact hw.dates i d hd
  · intro r c hrc
    rw [hw.others r c fun j t hj hat => hrc m (by simp) ⟨j, t, hj, hat⟩]
    exact hc.others r c fun x hx => hrc x (by simp [hx])

theorem Cleaned.again {s sk : Sheet} {ms : List Member} (h : Cleaned s sk ms) {m m' : Member} (hm : m' ∈ ms)
    (he : m'.table = m.table) : Cleaned s sk (ms ++ [m]) := by
  refine ⟨⟨?_, ?_⟩, h.wider⟩
  · intro x hx
    rcases List.mem_append.1 hx with hx | hx
    · exact h.dates x hx
    · rw [List.mem_singleton.1 hx, ← he]; exact h.dates m' hm
  · exact fun r c hrc => h.others r c fun x hx => hrc x (by simp [hx])

/-- The end of the index of a table is not zero. -/
theorem last_ne_zero {ext : Ext} {s : Sheet} {ms : List Member} (h : TablesOn ext s ms) {m : Member} (hm : m ∈ ms) :
    m.table.last ≠ 0 := by
  obtain ⟨q1, m0, q2, e0, e1, e2⟩ := first_member ms m hm
  have := (h.index q1 m0 q2 e0 e2).1
  have a1 := this.two
  have a2 := this.starts
  rw [e1] at a1
  omega

/-- The round of a series whose index, if new, is cleaned. -/
theorem cleanSeries_round {ext : Ext} {s : Sheet} {ms : List Member} (h : TablesOn ext s ms) {pre post : List Member}
    {m : Member} {p : Params} {sk : Sheet} {ends : List (Str × Int)} (hms : ms = pre ++ m :: post)
    (hp : HasSeries p (pre.map Member.ended ++ (m :: post).map Member.sp)) (hc : Cleaned s sk pre)
    (he : EndsOf ends pre)
    (hgood : (∀ x ∈ pre, x.table ≠ m.table) →
      ∃ s1, cleanTimeIndex ext m.sp sk = (.ok m.table.last, s1) ∧ Cleaned s s1 (pre ++ [m])) (is : List Nat) :
    ∃ p' s1 ends', cleanSeries ext (pre.length :: is) p sk ends = cleanSeries ext is p' s1 ends' ∧
      HasSeries p' ((pre ++ [m]).map Member.ended ++ post.map Member.sp) ∧ Cleaned s s1 (pre ++ [m]) ∧
      EndsOf ends' (pre ++ [m]) ∧ Wider sk s1 ∧
      ((∀ x ∈ pre, x.table ≠ m.table) → s1 = (cleanTimeIndex ext m.sp sk).2) := by
  have hm : m ∈ ms := by rw [hms]; simp
  have hpre : ∀ x ∈ pre, x ∈ ms := fun x hx => by rw [hms]; simp [hx]
  have hi : (pre.map Member.ended ++ (m :: post).map Member.sp)[pre.length]? = some m.sp := by
    rw [List.getElem?_append_right (by simp)]
    simp
  -- one step, whether or not the table was cleaned before
  have hstep : ∃ s1 ends', cleanOnce ext p sk ends pre.length m.table.header =
      (.ok (m.table.last, ends'), s1) ∧ Cleaned s s1 (pre ++ [m]) ∧ EndsOf ends' (pre ++ [m]) ∧ Wider sk s1 ∧
      ((∀ x ∈ pre, x.table ≠ m.table) → s1 = (cleanTimeIndex ext m.sp sk).2) := by
    unfold cleanOnce
    by_cases hk : ∃ x ∈ pre, x.table.header = m.table.header
    · obtain ⟨x, hx, hxe⟩ := hk
      have hxt := h.oneHeader x (hpre x hx) m hm hxe
      rw [← hxe, he.known x hx, hxt]
      exact ⟨sk, ends, rfl, hc.again hx hxt, he.snoc_known hx hxt, Wider.refl sk, fun hn => absurd hxt (hn x hx)⟩
    · have hn : ∀ x ∈ pre, x.table.header ≠ m.table.header := fun x hx e => hk ⟨x, hx, e⟩
      obtain ⟨s1, e1, hc1⟩ := hgood fun x hx e => hn x hx (by rw [e])
      rw [he.unknown _ hn]
      dsimp only
      rw [typed_of_series hp hi]
      dsimp only
      rw [e1]
      dsimp only
      rw [if_neg (last_ne_zero h hm)]
      have hwide := wider_clean ext m.sp sk
      rw [e1] at hwide
      exact ⟨s1, _, rfl, hc1, he.snoc_new hn, hwide, fun _ => rfl⟩
  obtain ⟨s1, ends', e1, hc1, he1, hw1, hs1⟩ := hstep
  have hset := setEnd_series (pre := pre.map Member.ended) (sp := m.sp) (post := post.map Member.sp) m.table.last hp
  rw [List.length_map] at hset
  refine ⟨_, s1, ends', ?_, by rw [List.map_append, List.append_assoc]; exact hset, hc1, he1, hw1, hs1⟩
  conv => lhs; unfold cleanSeries
  rw [header_of_series hp hi (h.belong m hm).header]
  dsimp only
  rw [e1]
  dsimp only
  rw [index_of_series hp .dataEnds hi]

/-- The rounds of the series `mid`. -/
theorem cleanSeries_rounds {ext : Ext} {s : Sheet} {ms : List Member} (h : TablesOn ext s ms) (post : List Member) :
    ∀ (mid pre : List Member) (p : Params) (sk : Sheet) (ends : List (Str × Int)), ms = pre ++ (mid ++ post) →
    (∀ q m r sk', mid = q ++ m :: r → (∀ x ∈ pre ++ q, x.table ≠ m.table) → Cleaned s sk' (pre ++ q) →
      ∃ s1, cleanTimeIndex ext m.sp sk' = (.ok m.table.last, s1) ∧ Cleaned s s1 (pre ++ q ++ [m])) →
    HasSeries p (pre.map Member.ended ++ (mid ++ post).map Member.sp) → Cleaned s sk pre → EndsOf ends pre →
    ∃ p' s' ends', cleanSeries ext (List.range' pre.length (mid ++ post).length) p sk ends =
        cleanSeries ext (List.range' (pre ++ mid).length post.length) p' s' ends' ∧
      HasSeries p' ((pre ++ mid).map Member.ended ++ post.map Member.sp) ∧ Cleaned s s' (pre ++ mid) ∧
      EndsOf ends' (pre ++ mid) ∧ Wider sk s'
  | [], pre, p, sk, ends, _, _, hp, hc, he =>
    ⟨p, sk, ends, by rw [List.append_nil]; rfl, by rw [List.append_nil]; exact hp, by rw [List.append_nil]; exact hc,
      by rw [List.append_nil]; exact he, Wider.refl sk⟩
  | m :: mid, pre, p, sk, ends, hms, hgood, hp, hc, he => by
    rw [List.cons_append] at hms hp ⊢
    obtain ⟨p1, s1, ends1, e1, h1, hc1, he1, hw1, _⟩ := cleanSeries_round h hms hp hc he (fun hn => by
      have := hgood [] m mid sk rfl (by simpa using hn) (by simpa using hc)
      simpa using this) (List.range' (pre.length + 1) (mid ++ post).length)
    obtain ⟨p2, s2, ends2, e2, h2, hc2, he2, hw2⟩ := cleanSeries_rounds h post mid (pre ++ [m]) p1 s1 ends1
      (by rw [hms]; simp) (by
        intro q x r sk' hq hn hcq
        have := hgood (m :: q) x r sk' (by rw [hq]; rfl) (by simpa using hn) (by simpa using hcq)
        simpa using this) h1 hc1 he1
    rw [List.append_assoc, List.singleton_append] at h2 hc2 he2
    refine ⟨p2, s2, ends2, ?_, h2, hc2, he2, hw1.trans hw2⟩
    rw [List.length_cons, List.range'_succ, e1]
    rw [List.length_append, List.length_singleton] at e2
    rw [e2]
    congr 2
    simp

theorem cleanSeries_tables {ext : Ext} {s : Sheet} {ms : List Member} (h : TablesOn ext s ms)
    (hends : EndsKnown ms) (hout : ∀ r c : Int, s.maxRow < r → s.cells r c = .none) {p : Params}
    (hp : HasSeries p (ms.map Member.sp)) :
    ∃ p' s', cleanSeries ext (List.range ms.length) p s [] = (.ok (), p', s') ∧
      HasSeries p' (ms.map Member.ended) ∧ Cleaned s s' ms := by
  obtain ⟨p', s', ends', e, h1, h2, _, _⟩ := cleanSeries_rounds h [] ms [] p s [] (by simp) (by
      intro q m r sk hq hn hc
      rw [List.nil_append] at hn hc ⊢
      exact clean_next h hends hout hq hn hc) (by simpa using hp)
    ⟨⟨by simp, fun _ _ _ => rfl⟩, Wider.refl s⟩ ⟨by simp, fun _ _ => rfl⟩
  rw [List.nil_append, List.map_nil, List.append_nil] at h1
  rw [List.nil_append] at h2
  refine ⟨p', s', ?_, h1, h2⟩
  rw [List.append_nil, List.length_nil] at e
  rw [List.range_eq_range', e]
  rfl

/-- Cleaning of single column time indexes is the loop over the series. -/
theorem cleanData_single {ext : Ext} {s : Sheet} {ms : List Member} (h : TablesOn ext s ms) (hne : ms ≠ [])
    {p : Params} (hp : HasSeries p (ms.map Member.sp)) :
    cleanData ext p s = cleanSeries ext (List.range ms.length) p s [] := by
  obtain ⟨m, rest, rfl⟩ := List.exists_cons_of_ne_nil hne
  unfold cleanData
  have hi : ((m :: rest).map Member.sp)[0]? = some m.sp := rfl
  rw [index_of_series hp .timeMulticolumn hi]
  dsimp only
  rw [if_neg (by
    show ¬ PVal.truthy (.bool m.sp.timeMulticolumn) = true
    rw [(h.belong m (by simp)).oneColumn]; unfold PVal.truthy; decide)]
  have h2 : Params.len (p .timeHeaderCoord) = .ok (m :: rest).length := by
    rw [hp .timeHeaderCoord]
    unfold Params.len
    simp
  rw [h2]

theorem cleanData_tables {ext : Ext} {s : Sheet} {ms : List Member} (h : TablesOn ext s ms) (hne : ms ≠ [])
    (hends : EndsKnown ms) (hout : ∀ r c : Int, s.maxRow < r → s.cells r c = .none) {p : Params}
    (hp : HasSeries p (ms.map Member.sp)) :
    ∃ p' s', cleanData ext p s = (.ok (), p', s') ∧ HasSeries p' (ms.map Member.ended) ∧ Cleaned s s' ms := by
  rw [cleanData_single h hne hp]
  exact cleanSeries_tables h hends hout hp

/-! ### Extraction of the tables -/

/-- A grid of periods is known by its frequency, its first and its last period. -/
theorem grid_unique {sp sp' : SParams} {g g' ts ts' : List Time} (h : OnPeriods sp g ts) (h' : OnPeriods sp' g' ts')
    (hf : sp'.frequency = sp.frequency) {a z : Time} (ha : g.head? = some a) (ha' : g'.head? = some a)
    (hz : g.getLast? = some z) (hz' : g'.getLast? = some z) (ext : Ext) : g' = g := by
  have hc : coordOf c!"A1" = .ok (1, 1) := by decide
  let s : Sheet := ⟨[], fun r _ => if r = 1 then .dt a else .dt z, 2, 1⟩
  have e1 := C60_index_of_periods ext (s := s) (al := .vertical) (starts := 1) (ends := 2) (ta := 0) (.inl rfl) hc
    (by decide) (by decide) rfl rfl (h.start a ha) ha hz h.run h.valid
    (h.representable a (List.mem_of_head? ha)) (h.representable z (List.mem_of_getLast? hz))
  have e2 := C60_index_of_periods ext (s := s) (al := .vertical) (starts := 1) (ends := 2) (ta := 0) (.inl rfl) hc
    (by decide) (by decide) rfl rfl (h'.start a ha') ha' hz' h'.run h'.valid
    (h'.representable a (List.mem_of_head? ha')) (h'.representable z (List.mem_of_getLast? hz'))
  rw [hf, e1] at e2
  injection e2 with e2
  injection e2 with e2 _
  injection e2 with _ e2
  exact e2.symm

theorem indexFreq_letters {f g : Str} (hf : f ∈ [c!"A", c!"Q", c!"M", c!"W", c!"D"] ∨ f = c!"S")
    (hg : g ∈ [c!"A", c!"Q", c!"M", c!"W", c!"D"] ∨ g = c!"S") (h : indexFreq f = indexFreq g) : f = g := by
  simp only [List.mem_cons, List.not_mem_nil, or_false] at hf hg
  rcases hf with (rfl | rfl | rfl | rfl | rfl) | rfl <;> rcases hg with (rfl | rfl | rfl | rfl | rfl) | rfl <;>
    first | rfl | exact absurd h (by decide)

/-- The key of a range that has one. -/
def keyOf (pr : PRange) : Str × Time × Time :=
  match rangeKey pr with
  | .ok k => k
  | .error _ => ([], ⟨1, 1, 1, 0⟩, ⟨1, 1, 1, 0⟩)

/-- First and last period of a table. -/
theorem grid_bounds {ext : Ext} {sp : SParams} {s : Sheet} {style : Style} {tr tc last : Int}
    {ots : List (Option Time)} {grid : List Time} (ht : TimeTable ext sp s style tr tc last ots)
    (hg : OnPeriods sp grid (ots.filterMap id)) : ∃ a z, ots.head? = some (some a) ∧ ots.getLast? = some (some z) ∧
      grid.head? = some a ∧ grid.getLast? = some z := by
  obtain ⟨a, ha⟩ := ht.first
  obtain ⟨z, hz⟩ := ht.ends
  refine ⟨a, z, ha, hz, ?_, ?_⟩
  · rw [← hg.first]
    cases ots with
    | nil => cases ha
    | cons o os => cases ha; rfl
  · rw [← hg.last]
    obtain ⟨l', rfl⟩ := List.getLast?_eq_some_iff.1 hz
    rw [List.filterMap_append]
    simp

open Classical in
/-- The sheet after cleaning, without the dates of one table. -/
noncomputable def without (t : DateTable) (s s' : Sheet) : Sheet :=
  { s' with cells := fun r c => if t.Dated r c then s.cells r c else s'.cells r c }

open Classical in
theorem gives_table {ext : Ext} {s s' : Sheet} {ms : List Member} (h : TablesOn ext s ms)
    (hends : EndsKnown ms) (hout : ∀ r c : Int, s.maxRow < r → s.cells r c = .none) (hc : Cleaned s s' ms)
    {m : Member} (hm : m ∈ ms) : Gives ext s' [m.index] m.ended [(m.name, m.values)] := by
  obtain ⟨pre, m0, post, hms, htab, hnew⟩ := first_member ms m hm
  have hm0 : m0 ∈ ms := by rw [hms]; simp
  obtain ⟨ht, hg⟩ := h.index pre m0 post hms hnew
  have hb := h.belong m hm
  have hb0 := h.belong m0 hm0
  have hser := h.series m hm
  -- the sheet without the dates of this table
  have hagree : ∀ x ∈ ms, x.table = m.table → AgreeOn x s (without m.table s s') := by
    intro x hx hxt r c hu
    show (if m.table.Dated r c then s.cells r c else s'.cells r c) = _
    by_cases hd : m.table.Dated r c
    · rw [if_pos hd]
    · rw [if_neg hd]
      refine hc.others r c fun y hy hyd => ?_
      by_cases hyt : y.table = m.table
      · exact hd (hyt ▸ hyd)
      · exact h.apart y hy x hx (by rw [hxt]; exact hyt) r c hyd hu
  have hw0 : Wider s (without m.table s s') := hc.wider
  have ht' := table_agree hb0 ht (hends m0 hm0) hout (hagree m0 hm0 htab) hw0
  rw [htab] at ht' ht hg
  have hwritten : DatesWritten (without m.table s s') s' m0.sp.alignment m.table.tr m.table.tc m0.sp.dataStarts
      m.table.ots := by
    rw [hb0.alignment, hb0.starts, htab]
    refine ⟨fun i t hi => hc.dates m hm i t hi, ?_⟩
    intro r c hrc
    show _ = (if m.table.Dated r c then s.cells r c else s'.cells r c)
    rw [if_neg (fun ⟨i, t, h1, h2⟩ => hrc i t h1 h2)]
  have hhead : TimeHeaderAt m.sp m.table.tr m.table.tc := by
    refine ht.header.congr (by rw [hb.header, hb0.header, htab]) (by rw [hb.oneColumn, hb0.oneColumn])
  have hcoord := header_single hb.header hhead
  have htwo := ht.two
  have hstarts := ht.starts
  rw [hb0.starts, htab] at htwo hstarts
  have hfr : m.sp.frequency = m0.sp.frequency := by rw [hb.frequency, hb0.frequency, htab]
  obtain ⟨a, z, ha, hz, ha', hz'⟩ := grid_bounds ht hg
  have hxne : m.values ≠ [] := by
    intro he
    have := hser.size
    rw [he] at this
    rw [List.eq_nil_of_length_eq_zero this.symm] at ha'
    cases ha'
  have hV := values_table ht' hg hwritten hhead hfr (by rw [hb.starts, hb0.starts, htab]) hb.offset
    (by rw [hb.alignment, hb0.alignment, htab]) (series_agree hb (hagree m hm rfl) hser.toSeriesOn) hxne
  have hends' : m.ended.dataEnds = some m.table.last := by
    unfold Member.ended
    rw [endingAt_ends]
    rcases hser.ends with e | e | e <;> rw [e] <;> dsimp only
    · rw [if_pos rfl]
    · split <;> rfl
  have he : m.ended = { m.sp with dataEnds := m.ended.dataEnds } := endingAt_same m.table.last m.sp
  have hlen : m.table.ots.length = (m.table.last + 1 - m.table.start).toNat := by
    rw [ht.reads.length, readsAlong_length, hb0.starts, htab]
  have hone : singleHeader true m.sp.timeHeader = .ok m.table.header ∧
      singleHeader m.sp.timeMulticolumn m.sp.timeHeader = .ok m.table.header := by
    rw [hb.header]; exact ⟨rfl, rfl⟩
  refine ⟨⟨m.table.header, m.table.last, ?_, hends', by omega, ?_, ?_⟩, hV, rfl, by simp⟩
  · rw [he]; exact hone
  · rw [he]
    show m.sp.dataStarts < _
    rw [hb.starts]; exact htwo
  · intro s'' hgr
    rw [he]
    show seriesRanges ext s'' m.sp.frequency m.sp.dataStarts m.table.header m.table.last m.sp.timeAlignment
      m.sp.alignment = _
    have hcell : ∀ (i : Nat) (t : Time), m.table.ots[i]? = some (some t) →
        timeCell s'' m.table.al m.table.tr m.table.tc (m.table.start + i) = .dt t := by
      intro i t hi
      have := hc.dates m hm i t hi
      unfold timeCell at this ⊢
      rw [hgr.1]; exact this
    rw [hfr, hb.starts, hb.offset, hb.alignment]
    have hfreq : m0.sp.frequency = m.table.freq := by rw [hb0.frequency, htab]
    unfold Member.index
    rw [← hfreq]
    refine C60_index_of_periods ext ?_ hcoord (by omega) (by omega) (a := a) (z := z) ?_ ?_ (hg.start a ha') ha' hz'
      hg.run hg.valid (hg.representable a (List.mem_of_head? ha')) (hg.representable z (List.mem_of_getLast? hz'))
    · have := ht.aligned
      rw [hb0.alignment, htab] at this
      exact this
    · have := hcell 0 a (by rw [← List.head?_eq_getElem?]; exact ha)
      simpa using this
    · have := hcell (m.table.ots.length - 1) z (by rw [← List.getLast?_eq_getElem?]; exact hz)
      rw [show m.table.start + ((m.table.ots.length - 1 : Nat) : Int) = m.table.last + 0 by omega] at this
      exact this

/-- Cleaning and extraction of several tables. -/
theorem scrape_tables {ext : Ext} {s : Sheet} {ms : List Member} (h : TablesOn ext s ms) (hne : ms ≠ [])
    (hends : EndsKnown ms) (hout : ∀ r c : Int, s.maxRow < r → s.cells r c = .none) {p : Params}
    (hp : HasSeries p (ms.map Member.sp)) :
    ∃ frames p' s', scrape ext p s = (.ok frames, p', s') ∧ FramesOfTables ms frames ∧
      HasSeries p' (ms.map fun m => endingAt m.table.last m.sp) ∧ AllDatesWritten s s' ms := by
  obtain ⟨p', s1, e1, hp', hc⟩ := cleanData_tables h hne hends hout hp
  have hbounds : ∀ m ∈ ms, ∃ m0 ∈ ms, m0.table = m.table ∧ OnPeriods m0.sp m.table.grid (m.table.ots.filterMap id) ∧
      ∃ a z, m.table.grid.head? = some a ∧ m.table.grid.getLast? = some z := by
    intro m hm
    obtain ⟨pre, m0, post, hms, htab, hnew⟩ := first_member ms m hm
    have hm0 : m0 ∈ ms := by rw [hms]; simp
    obtain ⟨ht, hg⟩ := h.index pre m0 post hms hnew
    rw [htab] at ht hg
    obtain ⟨a, z, _, _, h1, h2⟩ := grid_bounds ht hg
    exact ⟨m0, hm0, htab, hg, a, z, h1, h2⟩
  have hkey : ∀ m ∈ ms, ∀ a z, m.table.grid.head? = some a → m.table.grid.getLast? = some z →
      rangeKey m.index = .ok (indexFreq m.table.freq, a, z) := by
    intro m _ a z ha hz
    unfold rangeKey Member.index
    dsimp only
    rw [ha, hz]
  have hk : ∀ m ∈ ms, rangeKey m.index = .ok (keyOf m.index) := by
    intro m hm
    obtain ⟨_, _, _, _, a, z, ha, hz⟩ := hbounds m hm
    unfold keyOf
    rw [hkey m hm a z ha hz]
  have hi : ∀ m ∈ ms, ∀ m' ∈ ms, keyOf m.index = keyOf m'.index → m.index = m'.index := by
    intro m hm m' hm' e
    obtain ⟨m0, hm0, ht0, hg, a, z, ha, hz⟩ := hbounds m hm
    obtain ⟨m1, hm1, ht1, hg', a', z', ha', hz'⟩ := hbounds m' hm'
    have k1 := hk m hm
    have k2 := hk m' hm'
    rw [hkey m hm a z ha hz] at k1
    rw [hkey m' hm' a' z' ha' hz'] at k2
    rw [← Except.ok.inj k1, ← Except.ok.inj k2] at e
    injection e with e1 e2
    injection e2 with e2 e3
    subst e2 e3
    have f0 : m0.sp.frequency = m.table.freq := by rw [(h.belong m0 hm0).frequency, ht0]
    have f1 : m1.sp.frequency = m'.table.freq := by rw [(h.belong m1 hm1).frequency, ht1]
    have hff : m.table.freq = m'.table.freq := by
      refine indexFreq_letters ?_ ?_ e1
      · rw [← f0]; exact hg.frequency.imp id And.left
      · rw [← f1]; exact hg'.frequency.imp id And.left
    unfold Member.index
    rw [hff, grid_unique hg' hg (by rw [f0, f1, hff]) ha' ha hz' hz ext]
  obtain ⟨s2, e2, hs2⟩ := getData_known (ext := ext) (p := p') (s := s1) (k := keyOf)
    (xs := ms.map fun m => (m.ended, m.index, (m.name, m.values)))
    (by rw [List.map_map]; exact hp') (by simpa using hne)
    (fun x hx => by obtain ⟨m, hm, rfl⟩ := List.mem_map.1 hx; exact hk m hm)
    (fun x hx y hy => by
      obtain ⟨m, hm, rfl⟩ := List.mem_map.1 hx
      obtain ⟨m', hm', rfl⟩ := List.mem_map.1 hy
      exact hi m hm m' hm')
    (fun x hx => by obtain ⟨m, hm, rfl⟩ := List.mem_map.1 hx; exact gives_table h hends hout hc hm)
  rw [List.map_map, show ((fun x : Known => x.2.1) ∘ fun m : Member => (m.ended, m.index, (m.name, m.values))) =
    Member.index from rfl] at e2
  let frame : PRange → Frame := fun pr => ⟨pr.freqstr, pr.index,
    addNames [] ((ms.filter fun m => m.index = pr).map Member.name),
    (ms.filter fun m => m.index = pr).map Member.values⟩
  have hentry : ∀ pr, entryFor keyOf (ms.map fun m => (m.ended, m.index, (m.name, m.values))) pr =
      ⟨keyOf pr, pr, (frame pr).columns, (frame pr).data⟩ := by
    intro pr
    unfold entryFor
    rw [List.filter_map, List.map_map, List.map_map]
    rfl
  have hframes : framesOf ext ((ms.map Member.index).eraseDups.map
      (entryFor keyOf (ms.map fun m => (m.ended, m.index, (m.name, m.values))))) =
      .ok ((ms.map Member.index).eraseDups.map frame) := by
    refine framesOf_of ?_
    rw [List.forall₂_map_left_iff, List.forall₂_map_right_iff, List.forall₂_same]
    intro pr hpr
    rw [List.mem_eraseDups] at hpr
    obtain ⟨m, hm, rfl⟩ := List.mem_map.1 hpr
    rw [hentry]
    unfold frameOf
    dsimp only
    have := mkFrame_table m.index.freqstr m.index.index
      (nvs := (ms.filter fun m' => m'.index = m.index).map fun m => (m.name, m.values))
      (by
        have : m ∈ ms.filter fun m' => m'.index = m.index := List.mem_filter.2 ⟨hm, by simp⟩
        intro e
        rw [List.map_eq_nil_iff] at e
        rw [e] at this
        cases this)
      (by
        intro nv hnv
        obtain ⟨m', hm', rfl⟩ := List.mem_map.1 hnv
        obtain ⟨q1, q2⟩ := List.mem_filter.1 hm'
        have q2 : m'.index = m.index := of_decide_eq_true q2
        rw [← q2]
        exact (h.series m' q1).size)
    rw [List.map_map, List.map_map] at this
    show (match mkFrame m.index.freqstr m.index.index (frame m.index).columns (frame m.index).data with
      | .ok f => Except.ok f
      | .error e => _) = _
    rw [show mkFrame m.index.freqstr m.index.index (frame m.index).columns (frame m.index).data = _ from this]
    rfl
  rw [hframes] at e2
  refine ⟨(ms.map Member.index).eraseDups.map frame, p', s2, ?_, ⟨?_, ?_, ?_⟩, hp', ⟨?_, ?_⟩⟩
  · unfold scrape
    rw [e1]
    dsimp only
    rw [e2]
  · rw [List.map_map]
    exact List.map_id _
  · intro f hf
    obtain ⟨pr, _, rfl⟩ := List.mem_map.1 hf
    have := addNames_columnsOf .nil ((ms.filter fun m => m.index = pr).map Member.name)
    simpa using this
  · intro f hf
    obtain ⟨pr, _, rfl⟩ := List.mem_map.1 hf
    rfl
  · intro m hm i d hd
    have := hc.dates m hm i d hd
    unfold timeCell at this ⊢
    rw [hs2.1]; exact this
  · intro r c hrc
    rw [hs2.1]; exact hc.others r c hrc

end Xls
