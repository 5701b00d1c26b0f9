/-
C113: tables that stand apart on one worksheet, read together and alone.
-/
import Verif.Lemmas.Apart2
import Verif.Props.Result

set_option autoImplicit false

namespace Xls

open Spec

theorem alone_range {ext : Ext} {s : Sheet} {y : SParams} {pr : PRange} {c : Str × List Num} {f : Frame}
    (hext : RealDates ext) (hs : SheetValid s) (h : Alone ext s y pr c f) :
    Generated ext pr ∧ ∀ t ∈ pr.index, ValidTime t := by
  obtain ⟨th, e, -, -, -, -, hr⟩ := h.gives.bounds
  have hr := hr _ (Grown.refl _)
  refine ⟨seriesRanges_generated hr pr (by simp), ?_⟩
  intro t ht
  exact (seriesRanges_sound hext (cleanTimeIndex_valid hext.parsed hs) hr pr (by simp)
    (List.ne_nil_of_mem ht)).2.1 t ht

theorem alone_unique {ext : Ext} {s : Sheet} {x y : SParams} {pr pr' : PRange} {c c' : Str × List Num} {f g : Frame}
    (hext : RealDates ext) (hs : SheetValid s) (h : Alone ext s x pr c f) (h' : Alone ext s y pr' c' g)
    (e : keyOf pr = keyOf pr') : pr = pr' := by
  obtain ⟨g1, v1⟩ := alone_range hext hs h
  obtain ⟨g2, -⟩ := alone_range hext hs h'
  exact generated_unique g1 g2 h.key (by rw [e]; exact h'.key)
    (v1 _ (List.mem_of_head? (rangeKey_ok h.key).2.1))

theorem alone_same {ext : Ext} {s : Sheet} {x y : SParams} {pr pr' : PRange} {c c' : Str × List Num} {f g : Frame}
    (h : Alone ext s x pr c f) (h' : Alone ext s y pr' c' g) (hxy : SameDates x y) : pr = pr' := by
  have e := cleanTimeIndex_same ext hxy s
  have h2 := h'.gives
  have e2 : stopOf ext s y = stopOf ext s x := by unfold stopOf; rw [e]
  unfold endedOn at h2
  rw [e, e2] at h2
  exact (gives_unique (endingAt_sameDates hxy _) h.gives h2).symm

theorem alone_dates {ext : Ext} {s : Sheet} {x y : SParams} {pr pr' : PRange} {c c' : Str × List Num} {f g : Frame}
    (h : Alone ext s x pr c f) (h' : Alone ext s y pr' c' g)
    (hxy : x.timeHeader = y.timeHeader → SameDates x y)
    (hB : f.freq = c!"B" → g.freq = c!"B" ∨ g.freq = c!"D" → g.freq = c!"B" ∧ y.timeHeader = x.timeHeader)
    (hB' : g.freq = c!"B" → f.freq = c!"B" ∨ f.freq = c!"D" → f.freq = c!"B" ∧ x.timeHeader = y.timeHeader) :
    pr = pr' ↔ frameDates f = frameDates g := by
  have d1 := frameOf_dates h.frame
  have d2 := frameOf_dates h'.frame
  constructor
  · rintro rfl
    rcases d1 with ⟨e1, -, -⟩ | ⟨k1, e1, -, -⟩
    · rcases d2 with ⟨e2, -, -⟩ | ⟨k2, e2, -, -⟩
      · rw [e1, e2]
      · have hg : g.freq = c!"B" := congrArg PRange.freqstr e2
        have hf : f.freq = c!"D" := (congrArg PRange.freqstr e1).trans k2
        have := (hB' hg (.inr hf)).1
        rw [hf] at this
        exact absurd this (by decide)
    · rcases d2 with ⟨e2, -, -⟩ | ⟨k2, e2, -, -⟩
      · have hf : f.freq = c!"B" := congrArg PRange.freqstr e1
        have hg : g.freq = c!"D" := (congrArg PRange.freqstr e2).trans k1
        have := (hB hf (.inr hg)).1
        rw [hg] at this
        exact absurd this (by decide)
      · rw [e1, e2]
  · intro e
    have hfg : f.freq = g.freq := congrArg PRange.freqstr e
    by_cases hf : f.freq = c!"B"
    · exact alone_same h h' (hxy (hB hf (.inl (hfg.symm.trans hf))).2.symm)
    · rcases d1 with ⟨e1, -, -⟩ | ⟨-, e1, -, -⟩
      · rcases d2 with ⟨e2, -, -⟩ | ⟨-, e2, -, -⟩
        · exact e1.symm.trans (e.trans e2)
        · exact absurd (hfg.trans (congrArg PRange.freqstr e2)) hf
      · exact absurd (congrArg PRange.freqstr e1) hf

/-- A series, what is known of it, its data frame. -/
abbrev Read := SParams × Known × Frame

/-- What is known of the series that are read alone. -/
def ReadsAlone (ext : Ext) (s : Sheet) (z : Read) : Prop :=
  z.2.1.1 = endedOn ext s z.1 ∧ Alone ext s z.1 z.2.1.2.1 z.2.1.2.2 z.2.2

theorem reads_of {ext : Ext} {s : Sheet} : ∀ {sps : List SParams} {alone : List Frame},
    List.Forall₂ (fun y f => ∃ pr c, Alone ext s y pr c f) sps alone →
    ∃ zs : List Read, zs.map (·.1) = sps ∧ zs.map (·.2.2) = alone ∧ ∀ z ∈ zs, ReadsAlone ext s z
  | _, _, .nil => ⟨[], rfl, rfl, by simp⟩
  | y :: _, f :: _, .cons ⟨pr, c, h⟩ hs => by
    obtain ⟨zs, h1, h2, h3⟩ := reads_of hs
    refine ⟨(y, (endedOn ext s y, pr, c), f) :: zs, by simp [h1], by simp [h2], ?_⟩
    intro z hz
    rcases List.mem_cons.1 hz with rfl | hz
    · exact ⟨rfl, h⟩
    · exact h3 z hz

theorem Holds.of {s : Sheet} (h : WellFormed s) : Holds s.maxRow s :=
  ⟨fun r c hr => h.outside r c fun k => by omega, Int.le_refl _⟩

theorem stop_positive {ext : Ext} {n : Int} (hn : 1 ≤ n) {s : Sheet} (hs : Holds n s) {y : SParams} (hy : Simple n y)
    (h : DatesOk ext s y) : 1 ≤ stopOf ext s y := by
  have := (clean_agree ext hn hy hs hs fun _ _ _ => rfl).2.2 _ h.stop
  have := hy.positions.starts
  omega

/-- Reading when each series is read alone. -/
theorem scrape_reads {ext : Ext} (hext : RealDates ext) {p : Params} {s : Sheet} {sps : List SParams}
    (hp : HasSeries p sps) (hne : sps ≠ []) (hwf : WellFormed s) (hval : SheetValid s) (ha : Apart s.maxRow sps)
    {xs : List (SParams × Known)} (hxs : xs.map (·.1) = sps)
    (h : ∀ z ∈ xs, z.2.1 = endedOn ext s z.1 ∧ DatesOk ext s z.1 ∧ rangeKey z.2.2.1 = .ok (keyOf z.2.2.1) ∧
      Gives ext (cleanTimeIndex ext z.1 s).2 [z.2.2.1] z.2.1 [z.2.2.2]) :
    (scrape ext p s).1 = framesOf ext (((xs.map (·.2)).map fun x => x.2.1).eraseDups.map
      (entryFor keyOf (xs.map (·.2)))) := by
  have hmem : ∀ z ∈ xs, z.1 ∈ sps := fun z hz => by rw [← hxs]; exact List.mem_map_of_mem hz
  have hn := hwf.rows
  have hh := Holds.of hwf
  have hok : ∀ y ∈ sps, DatesOk ext s y := by
    intro y hy
    rw [← hxs] at hy
    obtain ⟨z, hz, rfl⟩ := List.mem_map.1 hy
    exact (h z hz).2.1
  rcases cleanData_apart (ext := ext) hn hh ha hne hp with ⟨-, p', s', hc, hp', hcl⟩ | ⟨hno, -⟩
  · unfold scrape
    rw [hc]
    dsimp only
    have hp2 : HasSeries p' ((xs.map (·.2)).map (·.1)) := by
      have : (xs.map (·.2)).map (·.1) = sps.map (endedOn ext s) := by
        rw [← hxs, List.map_map, List.map_map]
        exact List.map_congr_left fun z hz => (h z hz).1
      rw [this]
      exact hp'
    obtain ⟨s2, e2, -⟩ := getData_known (ext := ext) (s := s') (k := keyOf) hp2 (by
        intro e
        have : xs = [] := by simpa using e
        rw [this] at hxs
        exact hne hxs.symm) (by
        intro x hx
        obtain ⟨z, hz, rfl⟩ := List.mem_map.1 hx
        exact (h z hz).2.2.1) (by
        intro x hx x' hx' e
        obtain ⟨z, hz, rfl⟩ := List.mem_map.1 hx
        obtain ⟨z', hz', rfl⟩ := List.mem_map.1 hx'
        obtain ⟨-, -, k1, g1⟩ := h z hz
        obtain ⟨-, -, k2, g2⟩ := h z' hz'
        obtain ⟨_, _, -, -, -, -, r1⟩ := g1.bounds
        obtain ⟨_, _, -, -, -, -, r2⟩ := g2.bounds
        have r1 := r1 _ (Grown.refl _)
        have r2 := r2 _ (Grown.refl _)
        have hi := List.mem_of_head? (rangeKey_ok k1).2.1
        exact generated_unique (seriesRanges_generated r1 _ (by simp)) (seriesRanges_generated r2 _ (by simp)) k1
          (by rw [e]; exact k2) ((seriesRanges_sound hext (cleanTimeIndex_valid hext.parsed hval) r1 _ (by simp)
            (List.ne_nil_of_mem hi)).2.1 _ hi)) (by
        intro x hx
        obtain ⟨z, hz, rfl⟩ := List.mem_map.1 hx
        obtain ⟨k0, k1, -, g1⟩ := h z hz
        rw [k0] at g1 ⊢
        exact gives_agree (ha.simple _ (hmem z hz)) (stop_positive hn hh (ha.simple _ (hmem z hz)) k1)
          (fun r c hrc => hcl.done z.1 (hmem z hz) ⟨z.1, hmem z hz, rfl⟩ r c hrc) g1)
    rw [e2]
  · exact absurd hok hno

/-- C113. Take series with a single frequency each, of any number of tables that stand apart on a worksheet. If the
worksheet can be read with all of them, then it can be read with each alone; the data frames hold the columns of
those, one data frame for each index. Conversely, if each series alone can be read, so can all. Missing from the full
claim: a table of business days beside another one or one of all days (`C113_business_violated`); different tables
that name the same header of their dates (`C113_header_violated`); several frequencies or time columns; series in rows
without a given end. -/
theorem C113_apart_partial (ext : Ext) (hext : RealDates ext) {p : Params} {s : Sheet} {sps : List SParams}
    (hp : HasSeries p sps) (hne : sps ≠ []) (hwf : WellFormed s) (hval : SheetValid s) (ha : Apart s.maxRow sps) :
    (∀ frames, (scrape ext p s).1 = .ok frames → ∃ alone, List.Forall₂ (ReadAs ext s) sps alone ∧
      (BusinessDaysOnce sps alone → FramesJoined alone frames)) ∧
    (∀ alone, List.Forall₂ (ReadAs ext s) sps alone → BusinessDaysOnce sps alone →
      ∃ frames, (scrape ext p s).1 = .ok frames ∧ FramesJoined alone frames) := by
  have hn := hwf.rows
  have hh := Holds.of hwf
  have back : ∀ alone, List.Forall₂ (ReadAs ext s) sps alone → BusinessDaysOnce sps alone →
      ∃ frames, (scrape ext p s).1 = .ok frames ∧ FramesJoined alone frames := by
    intro alone hal hB
    have hal' : List.Forall₂ (fun y f => ∃ pr c, Alone ext s y pr c f) sps alone := by
      rw [List.forall₂_iff_get] at hal ⊢
      refine ⟨hal.1, fun i h1 h2 => ?_⟩
      exact (alone_iff hn hh (ha.simple _ (List.get_mem _ _)) _).1 (hal.2 i h1 h2)
    obtain ⟨zs, z1, z2, z3⟩ := reads_of hal'
    have hzip : ∀ z ∈ zs, (z.1, z.2.2) ∈ sps.zip alone := by
      intro z hz
      rw [← z1, ← z2, List.zip_map']
      exact List.mem_map.2 ⟨z, hz, rfl⟩
    have hmem : ∀ z ∈ zs, z.1 ∈ sps := fun z hz => by rw [← z1]; exact List.mem_map_of_mem hz
    have hscr := scrape_reads hext hp hne hwf hval ha (xs := zs.map fun z => (z.1, z.2.1))
      (by rw [List.map_map]; exact z1) (by
        intro x hx
        obtain ⟨z, hz, rfl⟩ := List.mem_map.1 hx
        obtain ⟨k1, k2⟩ := z3 z hz
        refine ⟨k1, k2.dates, k2.key, ?_⟩
        dsimp only
        rw [k1]
        exact k2.gives)
    obtain ⟨frames, f1, f2⟩ := frames_joined (ext := ext) (zs := zs.map fun z => (z.2.1, z.2.2)) (by
        intro x hx
        obtain ⟨z, hz, rfl⟩ := List.mem_map.1 hx
        exact (z3 z hz).2.frame) (by
        intro x hx x' hx'
        obtain ⟨z, hz, rfl⟩ := List.mem_map.1 hx
        obtain ⟨w, hw, rfl⟩ := List.mem_map.1 hx'
        exact alone_dates (z3 z hz).2 (z3 w hw).2 (ha.common _ (hmem z hz) _ (hmem w hw))
          (hB _ (hzip z hz) _ (hzip w hw)) (hB _ (hzip w hw) _ (hzip z hz)))
    rw [List.map_map, List.map_map] at f1
    rw [List.map_map] at f2
    refine ⟨frames, ?_, ?_⟩
    · rw [hscr, ← f1, List.map_map, List.map_map]
      rfl
    · rw [← z2]
      exact f2
  refine ⟨?_, back⟩
  intro frames h
  have hall : ∃ alone, List.Forall₂ (ReadAs ext s) sps alone := by
    rcases cleanData_apart (ext := ext) hn hh ha hne hp with ⟨hok, p', s', hc, hp', hcl⟩ | ⟨-, hno⟩
    · have hg := h
      unfold scrape at hg
      rw [hc] at hg
      dsimp only at hg
      have each := getData_each hp' (by
        intro y hy
        obtain ⟨z, hz, rfl⟩ := List.mem_map.1 hy
        unfold endedOn
        rw [endingAt_same]
        exact (ha.simple z hz).frequency) (by
        intro y hy
        obtain ⟨z, hz, rfl⟩ := List.mem_map.1 hy
        unfold endedOn
        rw [endingAt_same]
        obtain ⟨th, hth, -⟩ := (ha.simple z hz).timeHeader
        exact ⟨th, hth⟩) hg
      have each' : ∀ y ∈ sps, ∃ pr c, rangeKey pr = .ok (keyOf pr) ∧
          Gives ext (cleanTimeIndex ext y s).2 [pr] (endedOn ext s y) [c] := by
        intro y hy
        obtain ⟨pr, k, c, hk, hgy⟩ := each _ (List.mem_map_of_mem hy)
        refine ⟨pr, c, by rw [keyOf_eq hk]; exact hk, ?_⟩
        exact gives_agree (ha.simple y hy) (stop_positive hn hh (ha.simple y hy) (hok y hy))
          (fun r c hrc => (hcl.done y hy ⟨y, hy, rfl⟩ r c hrc).symm) hgy
      obtain ⟨xs, x1, x2⟩ : ∃ xs : List (SParams × Known), xs.map (·.1) = sps ∧
          ∀ z ∈ xs, z.2.1 = endedOn ext s z.1 ∧ DatesOk ext s z.1 ∧ rangeKey z.2.2.1 = .ok (keyOf z.2.2.1) ∧
            Gives ext (cleanTimeIndex ext z.1 s).2 [z.2.2.1] z.2.1 [z.2.2.2] := by
        clear each hg hcl hp' hc h back ha hne hp
        induction sps with
        | nil => exact ⟨[], rfl, by simp⟩
        | cons y sps ih =>
          obtain ⟨xs, i1, i2⟩ := ih (fun z hz => hok z (by simp [hz])) fun z hz => each' z (by simp [hz])
          obtain ⟨pr, c, k1, k2⟩ := each' y (by simp)
          refine ⟨(y, endedOn ext s y, pr, c) :: xs, by simp [i1], ?_⟩
          intro z hz
          rcases List.mem_cons.1 hz with rfl | hz
          · exact ⟨rfl, hok _ (by simp), k1, k2⟩
          · exact i2 z hz
      rw [scrape_reads hext hp hne hwf hval ha x1 x2] at h
      have hfr := framesOf_forall h
      rw [List.forall₂_map_left_iff] at hfr
      -- the data frame of each series
      have hone : ∀ z ∈ xs, ∃ f, frameOf ext ⟨keyOf z.2.2.1, z.2.2.1, [z.2.2.2.1], [z.2.2.2.2]⟩ = .ok f := by
        intro z hz
        have hpr : z.2.2.1 ∈ ((xs.map (·.2)).map fun x => x.2.1).eraseDups := by
          rw [List.mem_eraseDups, List.map_map]
          exact List.mem_map.2 ⟨z, hz, rfl⟩
        obtain ⟨f, hf⟩ : ∃ f, frameOf ext (entryFor keyOf (xs.map (·.2)) z.2.2.1) = .ok f := by
          obtain ⟨i, hi, e⟩ := List.getElem_of_mem hpr
          have hi' : i < frames.length := by rw [← hfr.length_eq]; exact hi
          have := hfr.get hi hi'
          rw [List.get_eq_getElem, List.get_eq_getElem, e] at this
          exact ⟨_, this⟩
        have hl : (entryFor keyOf (xs.map (·.2)) z.2.2.1).columns.length =
            (entryFor keyOf (xs.map (·.2)) z.2.2.1).data.length := by
          unfold entryFor
          rw [addNames_length]
          simp
        have hin : z.2.2.2.2 ∈ (entryFor keyOf (xs.map (·.2)) z.2.2.1).data := by
          unfold entryFor
          exact List.mem_map.2 ⟨z.2, List.mem_filter.2 ⟨List.mem_map_of_mem hz, by simp⟩, rfl⟩
        have hcne : (entryFor keyOf (xs.map (·.2)) z.2.2.1).columns ≠ [] := by
          intro e
          rw [e] at hl
          rw [List.length_eq_zero_iff.1 hl.symm] at hin
          cases hin
        exact ⟨_, ((frameOf_join hl hcne f).1 hf).2.2 _ hin _⟩
      rw [← x1]
      have hsimple : ∀ z ∈ xs, Simple s.maxRow z.1 := fun z hz => ha.simple _ (by
        rw [← x1]; exact List.mem_map_of_mem hz)
      clear hfr h x1 each each' hcl hp' hc hg hp hne ha hok back
      induction xs with
      | nil => exact ⟨[], .nil⟩
      | cons z xs ih =>
        obtain ⟨alone, hal⟩ := ih (fun w hw => x2 w (by simp [hw])) (fun w hw => hone w (by simp [hw]))
          fun w hw => hsimple w (by simp [hw])
        obtain ⟨f, hf⟩ := hone z (by simp)
        obtain ⟨k0, k1, k2, k3⟩ := x2 z (by simp)
        rw [k0] at k3
        exact ⟨f :: alone, .cons ((alone_iff hn hh (hsimple z (by simp)) f).2 ⟨_, _, k1, k2, k3, hf⟩) hal⟩
    · exfalso
      apply hno
      unfold scrape at h
      split at h
      · cases h
      next a b c hc => rw [hc]
  obtain ⟨alone, hal⟩ := hall
  refine ⟨alone, hal, fun hB => ?_⟩
  obtain ⟨frames', h1, h2⟩ := back alone hal hB
  rw [h] at h1
  cases h1
  exact h2

/-- A call that asks for this series only gives this data frame, whatever objects there are. -/
def CallReadAs (ext : Ext) (wb : List Nat) (w : World) (name title : Str) (safe preserve : Bool) (sp : SParams)
    (f : Frame) : Prop :=
  ∀ w1 given q, w1.sheets = w.sheets → w1.nextSheet = w.nextSheet → GivenWith given w1 q → HasSeries q [sp] →
    outcome (getDataFrames ext wb given name safe preserve w1) = .ok (.dfs (.one f), title)

theorem callReadAs_iff {ext : Ext} {wb : List Nat} {w : World} {name : Str} {safe preserve : Bool} {r : Nat}
    (hreq : Requested ext wb w name r) (hwb : ∀ q ∈ wb, q < w.nextSheet ∧ WellFormed (w.sheets q)) {sp : SParams}
    {f : Frame} :
    CallReadAs ext wb w name (w.sheets r).title safe preserve sp f ↔ ReadAs ext (w.sheets r) sp f := by
  have key : ∀ w1 given q, w1.sheets = w.sheets → w1.nextSheet = w.nextSheet → GivenWith given w1 q →
      HasSeries q [sp] → outcome (getDataFrames ext wb given name safe preserve w1) =
        (scrape ext q (w.sheets r)).1.map fun fs => (.dfs (unwrap fs), (w.sheets r).title) := by
    intro w1 given q h1 h2 hg hq
    have hreq1 : Requested ext wb w1 name r := by
      unfold Requested at hreq ⊢
      rw [h1]
      exact hreq
    obtain ⟨pr, w', e⟩ := call_result ext wb w1 given name safe preserve r hreq1 (by rw [h1, h2]; exact hwb) hg
      (complete_series hq (by simp))
      (show scrape ext q (w1.sheets r) = ((scrape ext q (w1.sheets r)).1, _, _) from rfl)
    rw [e, h1]
    unfold outcome
    cases (scrape ext q (w.sheets r)).1 <;> rfl
  constructor
  · intro h q hq
    have h1 := h { w with params := fun _ => q } (.object 0) q rfl rfl (.inl ⟨0, rfl, rfl⟩) hq
    rw [key { w with params := fun _ => q } (.object 0) q rfl rfl (.inl ⟨0, rfl, rfl⟩) hq] at h1
    revert h1
    cases (scrape ext q (w.sheets r)).1 with
    | error e => intro h1; cases h1
    | ok fs =>
      intro h1
      have h2 : unwrap fs = .one f := Answer.dfs.inj (Prod.mk.inj (Except.ok.inj h1)).1
      unfold unwrap at h2
      match fs, h2 with
      | [g], h2 =>
        cases h2
        rfl
  · intro h w1 given q h1 h2 hg hq
    rw [key w1 given q h1 h2 hg hq, h q hq]
    rfl

/-- C113 for calls: the answer is the only data frame, or the list of them. -/
theorem C113_call_partial (ext : Ext) (hext : RealDates ext) (wb : List Nat) (w : World) (given : Given) (name : Str)
    (safe preserve : Bool) (r : Nat) {p : Params} {sps : List SParams} (hreq : Requested ext wb w name r)
    (hwb : ∀ q ∈ wb, q < w.nextSheet ∧ WellFormed (w.sheets q)) (hval : SheetValid (w.sheets r))
    (hgiven : GivenWith given w p) (hp : HasSeries p sps) (hne : sps ≠ [])
    (ha : Apart (w.sheets r).maxRow sps) :
    (∀ a title, outcome (getDataFrames ext wb given name safe preserve w) = .ok (a, title) →
      title = (w.sheets r).title ∧
      ∃ frames alone, a = .dfs (match frames with | [f] => .one f | fs => .many fs) ∧
      List.Forall₂ (CallReadAs ext wb w name title safe preserve) sps alone ∧
      (BusinessDaysOnce sps alone → FramesJoined alone frames)) ∧
    (∀ alone, List.Forall₂ (CallReadAs ext wb w name (w.sheets r).title safe preserve) sps alone →
      BusinessDaysOnce sps alone →
      ∃ frames, outcome (getDataFrames ext wb given name safe preserve w) =
        .ok (.dfs (match frames with | [f] => .one f | fs => .many fs), (w.sheets r).title) ∧
      FramesJoined alone frames) := by
  have hwf : WellFormed (w.sheets r) := (hwb r hreq.1).2
  obtain ⟨pr, w', e⟩ := call_result ext wb w given name safe preserve r hreq hwb hgiven (complete_series hp hne)
    (show scrape ext p (w.sheets r) = ((scrape ext p (w.sheets r)).1, _, _) from rfl)
  obtain ⟨j1, j2⟩ := C113_apart_partial ext hext hp hne hwf hval ha
  constructor
  · intro a title h
    rw [e] at h
    cases hr : (scrape ext p (w.sheets r)).1 with
    | error er => rw [hr] at h; cases h
    | ok frames =>
      rw [hr] at h
      obtain ⟨alone, h1, h2⟩ := j1 frames hr
      cases h
      exact ⟨rfl, frames, alone, rfl, h1.imp fun x f hx => (callReadAs_iff hreq hwb).2 hx, h2⟩
  · intro alone hall hb
    obtain ⟨frames, h1, h2⟩ := j2 alone (hall.imp fun x f hx => (callReadAs_iff hreq hwb).1 hx) hb
    refine ⟨frames, ?_, h2⟩
    rw [e, h1]
    rfl

/-! ### Examples -/

theorem Sample.ext0_real : RealDates Sample.ext0 :=
  ⟨fun _ _ _ h => (by cases h), fun _ _ h => (by cases h), fun _ _ => ⟨List.Pairwise.nil, fun _ h => (by cases h)⟩⟩

/-- Three tables side by side: quarters as texts, months as dates, quarters as dates. -/
def Sample.tripleSheet : Sheet := Sample.rows
  [[.str c!"fecha", .str c!"PBI", .none, .str c!"mes", .str c!"IPC", .str c!"fecha", .str c!"EMAE"],
   [.str c!"2000 III", .int 10, .none, Sample.day 2000 1 1, .int 1, Sample.day 2000 7 1, .int 20],
   [.str c!"IV", .int 11, .none, Sample.day 2000 2 1, .int 2, Sample.day 2000 10 1, .int 21],
   [.str c!"2001 I", .int 12, .none, Sample.day 2000 3 1, .int 3, Sample.day 2001 1 1, .int 22],
   [.none, .none, .none, Sample.day 2000 4 1, .int 4, .none, .none]]

def Sample.sideMonths : SParams := { Sample.monthly with headerCoord := c!"E1", timeHeader := .single c!"D1" }

def Sample.sideQuarters : SParams :=
  { Sample.monthly with headerCoord := c!"G1", timeHeader := .single c!"F1", frequency := c!"Q" }

def Sample.tripleSeries : List SParams := [Sample.quarterSeries c!"B1", Sample.sideMonths, Sample.sideQuarters]

theorem Sample.simple_column {n : Int} {sp : SParams} {th : Str} {a b c d : Nat} (h1 : sp.timeMulticolumn = false)
    (h2 : sp.timeHeader = .single th) (h3 : th = coordStr a b) (ha : 1 ≤ a) (hb : 1 ≤ b)
    (h4 : sp.headerCoord = coordStr c d) (hc : 1 ≤ c) (hd : 1 ≤ d) (h5 : sp.composedHeaders = none)
    (h6 : sp.frequency.length = 1) (h7 : 1 ≤ sp.dataStarts) (h8 : sp.timeAlignment = 0)
    (h9 : ∀ e, sp.dataEnds = some e → 1 ≤ e) (h10 : sp.alignment = .vertical) (h11 : sp.dataStarts ≤ n) :
    Simple n sp where
  oneColumn := h1
  timeHeader := ⟨th, h2, a, b, ha, hb, h3⟩
  header := ⟨c, d, hc, hd, h4⟩
  composed := by rw [h5]; intro x hx; cases hx
  frequency := h6
  positions := ⟨h7, by rw [h8]; omega, h9⟩
  lies := .inl ⟨h10, h11⟩

/-- Tables in different columns stand apart. -/
theorem Sample.other_columns {x y : SParams} {th th' : Str} {a b a' b' c d : Int} (hx : x.alignment = .vertical)
    (hy : y.alignment = .vertical) (h1 : x.timeHeader = .single th) (h2 : coordOf th = .ok (a, b))
    (h3 : y.timeHeader = .single th') (h4 : coordOf th' = .ok (a', b')) (h5 : coordOf y.headerCoord = .ok (c, d))
    (h6 : y.composedHeaders = none) (h7 : b ≠ b') (h8 : b ≠ d) (r q : Int) (h : DateCell x r q) :
    ¬ InTable [y] r q := by
  obtain ⟨hr, hc, pos, k1, -, -, k2⟩ := h
  unfold HeaderAt at k1
  rw [h1] at k1
  dsimp only at k1
  rw [h2] at k1
  cases k1
  unfold IsAt rowOf colOf at k2
  rw [hx] at k2
  obtain ⟨-, k2⟩ := k2
  simp only [if_true] at k2
  rintro ⟨sp, hsp, h⟩
  rw [List.mem_singleton] at hsp
  subst hsp
  rw [h6, h3, hy] at h
  rcases h with ⟨t, ht, h⟩ | ⟨t, ht, hr', hc', pos', h, -, e⟩
  · simp only [Option.getD_none, List.mem_cons, List.not_mem_nil, or_false] at ht
    rw [ht, h5] at h
    cases h
    exact h8 k2.symm
  · rw [if_pos rfl] at e
    cases e
    simp only [timeCoords, List.mem_cons, List.not_mem_nil, or_false] at ht
    rcases ht with rfl | rfl
    · rw [h5] at h
      cases h
      exact h8 k2.symm
    · rw [h4] at h
      cases h
      exact h7 k2.symm

theorem Sample.triple_valid : SheetValid Sample.tripleSheet := by
  refine Sample.rows_valid ?_
  simp only [List.mem_cons, List.not_mem_nil, or_false, forall_eq_or_imp, forall_eq, Sample.day]
  simp only [reduceCtorEq, false_implies, implies_true, true_and, Cell.dt.injEq, forall_eq']
  decide

theorem Sample.triple_apart : Apart Sample.tripleSheet.maxRow Sample.tripleSeries where
  simple := by
    intro x hx
    simp only [Sample.tripleSeries, List.mem_cons, List.not_mem_nil, or_false] at hx
    rcases hx with rfl | rfl | rfl
    · exact simple_column (a := 1) (b := 1) (c := 1) (d := 2) rfl rfl (by decide) (by decide) (by decide) (by decide)
        (by decide) (by decide) rfl rfl (by decide) rfl (fun _ h => by cases h) rfl (by decide)
    · exact simple_column (a := 1) (b := 4) (c := 1) (d := 5) rfl rfl (by decide) (by decide) (by decide) (by decide)
        (by decide) (by decide) rfl rfl (by decide) rfl (fun _ h => by cases h) rfl (by decide)
    · exact simple_column (a := 1) (b := 6) (c := 1) (d := 7) rfl rfl (by decide) (by decide) (by decide) (by decide)
        (by decide) (by decide) rfl rfl (by decide) rfl (fun _ h => by cases h) rfl (by decide)
  common := by
    intro x hx y hy
    simp only [Sample.tripleSeries, List.mem_cons, List.not_mem_nil, or_false] at hx hy
    rcases hx with rfl | rfl | rfl <;> rcases hy with rfl | rfl | rfl <;> intro h <;> first | rfl | cases h
  others := by
    intro x hx y hy
    simp only [Sample.tripleSeries, List.mem_cons, List.not_mem_nil, or_false] at hx hy
    rcases hx with rfl | rfl | rfl <;> rcases hy with rfl | rfl | rfl <;> intro h <;>
      first
        | exact absurd rfl h
        | exact other_columns rfl rfl rfl rfl rfl rfl rfl rfl (by decide) (by decide)

/-- What each of them gives alone. -/
def Sample.tripleAlone : List Frame :=
  [⟨c!"QS-JAN", [⟨2000, 7, 1, 0⟩, ⟨2000, 10, 1, 0⟩, ⟨2001, 1, 1, 0⟩], [c!"PBI"], [[.fin 10, .fin 11, .fin 12]]⟩,
   ⟨c!"MS", [⟨2000, 1, 1, 0⟩, ⟨2000, 2, 1, 0⟩, ⟨2000, 3, 1, 0⟩, ⟨2000, 4, 1, 0⟩], [c!"IPC"],
     [[.fin 1, .fin 2, .fin 3, .fin 4]]⟩,
   ⟨c!"QS-JAN", [⟨2000, 7, 1, 0⟩, ⟨2000, 10, 1, 0⟩, ⟨2001, 1, 1, 0⟩], [c!"EMAE"], [[.fin 20, .fin 21, .fin 22]]⟩]

theorem Sample.triple_alone : List.Forall₂ (ReadAs Sample.ext0 Sample.tripleSheet) Sample.tripleSeries Sample.tripleAlone := by
  refine .cons (fun q hq => ?_) (.cons (fun q hq => ?_) (.cons (fun q hq => ?_) .nil))
  · have : q = onlySeries (Sample.quarterSeries c!"B1") := funext hq
    subst this
    decide +kernel
  · have : q = onlySeries Sample.sideMonths := funext hq
    subst this
    decide +kernel
  · have : q = onlySeries Sample.sideQuarters := funext hq
    subst this
    decide +kernel

/-- Read together they give two data frames, one of quarters and one of months. -/
example : ∃ frames, (scrape Sample.ext0 (Sample.paramsOf Sample.tripleSeries) Sample.tripleSheet).1 = .ok frames ∧
    frames.map (fun f => (f.freq, f.data)) =
      [(c!"QS-JAN", [[.fin 10, .fin 11, .fin 12], [.fin 20, .fin 21, .fin 22]]),
       (c!"MS", [[.fin 1, .fin 2, .fin 3, .fin 4]])] := by
  obtain ⟨frames, h1, h2⟩ := (C113_apart_partial Sample.ext0 Sample.ext0_real
    (p := Sample.paramsOf Sample.tripleSeries) (sps := Sample.tripleSeries) (fun _ => rfl) (by decide)
    (Sample.rows_wellFormed (by decide) (by decide) (by decide))
    Sample.triple_valid Sample.triple_apart).2 _ Sample.triple_alone (by
      intro z hz w hw h
      exfalso
      revert z hz h
      decide +kernel)
  refine ⟨frames, h1, ?_⟩
  have hi := h2.indexes
  have hd := h2.data
  rw [show (Sample.tripleAlone.map frameDates).eraseDups =
    [⟨c!"QS-JAN", [⟨2000, 7, 1, 0⟩, ⟨2000, 10, 1, 0⟩, ⟨2001, 1, 1, 0⟩]⟩,
     ⟨c!"MS", [⟨2000, 1, 1, 0⟩, ⟨2000, 2, 1, 0⟩, ⟨2000, 3, 1, 0⟩, ⟨2000, 4, 1, 0⟩]⟩] by decide +kernel] at hi
  clear h1 h2
  rcases frames with _ | ⟨f, _ | ⟨g, _ | ⟨k, rest⟩⟩⟩
  · cases hi
  · simp at hi
  · simp only [List.map_cons, List.map_nil, List.cons.injEq, and_true] at hi
    have e1 := hd f (by simp)
    have e2 := hd g (by simp)
    rw [hi.1] at e1
    rw [hi.2] at e2
    have f1 : f.freq = c!"QS-JAN" := congrArg PRange.freqstr hi.1
    have g1 : g.freq = c!"MS" := congrArg PRange.freqstr hi.2
    rw [List.map_cons, List.map_cons, List.map_nil, e1, e2, f1, g1]
    decide +kernel
  · simp at hi

/-- A call for the three tables gives a list of data frames. -/
example (safe preserve : Bool) : ∃ frames,
    outcome (getDataFrames Sample.ext0 [0] (.object 0) [] safe preserve
      (Sample.world Sample.tripleSheet (Sample.paramsOf Sample.tripleSeries))) = .ok (.dfs (.many frames), c!"S") := by
  have hreq : Requested Sample.ext0 [0] (Sample.world Sample.tripleSheet (Sample.paramsOf Sample.tripleSeries)) [] 0 :=
    ⟨by simp, by simp, .inl ⟨rfl, rfl⟩⟩
  have hwb : ∀ q ∈ [0], q < (Sample.world Sample.tripleSheet (Sample.paramsOf Sample.tripleSeries)).nextSheet ∧
      WellFormed ((Sample.world Sample.tripleSheet (Sample.paramsOf Sample.tripleSeries)).sheets q) := by
    intro q hq
    rw [List.mem_singleton] at hq
    subst hq
    exact ⟨Nat.one_pos, Sample.rows_wellFormed (by decide) (by decide) (by decide)⟩
  obtain ⟨frames, h1, h2⟩ := (C113_call_partial Sample.ext0 Sample.ext0_real [0]
    (Sample.world Sample.tripleSheet (Sample.paramsOf Sample.tripleSeries)) (.object 0) [] safe preserve 0
    (p := Sample.paramsOf Sample.tripleSeries) (sps := Sample.tripleSeries) hreq hwb Sample.triple_valid
    (.inl ⟨0, rfl, rfl⟩) (fun _ => rfl) (by decide) Sample.triple_apart).2 Sample.tripleAlone
    (Sample.triple_alone.imp fun x f hx => (callReadAs_iff hreq hwb).2 hx) (by
      intro z hz w hw h
      exfalso
      revert z hz h
      decide +kernel)
  have hi := h2.indexes
  rw [show (Sample.tripleAlone.map frameDates).eraseDups =
    [⟨c!"QS-JAN", [⟨2000, 7, 1, 0⟩, ⟨2000, 10, 1, 0⟩, ⟨2001, 1, 1, 0⟩]⟩,
     ⟨c!"MS", [⟨2000, 1, 1, 0⟩, ⟨2000, 2, 1, 0⟩, ⟨2000, 3, 1, 0⟩, ⟨2000, 4, 1, 0⟩]⟩] by decide +kernel] at hi
  rcases frames with _ | ⟨f, _ | ⟨g, rest⟩⟩
  · cases hi
  · simp at hi
  · exact ⟨_, h1⟩

/-! ### Where it fails -/

/-- All days, and the working days among them, of the same week. -/
def Sample.bothDaysSheet : Sheet := Sample.rows
  [[.str c!"fecha", .str c!"PBI", .none, .str c!"fecha", .str c!"IPC"],
   [Sample.day 2018 1 4, .int 10, .none, Sample.day 2018 1 4, .int 1],
   [Sample.day 2018 1 5, .int 11, .none, Sample.day 2018 1 5, .int 2],
   [Sample.day 2018 1 6, .int 12, .none, Sample.day 2018 1 8, .int 3],
   [Sample.day 2018 1 7, .int 13, .none, Sample.day 2018 1 9, .int 4],
   [Sample.day 2018 1 8, .int 14, .none, .none, .none],
   [Sample.day 2018 1 9, .int 15, .none, .none, .none]]

def Sample.everyDays : SParams := { Sample.monthly with frequency := c!"D" }

def Sample.onWorkDays : SParams :=
  { Sample.monthly with
    headerCoord := c!"E1", timeHeader := .single c!"D1", frequency := c!"D", missings := true,
    missingValue := .list [.str c!"..."] }

/-- The tables stand apart and each gives a data frame alone. -/
theorem Sample.bothDays_apart : Apart Sample.bothDaysSheet.maxRow [Sample.everyDays, Sample.onWorkDays] where
  simple := by
    intro x hx
    simp only [List.mem_cons, List.not_mem_nil, or_false] at hx
    rcases hx with rfl | rfl
    · exact simple_column (a := 1) (b := 1) (c := 1) (d := 2) rfl rfl (by decide) (by decide) (by decide) (by decide)
        (by decide) (by decide) rfl rfl (by decide) rfl (fun _ h => by cases h) rfl (by decide)
    · exact simple_column (a := 1) (b := 4) (c := 1) (d := 5) rfl rfl (by decide) (by decide) (by decide) (by decide)
        (by decide) (by decide) rfl rfl (by decide) rfl (fun _ h => by cases h) rfl (by decide)
  common := by
    intro x hx y hy
    simp only [List.mem_cons, List.not_mem_nil, or_false] at hx hy
    rcases hx with rfl | rfl <;> rcases hy with rfl | rfl <;> intro h <;> first | rfl | cases h
  others := by
    intro x hx y hy
    simp only [List.mem_cons, List.not_mem_nil, or_false] at hx hy
    rcases hx with rfl | rfl <;> rcases hy with rfl | rfl <;> intro h <;>
      first
        | exact absurd rfl h
        | exact other_columns rfl rfl rfl rfl rfl rfl rfl rfl (by decide) (by decide)

/-- C113. The condition on business days is needed. A table of all days and a table of working days between the same
two days stand apart, and each is read alone. Together they are not read. -/
theorem C113_business_violated : ∃ (ext : Ext) (s : Sheet) (sps : List SParams) (alone : List Frame),
    RealDates ext ∧ WellFormed s ∧ Apart s.maxRow sps ∧ List.Forall₂ (ReadAs ext s) sps alone ∧
    ∀ p, HasSeries p sps → (scrape ext p s).1 = .error .valueError := by
  refine ⟨Sample.extWeek, Sample.bothDaysSheet, [Sample.everyDays, Sample.onWorkDays],
    [⟨c!"D", [⟨2018, 1, 4, 0⟩, ⟨2018, 1, 5, 0⟩, ⟨2018, 1, 6, 0⟩, ⟨2018, 1, 7, 0⟩, ⟨2018, 1, 8, 0⟩, ⟨2018, 1, 9, 0⟩],
        [c!"PBI"], [[.fin 10, .fin 11, .fin 12, .fin 13, .fin 14, .fin 15]]⟩,
     ⟨c!"B", [⟨2018, 1, 4, 0⟩, ⟨2018, 1, 5, 0⟩, ⟨2018, 1, 8, 0⟩, ⟨2018, 1, 9, 0⟩], [c!"IPC"],
        [[.fin 1, .fin 2, .fin 3, .fin 4]]⟩],
    Sample.extWeek_real, Sample.rows_wellFormed (by decide) (by decide) (by decide), Sample.bothDays_apart,
    .cons (fun q hq => ?_) (.cons (fun q hq => ?_) .nil), fun q hq => ?_⟩
  · have : q = onlySeries Sample.everyDays := funext hq
    subst this
    decide +kernel
  · have : q = onlySeries Sample.onWorkDays := funext hq
    subst this
    decide +kernel
  · have : q = Sample.paramsOf [Sample.everyDays, Sample.onWorkDays] := funext hq
    subst this
    decide +kernel

/-- Two tables one under the other, with their dates in one column. -/
def Sample.oneBelowSheet : Sheet := Sample.rows
  [[.str c!"fecha", .str c!"PBI"],
   [.str c!"2000 III", .int 10],
   [.str c!"IV", .int 11],
   [.none, .none],
   [.none, .str c!"IPC"],
   [.str c!"2005 I", .int 20],
   [.str c!"II", .int 21]]

def Sample.oneBelowSeries (header : Str) (start last : Int) : SParams :=
  { Sample.quarterSeries header with dataStarts := start, dataEnds := some last }

/-- C113. Tables that stand apart but name the same header of their dates are not read together: only the dates of
the first one are read. -/
theorem C113_header_violated : ∃ (ext : Ext) (s : Sheet) (sps : List SParams) (alone : List Frame),
    RealDates ext ∧ WellFormed s ∧ (∀ x ∈ sps, Simple s.maxRow x) ∧
    (∀ x ∈ sps, ∀ y ∈ sps, x.headerCoord ≠ y.headerCoord → ∀ r c, DateCell x r c → ¬ DateCell y r c) ∧
    List.Forall₂ (ReadAs ext s) sps alone ∧ ∀ p, HasSeries p sps → (scrape ext p s).1.isOk = false := by
  refine ⟨Sample.ext0, Sample.oneBelowSheet, [Sample.oneBelowSeries c!"B1" 2 3, Sample.oneBelowSeries c!"B5" 6 7],
    [⟨c!"QS-JAN", [⟨2000, 7, 1, 0⟩, ⟨2000, 10, 1, 0⟩], [c!"PBI"], [[.fin 10, .fin 11]]⟩,
     ⟨c!"QS-JAN", [⟨2005, 1, 1, 0⟩, ⟨2005, 4, 1, 0⟩], [c!"IPC"], [[.fin 20, .fin 21]]⟩],
    Sample.ext0_real, Sample.rows_wellFormed (by decide) (by decide) (by decide), ?_, ?_,
    .cons (fun q hq => ?_) (.cons (fun q hq => ?_) .nil), fun q hq => ?_⟩
  · intro x hx
    simp only [List.mem_cons, List.not_mem_nil, or_false] at hx
    rcases hx with rfl | rfl
    · exact Sample.simple_column (a := 1) (b := 1) (c := 1) (d := 2) rfl rfl (by decide) (by decide) (by decide)
        (by decide) (by decide) (by decide) rfl rfl (by decide) rfl (fun _ h => by cases h; decide) rfl (by decide)
    · exact Sample.simple_column (a := 1) (b := 1) (c := 5) (d := 2) rfl rfl (by decide) (by decide) (by decide)
        (by decide) (by decide) (by decide) rfl rfl (by decide) rfl (fun _ h => by cases h; decide) rfl (by decide)
  · intro x hx y hy hxy r c
    simp only [List.mem_cons, List.not_mem_nil, or_false] at hx hy
    rintro ⟨a1, b1, p1, -, k1, k2, k3⟩ ⟨a2, b2, p2, -, l1, l2, l3⟩
    have e1 := k3.1
    have e2 := l3.1
    rcases hx with rfl | rfl <;> rcases hy with rfl | rfl <;> first
      | exact hxy rfl
      | (have m1 := k2 ⟨by decide, by decide⟩ _ rfl
         have m2 := l2 ⟨by decide, by decide⟩ _ rfl
         change r = p1 at e1
         change r = p2 at e2
         simp only [Sample.oneBelowSeries] at k1 l1 m1 m2
         omega)
  · have : q = onlySeries (Sample.oneBelowSeries c!"B1" 2 3) := funext hq
    subst this
    decide +kernel
  · have : q = onlySeries (Sample.oneBelowSeries c!"B5" 6 7) := funext hq
    subst this
    decide +kernel
  · have : q = Sample.paramsOf [Sample.oneBelowSeries c!"B1" 2 3, Sample.oneBelowSeries c!"B5" 6 7] := funext hq
    subst this
    decide +kernel

end Xls
