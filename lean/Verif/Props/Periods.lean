/-
Properties C60, C61 and C75: the index of the data frames.
-/
import Verif.Lemmas.MultiRange
import Verif.Lemmas.Between
import Verif.Spec.Samples

set_option autoImplicit false

namespace Xls

open Spec

/-! ### C60 -/

/-- C60. If the first time cell of a series of one frequency holds the start of a period and the last
one the start of the period where the run `ts` of consecutive periods ends, the index is `ts`: every
period start from the first to the last date, once. -/
theorem C60_index_of_periods (ext : Ext) {s : Sheet} {freq header : Str} {al : Align}
    {starts ends ta hr hc : Int} {ts : List Time} {a z : Time}
    (hal : al = .vertical ∨ al = .horizontal) (hh : coordOf header = .ok (hr, hc))
    (hs : 1 ≤ starts + ta) (he : 1 ≤ ends + ta)
    (hfirst : timeCell s al hr hc (starts + ta) = .dt a)
    (hlast : timeCell s al hr hc (ends + ta) = .dt z)
    (hstart : PeriodStart freq a) (ha : ts.head? = some a) (hz : ts.getLast? = some z)
    (hrun : PeriodRun freq ts) (hv : ∀ t ∈ ts, ValidTime t)
    (ra : Representable a) (rz : Representable z) :
    seriesRanges ext s freq starts header ends ta al = .ok [⟨indexFreq freq, ts⟩] := by
  have hlen : freq.length = 1 := by
    obtain ⟨sh, h⟩ := periodShift_of_start hstart
    rcases periodShift_cases h with h | h | h | h | h | h | h <;> rw [h.1] <;> rfl
  obtain ⟨p1, p2⟩ := coordOf_pos hh
  unfold seriesRanges
  rw [if_pos hlen]
  unfold singleRanges
  rw [if_neg (by rcases hal with h | h <;> rw [h] <;> decide), hh]
  dsimp only
  rw [read_axis p1 p2 hs, read_axis p1 p2 he, hfirst, hlast]
  dsimp only
  rw [dateRange_run ext hv hrun ha hz hstart ra rz]

/-- A quarterly series in rows 2 to 4, time header `A1`. -/
example : seriesRanges Sample.ext0
    (Sample.column [.none, Sample.day 2014 10 1, Sample.day 2015 1 1, Sample.day 2015 4 1])
    c!"Q" 2 c!"A1" 4 0 .vertical =
    .ok [⟨c!"QS-JAN", [⟨2014, 10, 1, 0⟩, ⟨2015, 1, 1, 0⟩, ⟨2015, 4, 1, 0⟩]⟩] :=
  C60_index_of_periods (hr := 1) (hc := 1) (a := ⟨2014, 10, 1, 0⟩) (z := ⟨2015, 4, 1, 0⟩) _ (.inl rfl)
    rfl (by decide) (by decide) rfl rfl ⟨by decide, rfl⟩ rfl rfl
    ⟨⟨_, rfl, rfl, rfl, rfl⟩, ⟨_, rfl, rfl, rfl, rfl⟩, trivial⟩ (by decide) (by decide) (by decide)

/-! ### C75 -/

/-- C75. Whatever the first and the last date of a series of one frequency are (valid dates with the
same time of day), its index consists of the consecutive period starts from the first one at or after
the first date to the last one not after the last date. -/
theorem C75_index_between (ext : Ext) {s : Sheet} {freq header : Str} {al : Align} {sh : Shift}
    {starts ends ta hr hc : Int} {a z : Time} (hfreq : periodShift freq = some sh)
    (hal : al = .vertical ∨ al = .horizontal) (hh : coordOf header = .ok (hr, hc))
    (hs : 1 ≤ starts + ta) (he : 1 ≤ ends + ta)
    (hfirst : timeCell s al hr hc (starts + ta) = .dt a)
    (hlast : timeCell s al hr hc (ends + ta) = .dt z)
    (va : ValidTime a) (vz : ValidTime z) (hu : a.us = z.us)
    (ra : Representable a) (rz : Representable z) :
    ∃ ts, seriesRanges ext s freq starts header ends ta al = .ok [⟨indexFreq freq, ts⟩] ∧
      StartsFromTo freq a z ts := by
  have hlen : freq.length = 1 := by
    rcases periodShift_cases hfreq with h | h | h | h | h | h | h <;> rw [h.1] <;> rfl
  obtain ⟨p1, p2⟩ := coordOf_pos hh
  obtain ⟨ts, h1, h2, h3, h4, h5, h6⟩ := dateRange_between ext hfreq va vz hu ra rz
  refine ⟨ts, ?_, h3, h2, h4, ?_, fun hn u hu => h6 hn u hu.valid hu.start hu.hour hu.le⟩
  · unfold seriesRanges
    rw [if_pos hlen]
    unfold singleRanges
    rw [if_neg (by rcases hal with h | h <;> rw [h] <;> decide), hh]
    dsimp only
    rw [read_axis p1 p2 hs, read_axis p1 p2 he, hfirst, hlast]
    dsimp only
    rw [h1]
  · intro t ht
    refine ⟨(h5 t ht).1, fun sh' u e => ?_⟩
    rw [hfreq] at e
    injection e with e
    subst e
    exact (h5 t ht).2 u

/-- C75. Except for semesters: a date-time is in the index if and only if it is a period start from the
first date to the last. -/
theorem C75_index_members (ext : Ext) {s : Sheet} {freq header : Str} {al : Align} {sh : Shift}
    {starts ends ta hr hc : Int} {a z : Time} (hfreq : periodShift freq = some sh) (hS : freq ≠ c!"S")
    (hal : al = .vertical ∨ al = .horizontal) (hh : coordOf header = .ok (hr, hc))
    (hs : 1 ≤ starts + ta) (he : 1 ≤ ends + ta)
    (hfirst : timeCell s al hr hc (starts + ta) = .dt a)
    (hlast : timeCell s al hr hc (ends + ta) = .dt z)
    (va : ValidTime a) (vz : ValidTime z) (hu : a.us = z.us)
    (ra : Representable a) (rz : Representable z) :
    ∃ ts, seriesRanges ext s freq starts header ends ta al = .ok [⟨indexFreq freq, ts⟩] ∧
      ∀ t, t ∈ ts ↔ ValidTime t ∧ PeriodStart freq t ∧ t.us = a.us ∧ a ≤ t ∧ t ≤ z := by
  obtain ⟨ts, h1, h2⟩ := C75_index_between ext hfreq hal hh hs he hfirst hlast va vz hu ra rz
  refine ⟨ts, h1, fun t => ⟨fun ht => ?_, fun ⟨k1, k2, k3, k4, k5⟩ => ?_⟩⟩
  · cases ts with
    | nil => cases ht
    | cons u us =>
      have hf := h2.first u rfl
      obtain ⟨q1, q2, q3⟩ := starts_of_run h2.valid h2.run hf.start t ht
      have vt := h2.valid t ht
      refine ⟨vt, q1, q2.trans hf.hour, ?_, ?_⟩
      · have h3 := hf.le
        rw [le_iff_instant va hf.valid] at h3
        rw [le_iff_instant hf.valid vt] at q3
        rw [le_iff_instant va vt]
        omega
      · obtain ⟨w, hw⟩ : ∃ w, (u :: us).getLast? = some w := ⟨_, List.getLast?_eq_some_getLast (by simp)⟩
        have h3 := le_last_of_run h2.valid h2.run hw t ht
        have h4 := (h2.last w hw).1
        have vw := h2.valid w (getLast?_mem' hw)
        rw [le_iff_instant vt vw] at h3
        rw [le_iff_instant vw vz] at h4
        rw [le_iff_instant vt vz]
        omega
  · obtain ⟨v, hv1, hv2⟩ := rollForward_first hfreq va ra
    have hvt := hv2.least t k1 k2 k3 k4
    cases ts with
    | nil =>
      have := h2.empty rfl v hv2
      rw [le_iff_instant hv2.valid k1] at hvt
      rw [le_iff_instant k1 vz] at k5
      rw [lt_iff_instant vz hv2.valid] at this
      omega
    | cons u us =>
      have hf := h2.first u rfl
      obtain ⟨w, hw⟩ : ∃ w, (u :: us).getLast? = some w := ⟨_, List.getLast?_eq_some_getLast (by simp)⟩
      have vw := h2.valid w (getLast?_mem' hw)
      obtain ⟨h4, h5⟩ := h2.last w hw
      have hwy : w.year ≤ 2261 := by
        have h6 : ¬ Time.lt z w := h4
        have := rz.2
        unfold Time.lt at h6
        omega
      have hwa : 1678 ≤ w.year := by
        have h6 : ¬ Time.lt u a := hf.le
        have h7 : ¬ Time.lt w u := le_last_of_run h2.valid h2.run hw u (by simp)
        have := ra.1
        unfold Time.lt at h6 h7
        omega
      obtain ⟨n, hn, _⟩ := next_exists hfreq vw ⟨hwa, hwy⟩
      obtain ⟨vn, hsn⟩ := shifted_of_next hfreq vw hn
      refine mem_of_between hfreq hS h2.valid h2.run hf.start hw vn hsn k1 k2 (k3.trans hf.hour.symm)
        (hf.least t k1 k2 k3 k4) ?_
      have h8 := h5 sh n hfreq vn hsn
      rw [lt_iff_instant vz vn] at h8
      rw [le_iff_instant k1 vz] at k5
      rw [lt_iff_instant k1 vn]
      omega

/-- Months dated at their ends: the index starts with February. -/
example : seriesRanges Sample.ext0
    (Sample.column [.none, Sample.day 2014 1 31, Sample.day 2014 2 28, Sample.day 2014 3 31])
    c!"M" 2 c!"A1" 4 0 .vertical =
    .ok [⟨c!"MS", [⟨2014, 2, 1, 0⟩, ⟨2014, 3, 1, 0⟩]⟩] := by decide +kernel

/-- The case meets the hypotheses. -/
example : ∃ ts, seriesRanges Sample.ext0
    (Sample.column [.none, Sample.day 2014 1 31, Sample.day 2014 2 28, Sample.day 2014 3 31])
    c!"M" 2 c!"A1" 4 0 .vertical = .ok [⟨c!"MS", ts⟩] ∧
    ∀ t, t ∈ ts ↔ ValidTime t ∧ PeriodStart c!"M" t ∧ t.us = 0 ∧ (⟨2014, 1, 31, 0⟩ : Time) ≤ t ∧
      t ≤ ⟨2014, 3, 31, 0⟩ :=
  C75_index_members (hr := 1) (hc := 1) (a := ⟨2014, 1, 31, 0⟩) (z := ⟨2014, 3, 31, 0⟩) _ rfl (by decide)
    (.inl rfl) rfl (by decide) (by decide) rfl rfl (by decide) (by decide) rfl (by decide) (by decide)

/-! ### C61 -/

theorem multi_ranges_of (ext : Ext) {s : Sheet} {pattern header : Str} {al : Align}
    {ini stop ta hr hc : Int} {ts : List Time} (hal : al = .vertical ∨ al = .horizontal)
    (hh : coordOf header = .ok (hr, hc)) (hp : 2 ≤ pattern.length) (hi : 1 ≤ ini)
    (hsheet : stop ≤ lastPos s al)
    (ht : cellsAlong s al hr hc ini stop = ts.map .dt) (hcycle : pattern.length ≤ ts.length)
    (hrun : ∀ f ∈ pattern, LetterRun pattern ts f)
    (hends : al = .vertical → ∀ f ∈ pattern,
      f ∈ (pattern.take (freqEnd ini stop pattern.length))) :
    seriesRanges ext s pattern ini header stop ta al =
      .ok (pattern.eraseDups.map fun f => ⟨indexFreq [f], ofLetter pattern f ts⟩) := by
  have hne : pattern ≠ [] := by intro h; rw [h] at hp; simp at hp
  have hl := congrArg List.length ht
  simp only [cellsAlong, List.length_map, List.length_range] at hl
  have hn : stop - ini + 1 = (ts.length : Int) := by omega
  obtain ⟨f0, f1, q, f2⟩ := freqEnd_spec (by omega : 0 < pattern.length) hn (by omega)
  unfold seriesRanges
  rw [if_neg (by omega), if_pos (by omega)]
  unfold multiRanges
  rw [if_neg (by rcases hal with h | h <;> rw [h] <;> decide), hh]
  dsimp only
  have hstarts : startPairs (timeLine s al hr hc) pattern ini =
      ((lettered pattern ts).take pattern.length).map fun p => (.dt p.1, p.2) := by
    unfold startPairs
    rw [pySlice_line hal (by omega) (by omega) (by omega),
      show ini - 1 + 1 = ini by omega,
      cellsAlong_take (hi := stop) s al hr hc ini (by omega), ht, ← List.map_take, zip_dt_map]
    unfold lettered
    rw [← zip_take_take, cycleLetters_take hne hcycle]
  have hlast : ∀ k : Nat, k ≤ ts.length → ∀ X : Str,
      X.take k = (cycleLetters pattern ts.length).reverse.take k →
      (pySlice (timeLine s al hr hc) (stop - k) stop).reverse.zip X =
        ((lettered pattern ts).reverse.take k).map fun p => (.dt p.1, p.2) := by
    intro k hk X hX
    have hdrop : cellsAlong s al hr hc (stop - k + 1) stop = (ts.drop (ts.length - k)).map .dt := by
      rw [List.map_drop, ← ht, ← cellsAlong_drop]
      congr 1
      omega
    rw [pySlice_line hal (by omega) (by omega) hsheet, hdrop, ← List.map_reverse, zip_dt_map,
      zip_take_right _ X (k := k) (by rw [List.length_reverse, List.length_drop]; omega), hX]
    unfold lettered
    rw [← zip_reverse_eq _ _ (by rw [cycleLetters_length]), ← zip_take_take, List.take_reverse, List.take_reverse]
  have hendp : ∃ k, endPairs (timeLine s al hr hc) pattern ini stop al =
      ((lettered pattern ts).reverse.take k).map (fun p => (.dt p.1, p.2)) ∧
      ∀ f ∈ pattern, f ∈ (cycleLetters pattern ts.length).reverse.take k := by
    rcases hal with rfl | rfl
    · have hX := cycle_end_vertical hne f1 f2
      refine ⟨freqEnd ini stop pattern.length, ?_, ?_⟩
      · unfold endPairs
        rw [if_pos rfl]
        refine hlast _ (by omega) _ ?_
        rw [hX, List.take_of_length_le (by rw [List.length_reverse, List.length_take]; omega)]
      · intro f hf
        rw [hX, List.mem_reverse]
        exact hends rfl f hf
    · have hX := cycle_end_horizontal hne f0 f1 f2 hcycle
      refine ⟨pattern.length, ?_, ?_⟩
      · unfold endPairs
        rw [if_neg (by decide)]
        exact hlast _ hcycle _ hX.symm
      · intro f hf
        obtain ⟨i, hi', rfl⟩ := List.mem_iff_getElem.1 hf
        -- the letter occurs among the last letters of the cycle
        rw [hX, List.reverse_append]
        by_cases hi2 : i < freqEnd ini stop pattern.length
        · rw [List.mem_take_iff_getElem]
          refine ⟨freqEnd ini stop pattern.length - 1 - i, ?_, ?_⟩
          · rw [List.length_append, List.length_reverse, List.length_reverse, List.length_take]
            omega
          · rw [List.getElem_append_left (by rw [List.length_reverse, List.length_take]; omega),
              List.getElem_reverse, List.getElem_take]
            congr 1
            rw [List.length_take]
            omega
        · rw [List.mem_take_iff_getElem]
          refine ⟨freqEnd ini stop pattern.length + (pattern.length - 1 - i), ?_, ?_⟩
          · rw [List.length_append, List.length_reverse, List.length_reverse, List.length_take,
              List.length_drop]
            omega
          · rw [List.getElem_append_right (by rw [List.length_reverse, List.length_take]; omega),
              List.getElem_reverse, List.getElem_drop]
            congr 1
            rw [List.length_drop, List.length_reverse, List.length_take]
            omega
  obtain ⟨k, hk1, hk2⟩ := hendp
  rw [hstarts, hk1]
  apply rangesOf_run
  intro f hf
  have hf' : f ∈ pattern := by
    rwa [List.mem_eraseDups] at hf
  obtain ⟨a, ha, ha2⟩ := capture_first (k := pattern.length) (f := f) hne (by
    rw [cycleLetters_take hne hcycle]; exact hf')
  obtain ⟨z, hz, hz2⟩ := capture_last (ts := ts) (k := k) (f := f) hne (hk2 f hf')
  have hr' := hrun f hf'
  exact ⟨a, z, ha, hz, ha2, hz2, hr'.valid, hr'.run, (hr'.start a ha).1, (hr'.start a ha).2,
    hr'.stop z hz⟩

/-- C61. A horizontal series that cycles through the frequencies of a pattern, at least one cycle long:
there is one index for each frequency, in order of appearance, made of the dates of that frequency,
from the first to the last one. -/
theorem C61_horizontal (ext : Ext) {s : Sheet} {pattern header : Str} {ini stop ta hr hc : Int}
    {ts : List Time} (hh : coordOf header = .ok (hr, hc)) (hp : 2 ≤ pattern.length) (hi : 1 ≤ ini)
    (hsheet : stop ≤ s.maxCol)
    (ht : cellsAlong s .horizontal hr hc ini stop = ts.map .dt)
    (hcycle : pattern.length ≤ ts.length) (hrun : ∀ f ∈ pattern, LetterRun pattern ts f) :
    seriesRanges ext s pattern ini header stop ta .horizontal =
      .ok (pattern.eraseDups.map fun f => ⟨indexFreq [f], ofLetter pattern f ts⟩) :=
  multi_ranges_of ext (.inr rfl) hh hp hi hsheet ht hcycle hrun (by intro h; cases h)

/-- C61. The same for a vertical series, if its last cycle is complete or at least has all the
frequencies: `partialLen` is the number of values in the last cycle. -/
theorem C61_vertical_partial (ext : Ext) {s : Sheet} {pattern header : Str} {ini stop ta hr hc : Int}
    {ts : List Time} {partialLen full : Nat} (hh : coordOf header = .ok (hr, hc))
    (hp : 2 ≤ pattern.length) (hi : 1 ≤ ini) (hsheet : stop ≤ s.maxRow)
    (ht : cellsAlong s .vertical hr hc ini stop = ts.map .dt)
    (hcycle : pattern.length ≤ ts.length) (hrun : ∀ f ∈ pattern, LetterRun pattern ts f)
    (hlen : ts.length = full * pattern.length + partialLen) (h0 : 1 ≤ partialLen)
    (h1 : partialLen ≤ pattern.length) (hall : ∀ f ∈ pattern, f ∈ pattern.take partialLen) :
    seriesRanges ext s pattern ini header stop ta .vertical =
      .ok (pattern.eraseDups.map fun f => ⟨indexFreq [f], ofLetter pattern f ts⟩) := by
  refine multi_ranges_of ext (.inl rfl) hh hp hi hsheet ht hcycle hrun ?_
  intro _ f hf
  have hl := congrArg List.length ht
  simp only [cellsAlong, List.length_map, List.length_range] at hl
  have hn : stop - ini + 1 = (ts.length : Int) := by omega
  obtain ⟨f0, f1, q, f2⟩ := freqEnd_spec (by omega : 0 < pattern.length) hn (by omega)
  have : freqEnd ini stop pattern.length = partialLen := by
    have e : full * pattern.length + partialLen = q * pattern.length + freqEnd ini stop pattern.length := by
      omega
    rcases Nat.lt_trichotomy full q with h | h | h
    · obtain ⟨d, rfl⟩ : ∃ d, q = full + 1 + d := ⟨q - full - 1, by omega⟩
      rw [Nat.add_mul, Nat.add_mul, Nat.one_mul] at e
      omega
    · rw [h] at e; omega
    · obtain ⟨d, rfl⟩ : ∃ d, full = q + 1 + d := ⟨full - q - 1, by omega⟩
      rw [Nat.add_mul, Nat.add_mul, Nat.one_mul] at e
      omega
  rw [this]
  exact hall f hf

/-- Two years of quarters and annual totals, in row 1 from column 2 on. -/
def Sample.quartersAndYear : List Cell :=
  [.none, Sample.day 2014 1 1, Sample.day 2014 4 1, Sample.day 2014 7 1, Sample.day 2014 10 1,
    Sample.day 2014 1 1, Sample.day 2015 1 1, Sample.day 2015 4 1]

theorem Sample.quarters_run : ∀ f ∈ c!"QQQQA", LetterRun c!"QQQQA"
    [⟨2014, 1, 1, 0⟩, ⟨2014, 4, 1, 0⟩, ⟨2014, 7, 1, 0⟩, ⟨2014, 10, 1, 0⟩, ⟨2014, 1, 1, 0⟩,
      ⟨2015, 1, 1, 0⟩, ⟨2015, 4, 1, 0⟩] f := by
  have hq : ofLetter c!"QQQQA" 'Q' [(⟨2014, 1, 1, 0⟩ : Time), ⟨2014, 4, 1, 0⟩, ⟨2014, 7, 1, 0⟩,
      ⟨2014, 10, 1, 0⟩, ⟨2014, 1, 1, 0⟩, ⟨2015, 1, 1, 0⟩, ⟨2015, 4, 1, 0⟩] =
      [⟨2014, 1, 1, 0⟩, ⟨2014, 4, 1, 0⟩, ⟨2014, 7, 1, 0⟩, ⟨2014, 10, 1, 0⟩, ⟨2015, 1, 1, 0⟩,
        ⟨2015, 4, 1, 0⟩] := by decide
  have ha : ofLetter c!"QQQQA" 'A' [(⟨2014, 1, 1, 0⟩ : Time), ⟨2014, 4, 1, 0⟩, ⟨2014, 7, 1, 0⟩,
      ⟨2014, 10, 1, 0⟩, ⟨2014, 1, 1, 0⟩, ⟨2015, 1, 1, 0⟩, ⟨2015, 4, 1, 0⟩] =
      [⟨2014, 1, 1, 0⟩] := by decide
  have hQ : LetterRun c!"QQQQA" [⟨2014, 1, 1, 0⟩, ⟨2014, 4, 1, 0⟩, ⟨2014, 7, 1, 0⟩,
      ⟨2014, 10, 1, 0⟩, ⟨2014, 1, 1, 0⟩, ⟨2015, 1, 1, 0⟩, ⟨2015, 4, 1, 0⟩] 'Q' := by
    refine ⟨?_, ?_, ?_, ?_⟩ <;> rw [hq]
    · decide
    · exact ⟨⟨_, rfl, rfl, rfl, rfl⟩, ⟨_, rfl, rfl, rfl, rfl⟩, ⟨_, rfl, rfl, rfl, rfl⟩,
        ⟨_, rfl, rfl, rfl, rfl⟩, ⟨_, rfl, rfl, rfl, rfl⟩, trivial⟩
    · intro a h; injection h with h; subst h; exact ⟨⟨by decide, rfl⟩, by decide⟩
    · intro z h; injection h with h; subst h; decide
  have hA : LetterRun c!"QQQQA" [⟨2014, 1, 1, 0⟩, ⟨2014, 4, 1, 0⟩, ⟨2014, 7, 1, 0⟩,
      ⟨2014, 10, 1, 0⟩, ⟨2014, 1, 1, 0⟩, ⟨2015, 1, 1, 0⟩, ⟨2015, 4, 1, 0⟩] 'A' := by
    refine ⟨?_, ?_, ?_, ?_⟩ <;> rw [ha]
    · decide
    · trivial
    · intro a h; injection h with h; subst h; exact ⟨⟨by decide, rfl⟩, by decide⟩
    · intro z h; injection h with h; subst h; decide
  intro f hf
  simp only [List.mem_cons, List.not_mem_nil, or_false] at hf
  rcases hf with h | h | h | h | h <;> subst h
  all_goals first | exact hQ | exact hA

example : seriesRanges Sample.ext0 (Sample.transpose (Sample.column Sample.quartersAndYear))
    c!"QQQQA" 2 c!"A1" 8 0 .horizontal =
    .ok [⟨c!"QS-JAN", [⟨2014, 1, 1, 0⟩, ⟨2014, 4, 1, 0⟩, ⟨2014, 7, 1, 0⟩, ⟨2014, 10, 1, 0⟩,
        ⟨2015, 1, 1, 0⟩, ⟨2015, 4, 1, 0⟩]⟩, ⟨c!"AS-JAN", [⟨2014, 1, 1, 0⟩]⟩] :=
  C61_horizontal (hr := 1) (hc := 1) _ rfl (by decide) (by decide) (by decide) rfl (by decide)
    Sample.quarters_run

/-- C61. Violated: the same series in a column. The last cycle has no annual value, so the annual
frequency gets no last date and the extraction fails. -/
theorem C61_vertical_violated :
    seriesRanges Sample.ext0 (Sample.column Sample.quartersAndYear) c!"QQQQA" 2 c!"A1" 8 0 .vertical =
      .error .valueError := by
  decide +kernel

end Xls
