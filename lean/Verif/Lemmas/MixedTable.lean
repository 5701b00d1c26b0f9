/-
Cleaning of a time index with several frequencies.
-/
import Verif.Lemmas.MixedText
import Verif.Lemmas.LayoutData
import Verif.Lemmas.Frequency
import Verif.Spec.MixedTable

set_option autoImplicit false

namespace Xls

open Spec

/-- The parser for a style. -/
def mixedParser : MixedStyle → Option Parser
  | .dates => none
  | .yearThenQuarters => some .yearQuarter1
  | .quartersThenYear => some .quarterYear1

/-- The parser of the state is none or that of the style. -/
def MixedParserFor (style : MixedStyle) (p : Option Parser) : Prop :=
  ∀ q, mixedParser style = some q → p = none ∨ p = some q

/-- What parsing gives: the date, but the month before for a year at the head of its quarters. -/
theorem mixed_parse {ext : Ext} {sp : SParams} {style : MixedStyle} {letter : Char} {last : Option Time}
    {c : Cell} {t : Time} (hf : style.Fits sp.timeComposed sp.frequency)
    (h : MixedSays ext style letter last c t) (hl : ∀ l, last = some l → ValidTime l) (next : Cell)
    {p : Option Parser} (hp : MixedParserFor style p) :
    ∃ t0 p', parseTimeValue ext sp p c last next = (.ok t0, p') ∧ MixedParserFor style p' ∧
      (t0 = t ∨ (style = .yearThenQuarters ∧ letter = 'A' ∧ t0.year = t.year ∧ t0.day = t.day ∧
        t0.us = t.us ∧ t.month = 1 ∧ last ≠ none ∧ 1 ≤ t0.month)) := by
  have key : ∀ q, mixedParser style = some q → MixedParserFor style (some q) := by
    intro q hq q' hq'
    rw [hq] at hq'
    exact .inr hq'
  cases h with
  | date =>
    have hc : sp.timeComposed = false := hf
    cases p with
    | none =>
      refine ⟨t, some .month1, ?_, (fun q hq => by cases hq), .inl rfl⟩
      simp [parseTimeValue, parsers, searchParser, accepts, hc, parseWith, parseCell]
    | some p =>
      refine ⟨t, some p, ?_, (fun q hq => by cases hq), .inl rfl⟩
      simp [parseTimeValue, parseWith, parseCell]
  | year h1 h2 h3 h4 =>
    refine ⟨_, _, mixed_year (.inl rfl) hf.1 hf.2 (hp _ rfl) h1 h2 h3 h4
      (fun l hl' => ⟨(hl l hl').month_pos, (hl l hl').month_le⟩), key _ rfl, ?_⟩
    cases last with
    | none => exact .inl rfl
    | some l => exact .inr ⟨rfl, rfl, rfl, rfl, rfl, rfl, by simp, (hl l rfl).month_pos⟩
  | yearNumber h1 h2 =>
    refine ⟨_, _, mixed_year_number (.inl rfl) hf.1 hf.2 (hp _ rfl) h1 h2
      (fun l hl' => ⟨(hl l hl').month_pos, (hl l hl').month_le⟩), key _ rfl, ?_⟩
    cases last with
    | none => exact .inl rfl
    | some l => exact .inr ⟨rfl, rfl, rfl, rfl, rfl, rfl, by simp, (hl l rfl).month_pos⟩
  | quarter h0 h1 h2 h3 h4 h5 h6 =>
    cases style with
    | dates => exact absurd rfl h0
    | yearThenQuarters =>
      exact ⟨_, _, mixed_quarter (.inl rfl) hf.1 hf.2 (hp _ rfl) h1 h2 h3 h4 h5 h6, key _ rfl, .inl rfl⟩
    | quartersThenYear =>
      exact ⟨_, _, mixed_quarter (.inr rfl) hf.1 hf.2 (hp _ rfl) h1 h2 h3 h4 h5 h6, key _ rfl, .inl rfl⟩
  | @firstQuarter _ _ f1 f2 f3 n h1 h2 h3 h4 h5 h6 =>
    refine ⟨_, _, mixed_year (f := f1) (n := n) (g := f2 ++ c!"I" ++ f3) (.inr rfl) hf.1 hf.2 (hp _ rfl)
      (by rw [h1]; simp [List.append_assoc]) h2 (without_digits h3) ?_
      (fun l hl' => ⟨(hl l hl').month_pos, (hl l hl').month_le⟩), key _ rfl, ?_⟩
    · intro x hx
      rcases List.mem_append.1 hx with hx | hx
      · rcases List.mem_append.1 hx with hx | hx
        · exact without_digits h4 x hx
        · rw [List.mem_singleton.1 hx]; decide
      · exact without_digits h5 x hx
    · left
      cases last with
      | none => rfl
      | some l =>
        show (⟨n, l.month, 1, 0⟩ : Time) = _
        rw [h6 l rfl]
  | total h1 h2 h3 =>
    exact ⟨_, _, mixed_total hf.1 hf.2 (hp _ rfl) h1 h2 h3, key _ rfl, .inl rfl⟩

theorem mixed_mustBe {ext : Ext} {sp : SParams} {style : MixedStyle} {letter : Char} {last : Option Time}
    {c : Cell} {t : Time} (hta : sp.timeAlignment = 0) (h : MixedSays ext style letter last c t)
    (hb : ¬ BlankCell c) : mustBeTimeValue sp c = true := by
  have hstr : ∀ raw, ¬ BlankCell (.str raw) → mustBeTimeValue sp (.str raw) = true := by
    intro raw hb
    have : strip raw ≠ [] := by
      intro he
      rw [strip_eq_nil, List.all_eq_true] at he
      exact hb he
    simp [mustBeTimeValue, hta, this]
  cases h with
  | date => exact mustBe_dt sp t
  | yearNumber h1 => exact mustBe_number hta h1
  | _ => exact hstr _ hb

/-! ### Reading in order -/

theorem Spec.MixedReads.length {ext : Ext} {style : MixedStyle} {pattern : Str} : ∀ {k : Nat}
    {l0 : Option Time} {cs : List Cell} {ts : List Time}, MixedReads ext style pattern k l0 cs ts →
    ts.length = cs.length
  | _, _, _, _, .nil => rfl
  | _, _, _, _, .cons _ _ _ h => by rw [List.length_cons, List.length_cons, h.length]

theorem Spec.MixedReads.at {ext : Ext} {style : MixedStyle} {pattern : Str} : ∀ {k : Nat}
    {l0 : Option Time} {cs : List Cell} {ts : List Time}, MixedReads ext style pattern k l0 cs ts →
    ∀ {i : Nat} {t : Time}, ts[i]? = some t →
    ∃ c letter, cs[i]? = some c ∧ letterAt pattern (k + i) = some letter ∧ ¬ BlankCell c ∧
      MixedSays ext style letter ((ts.take i).getLast?.or l0) c t
  | _, _, _, _, .nil, i, t, hi => by cases hi
  | _, _, _, _, .cons h0 h1 h2 h, 0, t, hi => by
    cases hi
    exact ⟨_, _, rfl, h0, h2, h1⟩
  | k, _, _, _, .cons (t := t0) (ts := ts) h0 h1 h2 h, i + 1, t, hi => by
    obtain ⟨c, letter, a1, a2, a3, a4⟩ := h.at (i := i) hi
    refine ⟨c, letter, a1, by rw [← a2]; congr 1; omega, a3, ?_⟩
    rw [List.take_succ_cons]
    have : (t0 :: List.take i ts).getLast? = some ((List.take i ts).getLast?.getD t0) := by
      rw [List.getLast?_cons]
    rw [this]
    cases hx : (List.take i ts).getLast? with
    | none => rw [hx] at a4; exact a4
    | some y => rw [hx] at a4; exact a4

theorem ofLetter_append {α : Type} (pattern : Str) (c : Char) (xs ys : List α) :
    ∃ zs, ofLetter pattern c (xs ++ ys) = ofLetter pattern c xs ++ zs := by
  unfold ofLetter
  rw [List.zipIdx_append, List.filter_append, List.map_append]
  exact ⟨_, rfl⟩

theorem letterAt_mem {pattern : Str} {k : Nat} {c : Char} (h : letterAt pattern k = some c) : c ∈ pattern :=
  List.mem_of_getElem? h

/-- Each date belongs to its letter. -/
theorem mem_ofLetter {α : Type} {pattern : Str} {c : Char} {xs : List α} {i : Nat} {x : α}
    (hi : xs[i]? = some x) (hc : letterAt pattern i = some c) : x ∈ ofLetter pattern c xs := by
  unfold ofLetter
  rw [List.mem_map]
  refine ⟨(x, i), ?_, rfl⟩
  rw [List.mem_filter]
  refine ⟨?_, by simpa using hc⟩
  rw [List.mk_mem_zipIdx_iff_getElem?]
  exact hi

/-- The date before, of the same letter, is one period before. -/
theorem letter_shift {pattern : Str} {ts : List Time} {c : Char} {i : Nat} {l t : Time}
    (hm : c ∈ c!"AQMWD") (hr : LetterRun pattern ts c) (hi : ts[i]? = some t)
    (hc : letterAt pattern i = some c) (hl : (ofLetter pattern c (ts.take i)).getLast? = some l) :
    ValidTime l ∧ ValidTime t ∧ ∃ sh, shiftOf [c] = some sh ∧ IsShifted l 1 t sh := by
  have hlt := (List.getElem?_eq_some_iff.1 hi).1
  have hti : ts.take i ++ [t] = ts.take (i + 1) := by
    rw [List.take_add_one, hi]; rfl
  obtain ⟨zs, hz⟩ := ofLetter_append pattern c (ts.take (i + 1)) (ts.drop (i + 1))
  rw [List.take_append_drop, ← hti, ofLetter_snoc, List.length_take, Nat.min_eq_left (by omega),
    if_pos hc] at hz
  obtain ⟨pre, hpre⟩ := List.getLast?_eq_some_iff.1 hl
  rw [hpre] at hz
  have hcons : Consecutive [c] (ofLetter pattern c ts) := by
    have : ([c] : Str) ∈ [c!"A", c!"Q", c!"M", c!"W", c!"D"] := by
      simp only [List.mem_cons, List.not_mem_nil, or_false] at hm ⊢
      rcases hm with h | h | h | h | h <;> subst h <;> simp
    obtain ⟨n1, n2, _⟩ := notS_of_frequency this
    exact consecutive_of_run n1 n2 hr.run
  have e : ofLetter pattern c ts = pre ++ l :: t :: zs := by
    rw [hz]; simp [List.append_assoc]
  rw [e] at hcons
  refine ⟨hr.valid l (by rw [e]; simp), hr.valid t (by rw [e]; simp), consecutive_split pre hcons⟩

/-- A date that differs from the expected one in the month only is corrected. -/
theorem correct_month {l t t0 : Time} {f : Str} {sh : Shift} (mv : PVal) (hv : ValidTime l) (hv' : ValidTime t)
    (hs : shiftOf f = some sh) (hi : IsShifted l 1 t sh) (hy : t0.year = t.year) (hd : t0.day = t.day)
    (hu : t0.us = t.us) (hm : t.month = 1) (hm0 : 1 ≤ t0.month) :
    correctProgression (some l) t0 f false mv = .ok (some t) := by
  obtain ⟨h1, h2, h3⟩ := correctProgression_expected false mv hv hv' hs hi
  by_cases he : t = t0
  · rw [← he]; exact h2
  · simp only [correctProgression, h1]
    rw [if_neg he]
    have hmne : t0.month ≠ t.month := by
      intro e
      apply he
      cases t; cases t0
      simp_all
    have hty : timeValueTypo t0 t = true := by
      unfold timeValueTypo
      rw [hy, hd]
      have : (t0.month == t.month) = false := by simpa using hmne
      rw [this]
      simp
    have hlt : l < t0 := by
      refine Time.lt_trans h3 ?_
      exact .inr ⟨hy.symm, .inl (by omega)⟩
    rw [if_neg (fun h => Time.lt_irrefl l (Time.lt_trans hlt h)), if_pos ⟨hlt, trivial⟩, if_pos hty]

/-! ### The cleaned index -/

/-- The state after `i` cells. -/
structure MixedInv (style : MixedStyle) (pattern : Str) (ts : List Time) (i : Nat) (st : CState) : Prop where
  parser : MixedParserFor style st.parser
  last : st.last = (ts.take i).getLast?
  freq : st.mfFreq = consumed pattern (ts.take i).length
  lasts : ∀ c, mfGet st.mfLast c = (ofLetter pattern c (ts.take i)).getLast?
  blanks : st.blanks = i - ts.length

theorem clean_mixed {ext : Ext} {sp : SParams} {s : Sheet} {style : MixedStyle} {tr tc last : Int}
    {ts : List Time} (h : MixedIndex ext sp s style tr tc last ts)
    (hy : style = .yearThenQuarters → sp.missings = false)
    (hm : ∀ f ∈ sp.frequency, f ∈ c!"AQMWD") (hr : ∀ f ∈ sp.frequency, LetterRun sp.frequency ts f) :
    ∃ s1, cleanTimeIndex ext sp s = (.ok last, s1) ∧
      DatesWritten s s1 sp.alignment tr tc sp.dataStarts (ts.map some) := by
  have hne : sp.frequency ≠ [] := by
    intro e
    have := h.several
    rw [e] at this
    simp at this
  have hnot1 : ¬ sp.frequency.length = 1 := by have := h.several; omega
  have hline : TimeLine sp tr tc := ⟨h.header, h.starts, h.aligned, hne⟩
  have hlen : ts.length = (last + 1 - sp.dataStarts).toNat := by
    rw [h.reads.length, readsAlong_length]
  have htwo := h.two
  have hwithin := h.within
  obtain ⟨z, hz⟩ : ∃ z, ts.getLast? = some z := by
    cases hx : ts.getLast? with
    | some z => exact ⟨z, rfl⟩
    | none =>
      rw [List.getLast?_eq_none_iff] at hx
      rw [hx] at hlen
      simp at hlen
      omega
  have hg1 : 1 ≤ gapLimit sp := by unfold gapLimit; split <;> omega
  have hg41 : gapLimit sp ≤ 41 := by unfold gapLimit; split <;> omega
  obtain ⟨k, hk, hcase⟩ : ∃ k : Nat, k ≤ gapLimit sp - 1 ∧
      ((last + k = lastPosition sp s ∧ (k = 0 ∨ sp.alignment = .vertical)) ∨
        (sp.alignment = .vertical ∧ k = gapLimit sp - 1 ∧ last + k < lastPosition sp s)) := by
    rcases h.after with ha | ⟨ha, _⟩
    · exact ⟨0, by omega, .inl ⟨by omega, .inl rfl⟩⟩
    · by_cases hc : lastPosition sp s - last ≤ ((gapLimit sp - 1 : Nat) : Int)
      · exact ⟨(lastPosition sp s - last).toNat, by omega, .inl ⟨by omega, .inr ha⟩⟩
      · exact ⟨gapLimit sp - 1, Nat.le_refl _, .inr ⟨ha, rfl, by omega⟩⟩
  have hafter : ∀ pos, last < pos → pos ≤ lastPosition sp s → pos ≤ last + k + 1 →
      BlankCell (readCell ext sp s pos) := by
    intro pos h1 h2 h3
    rcases h.after with ha | ⟨_, ha⟩
    · omega
    · exact ha pos h1 h2 (by omega)
  have hkpos : last + k ≤ lastPosition sp s := by
    rcases hcase with ⟨h1, _⟩ | ⟨_, _, h1⟩ <;> omega
  have hinit : MixedInv style sp.frequency ts 0 .init :=
    ⟨fun _ _ => .inl rfl, rfl, rfl, fun _ => rfl, by simp [CState.init]⟩
  rw [show last = last - sp.timeAlignment by rw [h.offset, Int.sub_zero]]
  refine clean_line hline (last := last) (z := z) (k := k) (MixedInv style sp.frequency ts) hinit ?_
    (fun pos h1 h2 => h.plain pos h1 (by omega)) (by rw [List.length_map]; omega) (by omega)
    (by rw [h.offset]; omega) (by rw [List.getLast?_map, hz]; rfl) ?_ ?_
  · intro i ot hi
    have hil := (List.getElem?_eq_some_iff.1 hi).1
    rw [List.length_append, List.length_replicate, List.length_map] at hil
    rcases Nat.lt_or_ge i ts.length with hlt | hge
    · rw [List.getElem?_append_left (by rw [List.length_map]; exact hlt), List.getElem?_map,
        List.getElem?_eq_getElem hlt] at hi
      cases hi
      have hti := List.getElem?_eq_getElem hlt
      generalize ts[i] = t at hti
      obtain ⟨c, letter, hc, hle, hb, hsays⟩ := h.reads.at hti
      rw [Nat.zero_add] at hle
      rw [readsAlong_get hc]
      have htl : (ts.take i).length = i := by rw [List.length_take]; omega
      have htake : ts.take (i + 1) = ts.take i ++ [t] := by
        rw [List.take_add_one, hti]; rfl
      have hlm := letterAt_mem hle
      refine ⟨mixed_mustBe h.offset hsays hb, fun st hst => ?_⟩
      have hlast : (ts.take i).getLast?.or none = st.last := by
        rw [hst.last]
        cases (ts.take i).getLast? <;> rfl
      rw [hlast] at hsays
      have hvalid : ∀ (j : Nat) l, ts[j]? = some l → ValidTime l := by
        intro j l hj
        obtain ⟨d, hd⟩ := letterAt_some hne j
        exact (hr d (letterAt_mem hd)).valid l (mem_ofLetter hj hd)
      obtain ⟨t0, p', hp1, hp2, hp3⟩ := mixed_parse h.fits hsays
        (by
          intro l hl
          rw [hst.last, List.getLast?_eq_getElem?] at hl
          rw [htl, List.getElem?_take] at hl
          split at hl
          · exact hvalid _ l hl
          · cases hl)
        (readCell ext sp s (sp.dataStarts + i + 1)) hst.parser
      obtain ⟨d, hd1, hd2⟩ := nextFrequency_consumed hne i
      rw [hle] at hd1
      cases hd1
      have hcorr : correctProgression (mfGet st.mfLast letter) t0 [letter] sp.missings sp.missingValue =
          .ok (some t) := by
        rw [hst.lasts letter]
        cases hl : (ofLetter sp.frequency letter (ts.take i)).getLast? with
        | none =>
          rcases hp3 with rfl | ⟨hs1, hs2, _, _, _, _, hs7, _⟩
          · rfl
          · exfalso
            subst hs1
            rcases Nat.eq_zero_or_pos i with h0 | h0
            · apply hs7
              rw [hst.last, h0]
              rfl
            · have hA : letterAt sp.frequency 0 = some letter := by
                rw [h.fits.2, hs2]; rfl
              have h0t := List.getElem?_eq_getElem (show 0 < (ts.take i).length by omega)
              have := mem_ofLetter h0t hA
              rw [List.getLast?_eq_none_iff] at hl
              rw [hl] at this
              cases this
        | some l =>
          obtain ⟨v1, v2, sh, v3, v4⟩ := letter_shift (hm letter hlm) (hr letter hlm) hti hle hl
          rcases hp3 with rfl | ⟨hs1, hs2, hs3, hs4, hs5, hs6, hs7, hs8⟩
          · exact (correctProgression_expected _ _ v1 v2 v3 v4).2.1
          · rw [hy hs1]
            exact correct_month _ v1 v2 v3 v4 hs3 hs4 hs5 hs6 hs8
      refine ⟨t0, p', { st with
          blanks := 0, parser := p', mfFreq := consumed sp.frequency (i + 1)
          mfLast := mfSet st.mfLast letter t }, hp1, ?_, fun hx => hnot1 hx.2, hp2, ?_, ?_, ?_, ?_⟩
      · unfold correctStep
        rw [if_neg hnot1]
        dsimp only
        rw [hst.freq, htl, hd2]
        dsimp only
        rw [hcorr]
      · show some t = _
        rw [htake, List.getLast?_concat]
      · show consumed sp.frequency (i + 1) = _
        rw [htake, List.length_append, htl]
        rfl
      · intro c
        show mfGet (mfSet st.mfLast letter t) c = _
        rw [mfGet_set, htake, ofLetter_snoc, htl, hle, hst.lasts c]
        by_cases hcl : c = letter
        · subst hcl; simp
        · rw [if_neg hcl, if_neg (by intro hx; exact hcl (Option.some.inj hx).symm)]; simp
      · show 0 = _
        omega
    · rw [List.getElem?_append_right (by rw [List.length_map]; exact hge), List.getElem?_replicate] at hi
      split at hi
      · cases hi
        have htol : Tolerant sp := tolerant_of_gap (by omega)
        refine ⟨mustBe_blank sp (hafter _ (by omega) (by omega) (by omega)), htol, fun st hst => ⟨?_, ?_⟩⟩
        · show st.blanks < 40
          rw [hst.blanks]
          omega
        · have e : ts.take (i + 1) = ts.take i := by
            rw [List.take_of_length_le (by omega), List.take_of_length_le hge]
          refine ⟨hst.parser, ?_, ?_, ?_, ?_⟩
          · rw [e]; exact hst.last
          · rw [e]; exact hst.freq
          · rw [e]; exact hst.lasts
          · show st.blanks + 1 = _
            rw [hst.blanks]
            omega
      · cases hi
  · intro x h1 h2 h3 t
    exact not_dt_of_blank h.header (h.plain x (by omega) (by omega)) (hafter x h1 h3 h2) t
  · rcases hcase with hc | ⟨ha, hkk, hlt⟩
    · exact .inl hc
    · refine .inr ⟨ha, hlt, fun st hst s0 r c => ?_⟩
      have hb := hafter (last + k + 1) (by omega) (by omega) (by omega)
      unfold cleanValue
      rw [mustBe_blank sp hb]
      dsimp only
      rw [if_neg (by simp), if_neg]
      rintro ⟨h1, h2⟩
      have h1 : st.blanks < 40 := h1
      rw [hst.blanks, List.length_map] at h1
      rw [gapLimit_tolerant h2] at hkk
      omega

end Xls
