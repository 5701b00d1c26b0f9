/-
Lemmas about what must hold for data frames to be given back.
-/
import Verif.Spec.Usable
import Verif.Lemmas.OneIndex
import Verif.Lemmas.Provenance
import Verif.Lemmas.MultiRange

set_option autoImplicit false

namespace Xls

open Spec

/-! ### Period ranges -/

theorem known_letter {c : Char} {name : Str} {o : Offset} (h : toOffset (convertFreq [c]) = .ok (name, o)) :
    c ∈ c!"AYSQMWD" := by
  unfold convertFreq at h
  repeat' split at h
  next e => rcases e with e | e <;> cases e <;> decide
  next e => cases e; decide
  next e => cases e; decide
  next e => cases e; decide
  unfold toOffset at h
  repeat' split at h
  next e => cases e
  next e => cases e
  next e => cases e
  next e => cases e
  next e => cases e; decide
  next e => cases e; decide
  · cases h

theorem dateRange_needs {ext : Ext} {a b : Cell} {freq : Str} {pr : PRange}
    (h : dateRange ext a b freq = .ok pr) :
    (∃ name o, toOffset freq = .ok (name, o)) ∧ (∃ t, toTimestamp ext a = .ok t) ∧
      ∃ t, toTimestamp ext b = .ok t := by
  unfold dateRange at h
  split at h
  · cases h
  next name o ho =>
    split at h
    · cases h
    · cases h
    next ta tb hta htb => exact ⟨⟨name, o, ho⟩, ⟨ta, hta⟩, ⟨tb, htb⟩⟩

theorem stamped_of {ext : Ext} {v : Cell} {t : Time} (h : toTimestamp ext v = .ok t) : Stamped ext v := by
  unfold toTimestamp at h
  dsimp only at h
  split at h
  · cases h
  next u hu =>
    split at hu
    next t' => exact .inl ⟨t', rfl⟩
    · cases hu
    next h1 h2 => exact .inr ⟨u, h2, hu⟩

theorem rangesOf_letters {ext : Ext} {starts ends : List (Cell × Char)} : ∀ {fs : List Char}
    {prs : List PRange}, rangesOf ext starts ends fs = .ok prs → ∀ c ∈ fs, c ∈ c!"AYSQMWD"
  | [], _, _ => by simp
  | f :: fs, prs, h => by
    unfold rangesOf at h
    split at h
    · cases h
    next pr hpr =>
      split at h
      · cases h
      next prs' hprs =>
        intro c hc
        rcases List.mem_cons.1 hc with rfl | hc
        · obtain ⟨⟨_, _, ho⟩, _, _⟩ := dateRange_needs hpr
          exact known_letter ho
        · exact rangesOf_letters hprs c hc

theorem cells_timeCell (s : Sheet) {al : Align} (hal : al ≠ .other) (hr hc pos : Int) :
    s.cells (axisCell al hr hc pos).1 (axisCell al hr hc pos).2 = timeCell s al hr hc pos := by
  unfold axisCell timeCell rowOf colOf
  cases al with
  | vertical => rfl
  | horizontal => rfl
  | other => exact absurd rfl hal

/-- What the period ranges of a series need. -/
theorem capture_absent {f : Char} {pairs : List (Cell × Char)} (h : ∀ p ∈ pairs, p.2 ≠ f) : capture f pairs = .none := by
  unfold capture
  induction pairs with
  | nil => rfl
  | cons p ps ih =>
    rw [List.foldl_cons, if_neg (fun k => h p (by simp) k.1)]
    exact ih fun q hq => h q (by simp [hq])

theorem rangesOf_ends {ext : Ext} {starts ends : List (Cell × Char)} : ∀ {fs : List Char} {prs : List PRange},
    rangesOf ext starts ends fs = .ok prs → ∀ f ∈ fs, ∃ p ∈ ends, p.2 = f
  | [], _, _, f, hf => by cases hf
  | g :: fs, prs, h, f, hf => by
    unfold rangesOf at h
    split at h
    · cases h
    next pr hpr =>
      split at h
      · cases h
      next prs' hprs =>
        rcases List.mem_cons.1 hf with rfl | hf
        · by_contra hno
          rw [capture_absent (pairs := ends) (f := f) fun p hp k => hno ⟨p, hp, k⟩] at hpr
          obtain ⟨_, _, t2, h2⟩ := dateRange_needs hpr
          cases h2
        · exact rangesOf_ends hprs f hf

theorem lastCycle_unique {pattern : Str} {ini stop : Int} {cycles n : Nat} (hp : 1 < pattern.length)
    (hn : stop - ini + 1 = ((cycles * pattern.length + n : Nat) : Int)) (h1 : 1 ≤ n) (h2 : n ≤ pattern.length) :
    freqEnd ini stop pattern.length = n := by
  obtain ⟨f0, f1, q, f2⟩ := freqEnd_spec (by omega : 0 < pattern.length) hn (by omega)
  rcases Nat.lt_trichotomy cycles q with h | h | h
  · obtain ⟨d, rfl⟩ : ∃ d, q = cycles + 1 + d := ⟨q - cycles - 1, by omega⟩
    rw [Nat.add_mul, Nat.add_mul, Nat.one_mul] at f2
    omega
  · rw [h] at f2; omega
  · obtain ⟨d, rfl⟩ : ∃ d, cycles = q + 1 + d := ⟨cycles - q - 1, by omega⟩
    rw [Nat.add_mul, Nat.add_mul, Nat.one_mul] at f2
    omega

theorem seriesRanges_cycles {ext : Ext} {s : Sheet} {freq header : Str} {ini stop ta : Int}
    {prs : List PRange} (hf : 1 < freq.length) (h : seriesRanges ext s freq ini header stop ta .vertical = .ok prs) :
    LastCycleHasAll freq ini stop := by
  intro cycles n hn h1 h2 f hmem
  unfold seriesRanges at h
  rw [if_neg (by omega), if_pos hf] at h
  unfold multiRanges at h
  rw [if_neg (by decide)] at h
  split at h
  · cases h
  · dsimp only at h
    obtain ⟨p, hp, rfl⟩ := rangesOf_ends h f (List.mem_eraseDups.2 hmem)
    unfold endPairs at hp
    dsimp only at hp
    rw [if_pos rfl, lastCycle_unique hf hn h1 h2] at hp
    have := List.of_mem_zip (show (p.1, p.2) ∈ _ from hp)
    exact List.mem_reverse.1 this.2

theorem seriesRanges_needs {ext : Ext} {s : Sheet} {freq header : Str} {ini stop ta : Int} {al : Align}
    {prs : List PRange} (h : seriesRanges ext s freq ini header stop ta al = .ok prs) :
    freq ≠ [] ∧ (∀ c ∈ freq, c ∈ c!"AYSQMWD") ∧ al ≠ .other ∧ ∃ tr tc, coordOf header = .ok (tr, tc) ∧
      (freq.length = 1 → Stamped ext (timeCell s al tr tc (ini + ta)) ∧
        Stamped ext (timeCell s al tr tc (stop + ta))) := by
  refine ⟨seriesRanges_frequency h, ?_⟩
  unfold seriesRanges at h
  split at h
  next hlen =>
    unfold singleRanges at h
    split at h
    · cases h
    next hal =>
      split at h
      · cases h
      next hr hc hco =>
        dsimp only at h
        split at h
        · cases h
        · cases h
        next a b ha hb =>
          split at h
          · cases h
          next pr hpr =>
            obtain ⟨⟨_, _, ho⟩, ⟨t1, h1⟩, ⟨t2, h2⟩⟩ := dateRange_needs hpr
            obtain ⟨_, _, ea⟩ := read_cells ha
            obtain ⟨_, _, eb⟩ := read_cells hb
            rw [ea, cells_timeCell s hal] at h1
            rw [eb, cells_timeCell s hal] at h2
            refine ⟨?_, hal, hr, hc, hco, fun _ => ⟨stamped_of h1, stamped_of h2⟩⟩
            obtain ⟨c, rfl⟩ := List.length_eq_one_iff.1 hlen
            intro x hx
            rw [List.mem_singleton] at hx
            rw [hx]
            exact known_letter ho
  next hlen =>
    split at h
    · unfold multiRanges at h
      split at h
      · cases h
      next hal =>
        split at h
        · cases h
        next hr hc hco =>
          refine ⟨fun c hc => rangesOf_letters h c (List.mem_eraseDups.2 hc), hal, hr, hc, hco,
            fun e => absurd e hlen⟩
    · cases h

/-! ### Values -/

theorem valuesLoop_start {ext : Ext} {sp : SParams} {s : Sheet} {hr hc i : Int} {is : List Int}
    {m m' : List (Str × List Num)} {last : Str} (hal : sp.alignment ≠ .other)
    (h : valuesLoop ext sp s hr hc (i :: is) m last = .ok m') : 1 ≤ i := by
  unfold valuesLoop at h
  dsimp only at h
  split at h
  · cases h
  next v hv =>
    obtain ⟨h1, h2, _⟩ := read_cells hv
    unfold axisCell at h1 h2
    cases hx : sp.alignment with
    | vertical => rw [hx] at h1; exact h1
    | horizontal => rw [hx] at h2; exact h2
    | other => exact absurd hx hal

theorem getValues_needs {ext : Ext} {sp : SParams} {s : Sheet} {vss : List (List Num)} {last : Int}
    (he : sp.dataEnds = some last) (hlt : sp.dataStarts < last) (h : getValues ext sp s = .ok vss) :
    1 ≤ sp.dataStarts ∧ (sp.alignment = .vertical ∨ sp.alignment = .horizontal) ∧
      ∃ r c, coordOf sp.headerCoord = .ok (r, c) := by
  unfold getValues at h
  split at h
  · cases h
  next hal =>
    split at h
    · cases h
    next hr hc hco =>
      rw [he] at h
      dsimp only at h
      split at h
      · cases h
      next m hm =>
        refine ⟨?_, ?_, hr, hc, hco⟩
        · have : intRange sp.dataStarts (last + 1) =
              sp.dataStarts :: intRange (sp.dataStarts + 1) (last + 1) := by
            unfold intRange
            obtain ⟨k, hk⟩ : ∃ k : Nat, (last + 1 - sp.dataStarts).toNat = k + 1 :=
              ⟨(last + 1 - sp.dataStarts).toNat - 1, by omega⟩
            have hk' : (last + 1 - (sp.dataStarts + 1)).toNat = k := by omega
            rw [hk, hk', List.range_succ_eq_map, List.map_cons, List.map_map]
            congr 1
            · simp
            · apply List.map_congr_left
              intro a _
              simp only [Function.comp, Nat.succ_eq_add_one]
              push_cast
              omega
          rw [this] at hm
          exact valuesLoop_start hal hm
        · cases hx : sp.alignment with
          | vertical => exact .inl rfl
          | horizontal => exact .inr rfl
          | other => exact absurd hx hal

/-! ### Extraction -/

theorem bucketLoop_all {ext : Ext} {p : Params} : ∀ {as : List RangeArgs} {s s' : Sheet}
    {bs bs' : List Bucket}, bucketLoop ext p as s bs = .ok (bs', s') →
    ∀ a ∈ as, ∃ s1 out, rangesOfArgs ext p s1 a = .ok out
  | [], _, _, _, _, _ => by simp
  | a :: as, s, s', bs, bs', h => by
    unfold bucketLoop at h
    split at h
    · cases h
    next prs reads h1 =>
      split at h
      · cases h
      next bs1 h2 =>
        intro x hx
        rcases List.mem_cons.1 hx with rfl | hx
        · exact ⟨s, _, h1⟩
        · exact bucketLoop_all h x hx

theorem rangesOfArgs_needs {ext : Ext} {p : Params} {s : Sheet} {sp : SParams}
    {out : List PRange × List (Int × Int)} (h : rangesOfArgs ext p s (argsOf sp) = .ok out) :
    ∃ last, sp.dataEnds = some last ∧ last ≠ 0 ∧ sp.dataStarts < last := by
  unfold rangesOfArgs argsOf at h
  obtain ⟨stop, h1, h⟩ := bind_ok h
  obtain ⟨ini, h2, h⟩ := bind_ok h
  have e2 : ini = sp.dataStarts := by
    have : PVal.asInt (rawValue sp .dataStarts) = .ok sp.dataStarts := rfl
    rw [this] at h2
    cases h2
    rfl
  have e1 : stop = sp.dataEnds := by
    have : orNone PVal.asInt (sp.dataEnds.elim PVal.none PVal.int) = .ok stop := h1
    cases hd : sp.dataEnds with
    | none => rw [hd] at this; cases this; rfl
    | some e => rw [hd] at this; cases this; rfl
  subst e1
  subst e2
  cases hd : sp.dataEnds with
  | none => rw [hd] at h; cases h
  | some e =>
    rw [hd] at h
    dsimp only at h
    split at h
    · cases h
    next hn => exact ⟨e, rfl, by omega, by omega⟩

theorem singleHeader_needs {sp : SParams} {header : Str}
    (h : singleHeader sp.timeMulticolumn sp.timeHeader = .ok header) :
    (sp.timeMulticolumn = false → ∃ c, sp.timeHeader = .single c) ∧
      ∀ tr tc, coordOf header = .ok (tr, tc) → HeaderAt sp tr tc := by
  unfold HeaderAt
  cases hth : sp.timeHeader with
  | single c =>
    rw [hth] at h
    cases h
    exact ⟨fun _ => ⟨_, rfl⟩, fun _ _ h => h⟩
  | multi cs =>
    rw [hth] at h
    cases cs with
    | nil =>
      unfold singleHeader at h
      dsimp only at h
      split at h <;> cases h
    | cons c cs =>
      unfold singleHeader at h
      dsimp only at h
      split at h
      next hm => cases h; exact ⟨fun e => by (rw [hm] at e; cases e), fun _ _ h => h⟩
      · cases h

theorem timeCell_congr {s s' : Sheet} (h : s'.cells = s.cells) (al : Align) (hr hc pos : Int) :
    timeCell s' al hr hc pos = timeCell s al hr hc pos := by
  unfold timeCell
  rw [h]

/-- What extraction needs. -/
theorem getData_needs {ext : Ext} {p : Params} {s s' : Sheet} {fs : List Frame} {sps : List SParams}
    (hp : HasSeries p sps) (h : getData ext p s = (.ok fs, s')) : ∀ sp ∈ sps, Usable ext sp s := by
  have hends : ∀ sp ∈ sps, ∃ last, sp.dataEnds = some last ∧ last ≠ 0 ∧ sp.dataStarts < last := by
    unfold getData at h
    split at h
    · cases h
    next bs s1 h1 =>
      rw [rangeArgs_series hp] at h1
      intro sp hsp
      obtain ⟨s2, out, ho⟩ := bucketLoop_all (show bucketLoop ext p (sps.map argsOf) s [] = _ from h1)
        (argsOf sp) (List.mem_map_of_mem hsp)
      exact rangesOfArgs_needs ho
  obtain ⟨n, given, spans, hn, h2, _⟩ := C63_one_frame_per_range h
  have hlen : n = sps.length := by
    rw [hp .headersCoord] at hn
    unfold Params.len at hn
    cases hn
    simp
  subst hlen
  intro sp hsp
  obtain ⟨last, e1, e2, e3⟩ := hends sp hsp
  obtain ⟨i, hi, rfl⟩ := List.mem_iff_getElem.1 hsp
  obtain ⟨_, hy⟩ := List.forall₂_iff_get.1 h2
  have hl := h2.length_eq
  rw [List.length_range] at hl
  obtain ⟨sp', s1, nv, prs, header, stop, ht, hs, hcells, hh, hstop, hr, _⟩ :=
    hy i (by simpa using hi) (by omega)
  rw [List.get_eq_getElem, List.getElem_range, typed_of_series hp (List.getElem?_eq_getElem hi)] at ht
  cases ht
  rw [e1] at hstop
  cases hstop
  obtain ⟨r1, r2, r3, tr, tc, r4, r5⟩ := seriesRanges_needs hr
  obtain ⟨k1, k2⟩ := singleHeader_needs hh
  unfold getSeries at hs
  split at hs
  · cases hs
  · split at hs
    · cases hs
    next vss hvss =>
      obtain ⟨v1, v2, v3⟩ := getValues_needs e1 e3 hvss
      refine ⟨v3, v2, ⟨r1, r2⟩, v1, ⟨last, e1, e3⟩, k1, fun hf => ?_, fun hf hv e he => ?_⟩
      · obtain ⟨d1, d2⟩ := r5 hf
        rw [timeCell_congr hcells] at d1 d2
        exact ⟨tr, tc, last, k2 tr tc r4, e1, d1, d2⟩
      · rw [e1] at he
        cases he
        rw [hv] at hr
        exact seriesRanges_cycles hf hr

/-! ### Cleaning -/

theorem endFilled_refl (kept : Prop) (sp : SParams) : EndFilled kept sp sp := ⟨rfl, fun _ _ => rfl⟩

theorem endFilled_endingAt (stop : Int) (sp : SParams) : EndFilled True sp (endingAt stop sp) := by
  refine ⟨endingAt_same stop sp, fun _ hg => ?_⟩
  rw [endingAt_ends]
  obtain ⟨h1, h2⟩ := hg
  cases hd : sp.dataEnds with
  | none => exact absurd hd h1
  | some e =>
    dsimp only
    rw [if_neg (by rintro rfl; exact h2 hd)]

theorem cleanSeries_filled {ext : Ext} : ∀ (rest pre : List SParams) {p p' : Params} {s s' : Sheet}
    {ends : List (Str × Int)}, HasSeries p (pre ++ rest) →
    cleanSeries ext (List.range' pre.length rest.length) p s ends = (.ok (), p', s') →
    ∃ rest', HasSeries p' (pre ++ rest') ∧ List.Forall₂ (EndFilled True) rest rest'
  | [], pre, p, p', s, s', ends, hp, h => by
    rw [List.length_nil, List.range'_zero] at h
    unfold cleanSeries at h
    cases h
    exact ⟨[], hp, .nil⟩
  | sp :: rest, pre, p, p', s, s', ends, hp, h => by
    rw [List.length_cons, List.range'_succ] at h
    unfold cleanSeries at h
    have hi : (pre ++ sp :: rest)[pre.length]? = some sp := by simp
    split at h
    · cases h
    next header _ =>
      split at h
      · cases h
      next stop ends' s1 _ =>
        rw [index_of_series hp .dataEnds hi] at h
        dsimp only at h
        have h3 := setEnd_series stop hp
        obtain ⟨rest', r1, r2⟩ := cleanSeries_filled rest (pre ++ [endingAt stop sp])
          (p := if (rawValue sp .dataEnds).truthy then p else setEnd p pre.length stop)
          (by rw [List.append_assoc]; exact h3) (by
            rw [List.length_append, List.length_singleton]
            exact h)
        rw [List.append_assoc] at r1
        exact ⟨endingAt stop sp :: rest', r1, .cons (endFilled_endingAt stop sp) r2⟩

theorem setItem_dataEnds {p : Params} {sps : List SParams} (hp : HasSeries p sps) (hne : sps ≠ [])
    (stop : Int) {p' : Params} (h : p.setItem .dataEnds (.int stop) = .ok p') :
    HasSeries p' (sps.map fun sp => { sp with dataEnds := some stop }) := by
  have hset : p.setItem .dataEnds (.int stop) =
      .ok (p.store .dataEnds (.list (List.replicate sps.length (.int stop)))) := by
    unfold Params.setItem
    dsimp only
    rw [if_neg (fun h => by cases h.1), if_neg (by decide)]
    unfold Params.setPlain
    rw [if_neg (by unfold Params.validParamList; simp), if_pos (show validParamValue (.int stop) (validValues .dataEnds) = true from rfl), num_of_series hp]
    unfold applyToAll
    dsimp only
    rw [applyGeneric_single (List.length_pos_iff.2 hne) rfl rfl]
  rw [hset] at h
  cases h
  intro n
  by_cases hn : n = .dataEnds
  · subst hn
    rw [show (p.store .dataEnds _) .dataEnds = _ from by unfold Params.store; rw [if_pos rfl], List.map_map]
    congr 1
    refine List.ext_getElem (by simp) fun i h1 h2 => ?_
    rw [List.getElem_replicate, List.getElem_map]
    rfl
  · rw [show (p.store .dataEnds _) n = p n from by unfold Params.store; rw [if_neg hn], hp n, List.map_map]
    congr 1
    refine List.map_congr_left fun x _ => ?_
    cases n <;> first | rfl | exact absurd rfl hn

/-- Cleaning fills in ends and changes no other parameter. -/
theorem cleanData_filled {ext : Ext} {p p' : Params} {s s' : Sheet} {sps : List SParams}
    (hp : HasSeries p sps) (h : cleanData ext p s = (.ok (), p', s')) :
    ∃ sps', HasSeries p' sps' ∧
      List.Forall₂ (EndFilled (∀ sp ∈ sps, sp.timeMulticolumn = false)) sps sps' := by
  unfold cleanData at h
  split at h
  · cases h
  next multi hm =>
    split at h
    next ht =>
      have hmem : ∃ sp ∈ sps, sp.timeMulticolumn = true := by
        cases sps with
        | nil =>
          rw [hp .timeMulticolumn] at hm
          unfold Params.index at hm
          cases hm
        | cons sp rest =>
          rw [index_of_series hp .timeMulticolumn (i := 0) (sp := sp) rfl] at hm
          cases hm
          refine ⟨sp, by simp, ?_⟩
          have : PVal.truthy (.bool sp.timeMulticolumn) = true := ht
          unfold PVal.truthy at this
          exact this
      have hno : ¬ ∀ sp ∈ sps, sp.timeMulticolumn = false := by
        obtain ⟨sp, h1, h2⟩ := hmem
        intro hall
        rw [hall sp h1] at h2
        cases h2
      have hsame : List.Forall₂ (EndFilled (∀ sp ∈ sps, sp.timeMulticolumn = false)) sps sps :=
        List.forall₂_same.2 fun sp _ => endFilled_refl _ sp
      unfold cleanMulti at h
      split at h
      · cases h
      · split at h
        · cases h
        next stop s1 _ =>
          split at h
          · cases h
          · split at h
            · cases h
              exact ⟨sps, hp, hsame⟩
            · split at h
              · cases h
              next p1 hset =>
                cases h
                refine ⟨_, setItem_dataEnds hp (by obtain ⟨sp, h1, _⟩ := hmem; exact List.ne_nil_of_mem h1) stop hset, ?_⟩
                rw [List.forall₂_map_right_iff]
                exact List.forall₂_same.2 fun sp _ => ⟨rfl, fun hall => absurd hall hno⟩
    · split at h
      · cases h
      next n hn =>
        have hlen : n = sps.length := by
          rw [hp .timeHeaderCoord] at hn
          unfold Params.len at hn
          cases hn
          simp
        rw [hlen, List.range_eq_range'] at h
        obtain ⟨rest', r1, r2⟩ := cleanSeries_filled sps [] hp h
        exact ⟨rest', r1, r2.imp fun a b h => ⟨h.same, fun _ => h.given trivial⟩⟩

theorem getData_cells {ext : Ext} {p : Params} {s s' : Sheet} {fs : List Frame}
    (h : getData ext p s = (.ok fs, s')) : s'.cells = s.cells := by
  unfold getData at h
  split at h
  · cases h
  next bs s1 h1 =>
    split at h
    · cases h
    · split at h
      · cases h
      next bs' s2 h2 =>
        injection h with _ h3
        subst h3
        cases ha : rangeArgs p with
        | error e => rw [ha] at h1; cases h1
        | ok as =>
          rw [ha] at h1
          obtain ⟨hf, hc⟩ := bucketLoop_ok (ext := ext) (p := p) (bs := [])
            ⟨List.nodup_nil, by simp, by simp, by simp⟩ (show bucketLoop ext p as s [] = _ from h1)
          obtain ⟨_, _, _, _, _, _, h6⟩ := seriesLoop_ok hf.nodup h2
          exact h6.trans hc

end Xls
