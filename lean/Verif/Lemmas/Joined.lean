/-
Series that have their dates in common, read together and alone.
-/
import Verif.Spec.Joined
import Verif.Lemmas.OneIndex
import Verif.Lemmas.Again2

set_option autoImplicit false

namespace Xls

open Spec

theorem SameDates.fields {x y : SParams} (h : SameDates x y) :
    y.alignment = x.alignment ∧ y.dataStarts = x.dataStarts ∧ y.dataEnds = x.dataEnds ∧ y.continuity = x.continuity ∧
    y.blankRows = x.blankRows ∧ y.missings = x.missings ∧ y.missingValue = x.missingValue ∧
    y.timeAlignment = x.timeAlignment ∧ y.timeMulticolumn = x.timeMulticolumn ∧ y.timeHeader = x.timeHeader ∧
    y.timeComposed = x.timeComposed ∧ y.frequency = x.frequency := by
  unfold SameDates at h
  rw [h]
  exact ⟨rfl, rfl, rfl, rfl, rfl, rfl, rfl, rfl, rfl, rfl, rfl, rfl⟩

theorem searchParser_same (ext : Ext) {x y : SParams} (h : SameDates x y) (curr : Cell) (last : Option Time)
    (next : Cell) : ∀ (ps : List Parser) (q : Option Parser),
    searchParser ext y curr last next q ps = searchParser ext x curr last next q ps := by
  intro ps
  induction ps with
  | nil => intro q; rfl
  | cons p ps ih =>
    intro q
    unfold searchParser
    obtain ⟨-, -, -, -, -, -, -, -, -, -, h11, h12⟩ := SameDates.fields h
    rw [h11, h12]
    simp only [ih]

theorem cleanStep_same (ext : Ext) {x y : SParams} (h : SameDates x y) (st : CState) (s : Sheet) (pos : Int) :
    cleanStep ext y st s pos = cleanStep ext x st s pos := by
  obtain ⟨h1, h2, h3, h4, h5, h6, h7, h8, h9, h10, h11, h12⟩ := SameDates.fields h
  have e2 : ∀ v, mustBeTimeValue y v = mustBeTimeValue x v := by
    intro v
    unfold mustBeTimeValue
    rw [h8]
  have e3 : ∀ st s r c e, handleError y st s r c e = handleError x st s r c e := by
    intro st s r c e
    unfold handleError hasEnd
    rw [h3]
  have e4 : ∀ pr curr last next, parseTimeValue ext y pr curr last next = parseTimeValue ext x pr curr last next := by
    intro pr curr last next
    unfold parseTimeValue
    rw [h12]
    simp only [searchParser_same ext h]
  have e5 : ∀ st t, correctStep y st t = correctStep x st t := by
    intro st t
    unfold correctStep
    rw [h6, h7, h12]
  unfold cleanStep
  simp only [getTimeValue, h1, h9, h10]
  unfold cleanValue
  simp only [e2, e3, e4, e5, h4, h5, h12]

theorem cleanLoop_same (ext : Ext) {x y : SParams} (h : SameDates x y) : ∀ (is : List Int) (st : CState) (s : Sheet)
    (d : Option Int), cleanLoop ext y st s d is = cleanLoop ext x st s d is
  | [], _, _, _ => rfl
  | i :: is, st, s, d => by
    unfold cleanLoop
    rw [cleanStep_same ext h]
    simp only [cleanLoop_same ext h is]

theorem cleanTimeIndex_same (ext : Ext) {x y : SParams} (h : SameDates x y) (s : Sheet) :
    cleanTimeIndex ext y s = cleanTimeIndex ext x s := by
  obtain ⟨h1, h2, h3, h4, h5, h6, h7, h8, h9, h10, h11, h12⟩ := SameDates.fields h
  unfold cleanTimeIndex cleanWith
  have e1 : ∀ cl : Cleaner, cl.accepts y = cl.accepts x := by
    intro cl
    unfold Cleaner.accepts hasEnd
    rw [h3, h4, h5, h8, h9, h12]
  have e2 : scanEnd y s = scanEnd x s := by
    unfold scanEnd
    rw [h1, h3]
  have e3 : ∀ s hr hc pos, estimateEnd y s hr hc pos = estimateEnd x s hr hc pos := by
    intro s hr hc pos
    unfold estimateEnd
    rw [h1, h2, h8]
  simp only [e1, e2, e3, h1, h2, h10, cleanLoop_same ext h]

theorem endingAt_sameDates {x y : SParams} (h : SameDates x y) (e : Int) : SameDates (endingAt e x) (endingAt e y) := by
  unfold SameDates at h
  unfold SameDates
  rw [h]
  unfold endingAt
  dsimp only
  cases hd : x.dataEnds with
  | none => rfl
  | some d =>
    dsimp only
    split
    · rfl
    · rw [hd]

theorem argsOf_same {x y : SParams} (h : SameDates x y) : argsOf y = argsOf x := by
  unfold SameDates at h
  rw [h]
  rfl

/-! ### Cleaning -/

/-- What becomes of the time index is the same for all lists of series that begin with a series with these dates. -/
theorem cleanData_same {ext : Ext} {p : Params} {s : Sheet} {x : SParams} {sps : List SParams} (hp : HasSeries p sps)
    (hne : sps ≠ []) (hs : ∀ y ∈ sps, SameDates x y) :
    (∀ e s1, cleanTimeIndex ext x s = (.error e, s1) → (cleanData ext p s).1 ≠ .ok ()) ∧
    (∀ s1, cleanTimeIndex ext x s = (.ok 0, s1) → x.timeMulticolumn = false → (cleanData ext p s).1 ≠ .ok ()) ∧
    (x.timeMulticolumn = false → (∀ th, x.timeHeader ≠ .single th) → (cleanData ext p s).1 ≠ .ok ()) ∧
    (∀ stop s1, cleanTimeIndex ext x s = (.ok stop, s1) → (x.timeMulticolumn = false → stop ≠ 0) →
      (x.timeMulticolumn = false → ∃ th, x.timeHeader = .single th) →
      ∃ p', cleanData ext p s = (.ok (), p', s1) ∧ HasSeries p' (sps.map (endingAt stop))) := by
  obtain ⟨y, rest, rfl⟩ := List.exists_cons_of_ne_nil hne
  have hy := hs y (by simp)
  have hi : (y :: rest)[0]? = some y := rfl
  obtain ⟨-, -, h3, -, -, -, -, -, h9, h10, -, -⟩ := SameDates.fields hy
  have hmt : PVal.truthy (rawValue y .timeMulticolumn) = x.timeMulticolumn := by
    rw [← h9]
    show PVal.truthy (.bool y.timeMulticolumn) = _
    unfold PVal.truthy
    rfl
  have hlen : Params.len (p .timeHeaderCoord) = .ok (y :: rest).length := by
    rw [hp .timeHeaderCoord]
    unfold Params.len
    simp
  have hclean := cleanTimeIndex_same ext hy s
  -- the first step of the loop
  have single : x.timeMulticolumn = false → cleanData ext p s =
      cleanSeries ext (0 :: List.range' 1 rest.length) p s [] := by
    intro hm
    unfold cleanData
    rw [index_of_series hp .timeMulticolumn hi]
    dsimp only
    rw [hmt, hm, if_neg (by decide), hlen]
    dsimp only
    rw [List.range_eq_range', List.length_cons, List.range'_succ]
  have multi : x.timeMulticolumn = true → cleanData ext p s = cleanMulti ext p s := by
    intro hm
    unfold cleanData
    rw [index_of_series hp .timeMulticolumn hi]
    dsimp only
    rw [hmt, hm, if_pos rfl]
  have once : ∀ th, cleanOnce ext p s [] 0 th = match cleanTimeIndex ext x s with
      | (.error e, s') => (.error e, s')
      | (.ok stop, s') => if stop = 0 then (.error .assertionError, s') else (.ok (stop, [(th, stop)]), s') := by
    intro th
    unfold cleanOnce
    rw [show endOf [] th = none from rfl]
    dsimp only
    rw [typed_of_series hp hi]
    dsimp only
    rw [hclean]
    rfl
  have header : (∃ th, x.timeHeader = .single th ∧ (Params.index (p .timeHeaderCoord) 0).bind PVal.asStr = .ok th) ∨
      ((∀ th, x.timeHeader ≠ .single th) ∧ ∃ e, (Params.index (p .timeHeaderCoord) 0).bind PVal.asStr = .error e) := by
    rw [← h10]
    cases hth : y.timeHeader with
    | single th => exact .inl ⟨th, rfl, header_of_series hp hi hth⟩
    | multi cs =>
      refine .inr ⟨(fun th h => by cases h), ?_⟩
      rw [index_of_series hp .timeHeaderCoord hi]
      show ∃ e, PVal.asStr (match y.timeHeader with
        | .single c => .str c
        | .multi cs => .list (cs.map .str)) = _
      rw [hth]
      exact ⟨_, rfl⟩
  refine ⟨?_, ?_, ?_, ?_⟩
  · intro e s1 hc
    cases hm : x.timeMulticolumn with
    | true =>
      rw [multi hm]
      unfold cleanMulti
      rw [typed_of_series hp hi]
      dsimp only
      rw [hclean, hc]
      intro h
      cases h
    | false =>
      rw [single hm]
      unfold cleanSeries
      rcases header with ⟨th, -, hh⟩ | ⟨-, e', hh⟩
      · rw [hh]
        dsimp only
        rw [once, hc]
        intro h
        cases h
      · rw [hh]
        intro h
        cases h
  · intro s1 hc hm
    rw [single hm]
    unfold cleanSeries
    rcases header with ⟨th, -, hh⟩ | ⟨-, e', hh⟩
    · rw [hh]
      dsimp only
      rw [once, hc]
      dsimp only
      rw [if_pos rfl]
      intro h
      cases h
    · rw [hh]
      intro h
      cases h
  · intro hm hno
    rw [single hm]
    unfold cleanSeries
    rcases header with ⟨th, h, -⟩ | ⟨-, e', hh⟩
    · exact absurd h (hno th)
    · rw [hh]
      intro h
      cases h
  · intro stop s1 hc h0 hth
    cases hm : x.timeMulticolumn with
    | false =>
      obtain ⟨th, hth⟩ := hth hm
      refine cleanData_series hp (th := th) ?_ (h9.trans hm) (hclean.trans hc) (h0 hm)
      intro z hz
      obtain ⟨-, -, -, -, -, -, -, -, -, h10, -, -⟩ := SameDates.fields (hs z hz)
      exact h10.trans hth
    | true =>
      by_cases hg : hasEnd y = true
      · have hall : ∀ z ∈ y :: rest, hasEnd z = true := by
          intro z hz
          obtain ⟨-, -, k3, -⟩ := SameDates.fields (hs z hz)
          unfold hasEnd at hg ⊢
          rw [k3, ← h3]
          exact hg
        refine ⟨p, ?_, ?_⟩
        · rw [multi hm]
          unfold cleanMulti
          rw [typed_of_series hp hi]
          dsimp only
          rw [hclean, hc]
          dsimp only
          rw [index_of_series hp .dataEnds hi]
          dsimp only
          rw [truthy_end, hg, if_pos rfl]
        · have : (y :: rest).map (endingAt stop) = y :: rest :=
            (List.map_congr_left fun z hz => endingAt_of_hasEnd (hall z hz) stop).trans (List.map_id _)
          rw [this]
          exact hp
      · have hno : ∀ z ∈ y :: rest, z.dataEnds = none ∨ z.dataEnds = some 0 := by
          intro z hz
          obtain ⟨-, -, k3, -⟩ := SameDates.fields (hs z hz)
          rw [k3, ← h3]
          unfold hasEnd at hg
          cases hd : y.dataEnds with
          | none => exact .inl rfl
          | some e =>
            rw [hd] at hg
            refine .inr ?_
            have : e = 0 := by simpa using hg
            rw [this]
        refine cleanData_multi hp (h9.trans hm) (hclean.trans hc) (fun z hz => ?_) (fun hgv => ?_)
        · rcases hno z hz with h | h
          · exact .inl h
          · exact .inr (.inl h)
        · rcases hno y (by simp) with h | h
          · exact absurd h hgv.1
          · exact absurd h hgv.2

/-! ### Extraction -/

theorem dealTo_one {k : Str} {x : Num} : ∀ {m : List (Str × List Num)}, (∀ kv ∈ m, kv.1 = k) → m.length ≤ 1 →
    ∃ xs, dealTo m k x = [(k, xs)]
  | [], _, _ => ⟨_, rfl⟩
  | [(k', xs)], h, _ => by
    have : k' = k := h (k', xs) (by simp)
    subst this
    unfold dealTo
    rw [if_pos rfl]
    exact ⟨_, rfl⟩
  | _ :: _ :: _, _, h => by simp at h

theorem valuesLoop_one {ext : Ext} {sp : SParams} (hf : sp.frequency.length = 1) {s : Sheet} {hr hc : Int} :
    ∀ {is : List Int} {m m' : List (Str × List Num)} {last : Str}, (∀ kv ∈ m, kv.1 = sp.frequency) → m.length ≤ 1 →
    valuesLoop ext sp s hr hc is m last = .ok m' → m'.length ≤ 1
  | [], m, m', last, _, hl, h => by
    unfold valuesLoop at h
    cases h
    exact hl
  | i :: is, m, m', last, hk, hl, h => by
    unfold valuesLoop at h
    dsimp only at h
    split at h
    · cases h
    · split at h
      · cases h
      · split at h
        · cases h
        · split at h
          · rw [show getFrequency sp.frequency last = .ok (sp.frequency, last) from by
              unfold getFrequency; rw [if_pos hf]] at h
            dsimp only at h
            obtain ⟨xs, hx⟩ := dealTo_one hk hl
            rw [hx] at h
            exact valuesLoop_one hf (by simp) (by simp) h
          · exact valuesLoop_one hf hk hl h

theorem getSeries_one {ext : Ext} {sp : SParams} (hf : sp.frequency.length = 1) {s : Sheet}
    {nv : List (Str × List Num)} (h : getSeries ext sp s = .ok nv) (hne : nv ≠ []) : nv.length = 1 := by
  unfold getSeries at h
  split at h
  · cases h
  · split at h
    · cases h
    next vss hv =>
      cases h
      have hvne : vss ≠ [] := by simpa using hne
      rw [List.length_map]
      have key : vss.length ≤ 1 := by
        unfold getValues at hv
        split at hv
        · cases hv
        · split at hv
          · cases hv
          · split at hv
            · cases hv
            · split at hv
              · cases hv
              next m hm =>
                have hml := valuesLoop_one hf (by simp) (by simp) hm
                split at hv
                · split at hv
                  · cases hv
                  · split at hv
                    · split at hv
                      · cases hv
                      · split at hv
                        · cases hv
                        · split at hv
                          · cases hv
                          · cases hv
                            simp
                    · cases hv
                      simpa using hml
                · cases hv
                  simpa using hml
      have := List.length_pos_iff.2 hvne
      omega

theorem rangesOfArgs_inv {ext : Ext} {p : Params} {s : Sheet} {sp : SParams} {prs : List PRange}
    {reads : List (Int × Int)} (h : rangesOfArgs ext p s (argsOf sp) = .ok (prs, reads)) :
    ∃ th e, singleHeader (p .timeMulticolumn).truthy sp.timeHeader = .ok th ∧ sp.dataEnds = some e ∧ e ≠ 0 ∧
      sp.dataStarts < e ∧
      seriesRanges ext s sp.frequency sp.dataStarts th e sp.timeAlignment sp.alignment = .ok prs := by
  unfold rangesOfArgs argsOf at h
  dsimp only at h
  have e5 : orNone PVal.asInt (rawValue sp .dataEnds) = .ok sp.dataEnds := by
    show orNone PVal.asInt (sp.dataEnds.elim PVal.none PVal.int) = _
    cases sp.dataEnds <;> rfl
  have e6 : (rawValue sp .dataStarts).asInt = .ok sp.dataStarts := rfl
  have e3 : (rawValue sp .frequency).asStr = .ok sp.frequency := rfl
  have e4 : (rawValue sp .timeAlignment).asInt = .ok sp.timeAlignment := rfl
  have e7 : (rawValue sp .timeHeaderCoord).asHeader = .ok sp.timeHeader := by
    show PVal.asHeader (match sp.timeHeader with
      | .single c => .str c
      | .multi cs => .list (cs.map .str)) = _
    cases sp.timeHeader with
    | single c => rfl
    | multi cs =>
      show (match asStrs (cs.map .str) with
        | .ok a => Except.ok (TimeHeader.multi a)
        | .error e => .error e) = _
      rw [asStrs_map]
  rw [bind_intro e5, bind_intro e6] at h
  cases hd : sp.dataEnds with
  | none => rw [hd] at h; cases h
  | some e =>
    rw [hd] at h
    dsimp only at h
    split at h
    · cases h
    next hn =>
      rw [bind_intro e7] at h
      obtain ⟨th, h1, h⟩ := bind_ok h
      rw [bind_intro e3, bind_intro e4, asAlign_raw] at h
      obtain ⟨prs', h2, h⟩ := bind_ok h
      cases h
      exact ⟨th, e, h1, rfl, by omega, by omega, h2⟩

theorem singleHeader_eq {a b : Bool} {h : TimeHeader} {x y : Str} (h1 : singleHeader a h = .ok x)
    (h2 : singleHeader b h = .ok y) : x = y := by
  unfold singleHeader at h1 h2
  cases h with
  | single c => cases h1; cases h2; rfl
  | multi cs =>
    cases cs with
    | nil => cases a <;> cases h1
    | cons c cs => cases a <;> cases b <;> cases h1 <;> cases h2 <;> rfl

/-- If the extraction succeeds, all series give something for the one range. -/
theorem getData_inv {ext : Ext} {p : Params} {s : Sheet} {x : SParams} {sps : List SParams} {fs : List Frame}
    (hp : HasSeries p sps) (hne : sps ≠ []) (hs : ∀ y ∈ sps, SameDates x y) (hf : x.frequency.length = 1)
    (h : (getData ext p s).1 = .ok fs) :
    ∃ pr k nvs, Keys [pr] [k] ∧ List.Forall₂ (Gives ext s [pr]) sps nvs := by
  have htm : (p .timeMulticolumn).truthy = true := by
    rw [hp .timeMulticolumn]
    unfold PVal.truthy
    simpa using hne
  have hf' : ∀ y ∈ sps, y.frequency.length = 1 := by
    intro y hy
    obtain ⟨-, -, -, -, -, -, -, -, -, -, -, h12⟩ := SameDates.fields (hs y hy)
    rw [h12]
    exact hf
  unfold getData at h
  rw [rangeArgs_series hp] at h
  rw [show ((Except.ok (sps.map argsOf) : Except Err (List RangeArgs)).bind fun as => bucketLoop ext p as s []) =
    bucketLoop ext p (sps.map argsOf) s [] from rfl] at h
  split at h
  · cases h
  next bs s1 h1 =>
  have hl : Params.len (p .headersCoord) = .ok sps.length := by
    rw [hp .headersCoord]
    unfold Params.len
    simp
  rw [hl] at h
  dsimp only at h
  split at h
  · cases h
  next bs' s2 h2 =>
  obtain ⟨hfresh, hc1⟩ := bucketLoop_ok ⟨by simp, by simp, by simp, by simp⟩ h1
  obtain ⟨outs, ds, ho, -, -, -, -⟩ := seriesLoop_ok hfresh.nodup h2
  -- the range
  obtain ⟨pr, k, th, e, hk, hth, he, he0, hlt, hr⟩ : ∃ pr k th e, rangeKey pr = .ok k ∧
      singleHeader true x.timeHeader = .ok th ∧ x.dataEnds = some e ∧ e ≠ 0 ∧ x.dataStarts < e ∧
      seriesRanges ext s x.frequency x.dataStarts th e x.timeAlignment x.alignment = .ok [pr] := by
    obtain ⟨y, rest, rfl⟩ := List.exists_cons_of_ne_nil hne
    rw [List.map_cons, argsOf_same (hs y (by simp))] at h1
    unfold bucketLoop at h1
    split at h1
    · cases h1
    next prs reads hra =>
      split at h1
      · cases h1
      next bs1 hab =>
        obtain ⟨th, e, k1, k2, k3, k4, k5⟩ := rangesOfArgs_inv hra
        rw [htm] at k1
        have : ∃ pr, prs = [pr] := by
          unfold seriesRanges at k5
          rw [if_pos hf] at k5
          unfold singleRanges at k5
          split at k5
          · cases k5
          · split at k5
            · cases k5
            · dsimp only at k5
              split at k5
              · cases k5
              · cases k5
              · split at k5
                · cases k5
                · cases k5
                  exact ⟨_, rfl⟩
        obtain ⟨pr, rfl⟩ := this
        unfold addBuckets addBucket at hab
        cases hrk : rangeKey pr with
        | error e => rw [hrk] at hab; cases hab
        | ok k => exact ⟨pr, k, th, e, hrk, k1, k2, k3, k4, k5⟩
  -- the series
  have hall : ∀ (i : Nat) (y : SParams), sps[i]? = some y → ∃ nv, Gives ext s [pr] y nv := by
    intro i y hi
    obtain ⟨hi', rfl⟩ := List.getElem?_eq_some_iff.1 hi
    have hmem : sps[i] ∈ sps := List.getElem_mem hi'
    have hol : outs.length = sps.length := by rw [← ho.length_eq, List.length_range]
    have hg := ho.get (i := i) (by rw [List.length_range]; exact hi') (by omega)
    rw [List.get_eq_getElem, List.getElem_range] at hg
    obtain ⟨sp, s', nv, prs, header, stop, g1, g2, g3, g4, g5, g6, g7, g8⟩ := hg
    rw [typed_of_series hp hi] at g1
    cases g1
    obtain ⟨f1, f2, f3, -, -, -, -, f8, f9, f10, -, f12⟩ := SameDates.fields (hs _ hmem)
    have hnv : getSeries ext sps[i] s = .ok nv := (getSeries_congr ext _ hc1.symm).trans g2
    refine ⟨nv, ⟨⟨th, e, ⟨by rw [f10]; exact hth, ?_⟩, by rw [f3]; exact he, he0, by rw [f2]; exact hlt, ?_⟩, hnv,
      getSeries_one (hf' _ hmem) hnv g8, by simp⟩⟩
    · have hh : th = header := singleHeader_eq (a := true) (h := sps[i].timeHeader) (by rw [f10]; exact hth) g4
      rw [hh]
      exact g4
    · intro t ht
      rw [f1, f2, f8, f12, seriesRanges_congr ext ht.1 hf]
      exact hr
  obtain ⟨nvs, hnvs⟩ : ∃ nvs, List.Forall₂ (Gives ext s [pr]) sps nvs := by
    clear ho h2 h1 hl htm hne hp h hf' hs
    induction sps with
    | nil => exact ⟨[], .nil⟩
    | cons y sps ih =>
      obtain ⟨nv, h1⟩ := hall 0 y rfl
      obtain ⟨nvs, h2⟩ := ih fun i z hz => hall (i + 1) z (by simpa using hz)
      exact ⟨nv :: nvs, .cons h1 h2⟩
  exact ⟨pr, k, nvs, ⟨.cons hk .nil, by simp⟩, hnvs⟩

/-! ### Data frames -/

/-- A data frame with several columns is made exactly if one with each column is. -/
theorem frameOf_join {ext : Ext} {k : Str × Time × Time} {pr : PRange} {cols : List Str} {data : List (List Num)}
    (hl : cols.length = data.length) (hne : cols ≠ []) (f : Frame) :
    frameOf ext ⟨k, pr, cols, data⟩ = .ok f ↔ f.columns = cols ∧ f.data = data ∧
      ∀ v ∈ data, ∀ name, frameOf ext ⟨k, pr, [name], [v]⟩ = .ok ⟨f.freq, f.index, [name], [v]⟩ := by
  have hdne : data ≠ [] := by
    intro h
    rw [h] at hl
    exact hne (List.length_eq_zero_iff.1 hl)
  have mk : ∀ fr ix, mkFrame fr ix cols data = if ∀ d ∈ data, d.length = ix.length then .ok ⟨fr, ix, cols, data⟩
      else .error .valueError := by
    intro fr ix
    unfold mkFrame
    by_cases h : ∀ d ∈ data, d.length = ix.length
    · rw [if_pos ⟨hne, hl, h⟩, if_pos h]
    · rw [if_neg (fun k => h k.2.2), if_neg h]
  have mk1 : ∀ fr ix (name : Str) (v : List Num), mkFrame fr ix [name] [v] =
      if v.length = ix.length then .ok ⟨fr, ix, [name], [v]⟩ else .error .valueError := by
    intro fr ix name v
    unfold mkFrame
    by_cases h : v.length = ix.length
    · rw [if_pos ⟨by simp, rfl, by simpa using h⟩, if_pos h]
    · rw [if_neg (fun k => h (k.2.2 v (by simp))), if_neg h]
  unfold frameOf
  simp only [mk, mk1]
  obtain ⟨fr, ix, fcols, fdata⟩ := f
  dsimp only
  by_cases h1 : ∀ d ∈ data, d.length = pr.index.length
  · rw [if_pos h1]
    dsimp only
    constructor
    · intro h
      cases h
      refine ⟨rfl, rfl, fun v hv name => ?_⟩
      rw [if_pos (h1 v hv)]
    · rintro ⟨rfl, rfl, h⟩
      obtain ⟨v, hv⟩ := List.exists_mem_of_ne_nil _ hdne
      have := h v hv []
      rw [if_pos (h1 v hv)] at this
      cases this
      rfl
  · rw [if_neg h1]
    dsimp only
    by_cases hD : pr.freqstr = c!"D"
    · rw [if_pos hD]
      simp only [if_pos hD]
      by_cases h2 : ∀ d ∈ data, d.length = (ext.businessDays k.2.1 k.2.2).length
      · rw [if_pos h2]
        have hn : ∀ v ∈ data, v.length ≠ pr.index.length := by
          intro v hv e
          apply h1
          intro d hd
          rw [h2 d hd, ← h2 v hv, e]
        constructor
        · intro h
          cases h
          refine ⟨rfl, rfl, fun v hv name => ?_⟩
          rw [if_neg (hn v hv)]
          dsimp only
          rw [if_pos (h2 v hv)]
        · rintro ⟨rfl, rfl, h⟩
          obtain ⟨v, hv⟩ := List.exists_mem_of_ne_nil _ hdne
          have := h v hv []
          rw [if_neg (hn v hv)] at this
          dsimp only at this
          rw [if_pos (h2 v hv)] at this
          cases this
          rfl
      · rw [if_neg h2]
        constructor
        · intro h
          cases h
        · rintro ⟨rfl, rfl, h⟩
          exfalso
          -- all columns alone are of one kind
          by_cases hB : fr = c!"B"
          · apply h2
            intro v hv
            have := h v hv []
            split at this
            next hz =>
              split at hz
              · cases hz
                cases this
                rw [hD] at hB
                exact absurd hB (by decide)
              · cases hz
            · by_contra hv2
              rw [if_neg hv2] at this
              cases this
          · apply h1
            intro v hv
            have := h v hv []
            by_contra hv1
            rw [if_neg hv1] at this
            dsimp only at this
            split at this
            · cases this
              exact hB rfl
            · cases this
    · rw [if_neg hD]
      constructor
      · intro h
        cases h
      · rintro ⟨rfl, rfl, h⟩
        exfalso
        apply h1
        intro v hv
        have := h v hv []
        by_contra hv1
        rw [if_neg hv1] at this
        dsimp only at this
        rw [if_neg hD] at this
        cases this

/-- The entry after all series, for a single range. -/
theorem foldl_one {pr : PRange} {k : Str × Time × Time} : ∀ (cols : List (Str × List Num)) (names : List Str)
    (data : List (List Num)),
    (cols.map fun c => [c]).foldl (List.zipWith Bucket.with) [⟨k, pr, names, data⟩] =
      [⟨k, pr, addNames names (cols.map Prod.fst), data ++ cols.map Prod.snd⟩]
  | [], names, data => by simp [addNames]
  | c :: cols, names, data => by
    rw [List.map_cons, List.foldl_cons]
    rw [show List.zipWith Bucket.with [⟨k, pr, names, data⟩] [c] = [⟨k, pr, addName c.1 names, data ++ [c.2]⟩] from rfl]
    rw [foldl_one cols]
    simp [addNames]

/-- What is known of the dates the series have in common. -/
structure Dated (ext : Ext) (s : Sheet) (x : SParams) (stop : Int) (s1 : Sheet) (pr : PRange)
    (k : Str × Time × Time) : Prop where
  clean : cleanTimeIndex ext x s = (.ok stop, s1)
  positive : x.timeMulticolumn = false → stop ≠ 0
  header : x.timeMulticolumn = false → ∃ th, x.timeHeader = .single th
  keys : Keys [pr] [k]

theorem scrape_dated {ext : Ext} {p : Params} {s s1 : Sheet} {x : SParams} {sps : List SParams} {stop : Int}
    {pr : PRange} {k : Str × Time × Time} {cols : List (Str × List Num)} (hp : HasSeries p sps) (hne : sps ≠ [])
    (hs : ∀ y ∈ sps, SameDates x y) (hd : Dated ext s x stop s1 pr k)
    (hg : List.Forall₂ (fun y c => Gives ext s1 [pr] (endingAt stop y) [c]) sps cols) :
    (scrape ext p s).1 = match frameOf ext ⟨k, pr, addNames [] (cols.map Prod.fst), cols.map Prod.snd⟩ with
      | .ok f => .ok [f]
      | .error e => .error e := by
  have hcd := (cleanData_same (ext := ext) (s := s) hp hne hs).2.2.2 stop s1 hd.clean hd.positive hd.header
  have hg' : List.Forall₂ (Gives ext s1 [pr]) (sps.map (endingAt stop)) (cols.map fun c => [c]) := by
    rw [List.forall₂_map_left_iff, List.forall₂_map_right_iff]
    exact hg
  obtain ⟨p', s', h, -, -⟩ := scrape_buckets hne hcd hd.keys hg'
  rw [h]
  show framesOf ext _ = _
  rw [show emptyBuckets [pr] [k] = [⟨k, pr, [], []⟩] from rfl, foldl_one cols [] []]
  unfold framesOf
  rw [List.nil_append]
  cases frameOf ext ⟨k, pr, addNames [] (cols.map Prod.fst), cols.map Prod.snd⟩ <;> rfl

/-- If reading succeeds, the dates are known and all series give values. -/
theorem scrape_inv {ext : Ext} {p : Params} {s : Sheet} {x : SParams} {sps : List SParams} {fs : List Frame}
    (hp : HasSeries p sps) (hne : sps ≠ []) (hs : ∀ y ∈ sps, SameDates x y) (hf : x.frequency.length = 1)
    (h : (scrape ext p s).1 = .ok fs) :
    ∃ stop s1 pr k cols, Dated ext s x stop s1 pr k ∧
      List.Forall₂ (fun y c => Gives ext s1 [pr] (endingAt stop y) [c]) sps cols := by
  obtain ⟨c1, c2, c3, c4⟩ := cleanData_same (ext := ext) (s := s) hp hne hs
  have hok : (cleanData ext p s).1 = .ok () := by
    unfold scrape at h
    split at h
    · cases h
    next a b c hc => rw [hc]
  obtain ⟨res, s1, hres⟩ : ∃ res s1, cleanTimeIndex ext x s = (res, s1) := ⟨_, _, rfl⟩
  cases res with
  | error e => exact absurd hok (c1 e s1 hres)
  | ok stop =>
    have hpos : x.timeMulticolumn = false → stop ≠ 0 := by
      intro hm h0
      subst h0
      exact c2 s1 hres hm hok
    have hth : x.timeMulticolumn = false → ∃ th, x.timeHeader = .single th := by
      intro hm
      by_contra hn
      exact c3 hm (fun th e => hn ⟨th, e⟩) hok
    obtain ⟨p', hcd, hp'⟩ := c4 stop s1 hres hpos hth
    unfold scrape at h
    rw [hcd] at h
    dsimp only at h
    obtain ⟨pr, k, nvs, hk, hg⟩ := getData_inv hp' (by simpa using hne) (x := endingAt stop x) (by
        intro y hy
        obtain ⟨z, hz, rfl⟩ := List.mem_map.1 hy
        exact endingAt_sameDates (hs z hz) stop) (by
        rw [endingAt_same]
        exact hf) h
    refine ⟨stop, s1, pr, k, nvs.map fun nv => (nv.head?).getD ([], []), ⟨hres, hpos, hth, hk⟩, ?_⟩
    rw [List.forall₂_map_right_iff]
    rw [List.forall₂_map_left_iff] at hg
    refine hg.imp fun y nv hy => ?_
    have := hy.one_each
    match nv, this with
    | [c], _ => exact hy

end Xls
