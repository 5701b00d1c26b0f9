/-
Cleaning and extraction when all series share one time index.
-/
import Verif.Lemmas.Table
import Verif.Spec.Series
import Verif.Lemmas.NumSeries
import Verif.Lemmas.Build

set_option autoImplicit false

namespace Xls

open Spec

/-! ### Typed parameters -/

theorem asStrs_map : ∀ cs : List Str, asStrs (cs.map .str) = .ok cs
  | [] => rfl
  | c :: cs => by
    rw [List.map_cons]
    unfold asStrs
    rw [bind_intro (show (PVal.str c).asStr = .ok c from rfl), bind_intro (asStrs_map cs)]
    rfl

theorem nameParts_strs (b : Bool) (cs : List Str) : (PVal.list (cs.map .str)).nameParts b = .ok (some cs) := by
  unfold PVal.nameParts
  dsimp only
  rw [asStrs_map]

theorem nameParts_none (b : Bool) : PVal.none.nameParts b = .ok none := by
  cases b <;> rfl

theorem ofDict_raw (sp : SParams) :
    SParams.ofDict (Name.all.map fun n => (n, rawValue sp n)) = .ok sp := by
  have h := ofDict_all (v := rawValue sp) (name := sp.seriesName) (header := sp.headerCoord)
    (composed := sp.composedHeaders) (context := sp.context) (starts := sp.dataStarts)
    (ends := sp.dataEnds) (ta := sp.timeAlignment) (th := sp.timeHeader) (freq := sp.frequency)
    (by show (sp.seriesName.elim PVal.none PVal.str).givenName = _; cases sp.seriesName <;> rfl) rfl
    (by
      show PVal.nameParts _ (sp.composedHeaders.elim .none _) = _
      cases sp.composedHeaders with
      | none => exact nameParts_none _
      | some cs => exact nameParts_strs _ cs)
    (by
      show PVal.nameParts _ (sp.context.elim .none _) = _
      cases sp.context with
      | none => exact nameParts_none _
      | some cs => exact nameParts_strs _ cs)
    rfl
    (by show orNone PVal.asInt (sp.dataEnds.elim .none .int) = _; cases sp.dataEnds <;> rfl) rfl
    (by
      show PVal.asHeader (match sp.timeHeader with
        | .single c => .str c
        | .multi cs => .list (cs.map .str)) = _
      cases sp.timeHeader with
      | single c => rfl
      | multi cs =>
        show (match asStrs (cs.map .str) with
          | .ok a => Except.ok (TimeHeader.multi a)
          | .error e => .error e) = _
        rw [asStrs_map])
    rfl
  rw [h]
  congr 1
  have h1 : (rawValue sp .alignment).asAlign = sp.alignment := by
    show PVal.asAlign (match sp.alignment with
      | .vertical => .str c!"vertical"
      | .horizontal => .str c!"horizontal"
      | .other => .none) = _
    cases sp.alignment <;> decide
  rw [h1]
  have hb : ∀ b : Bool, (PVal.bool b).truthy = b := by intro b; unfold PVal.truthy; rfl
  have e1 : (rawValue sp .continuity).truthy = sp.continuity := hb _
  have e2 : (rawValue sp .blankRows).truthy = sp.blankRows := hb _
  have e3 : (rawValue sp .missings).truthy = sp.missings := hb _
  have e4 : (rawValue sp .timeMulticolumn).truthy = sp.timeMulticolumn := hb _
  have e5 : (rawValue sp .timeComposed).truthy = sp.timeComposed := hb _
  rw [e1, e2, e3, e4, e5]
  rfl

theorem typed_of_series {p : Params} {sps : List SParams} (h : HasSeries p sps) {i : Nat} {sp : SParams}
    (hi : sps[i]? = some sp) : p.typed i = .ok sp := by
  have hs : p.series i = .ok (Name.all.map fun n => (n, rawValue sp n)) := by
    unfold Params.series
    refine seriesDict_of ?_
    intro n _
    exact ⟨_, h n, by rw [List.getElem?_map, hi]; rfl⟩
  unfold Params.typed
  rw [hs]
  exact ofDict_raw sp

/-! ### Ends -/

theorem endingAt_ends (stop : Int) (sp : SParams) :
    (endingAt stop sp).dataEnds = some (match sp.dataEnds with
      | some e => if e = 0 then stop else e
      | none => stop) := by
  unfold endingAt
  cases h : sp.dataEnds with
  | none => rfl
  | some e =>
    dsimp only
    split
    · rfl
    · rw [h]

theorem endingAt_same (stop : Int) (sp : SParams) :
    endingAt stop sp = { sp with dataEnds := (endingAt stop sp).dataEnds } := by
  unfold endingAt
  split
  next e h => split <;> rfl
  next h => rfl

theorem raw_endingAt (stop : Int) (sp : SParams) {n : Name} (hn : n ≠ .dataEnds) :
    rawValue (endingAt stop sp) n = rawValue sp n := by
  rw [endingAt_same]
  cases n <;> first | rfl | exact absurd rfl hn

/-- What `data_ends[i]` is after cleaning. -/
theorem setEnd_series {p : Params} {pre post : List SParams} {sp : SParams} (stop : Int)
    (h : HasSeries p (pre ++ sp :: post)) :
    HasSeries (if (rawValue sp .dataEnds).truthy then p else setEnd p pre.length stop)
      (pre ++ endingAt stop sp :: post) := by
  have htr : (rawValue sp .dataEnds).truthy = hasEnd sp := by
    show PVal.truthy (sp.dataEnds.elim .none .int) = _
    unfold hasEnd
    cases sp.dataEnds with
    | none => unfold PVal.truthy; rfl
    | some e => unfold PVal.truthy; rfl
  rw [htr]
  by_cases he : hasEnd sp = true
  · rw [if_pos he]
    have : endingAt stop sp = sp := by
      unfold endingAt hasEnd at *
      cases hd : sp.dataEnds with
      | none => rw [hd] at he; cases he
      | some e =>
        rw [hd] at he
        dsimp only at he ⊢
        rw [if_neg (by simpa using he)]
    rw [this]
    exact h
  · rw [if_neg he]
    intro n
    unfold setEnd
    rw [h .dataEnds]
    dsimp only
    by_cases hn : n = .dataEnds
    · subst hn
      rw [show (p.store .dataEnds _) .dataEnds = _ from by unfold Params.store; rw [if_pos rfl]]
      congr 1
      rw [List.map_append, List.map_cons, List.map_append, List.map_cons, List.set_append,
        if_neg (by simp)]
      rw [List.length_map, Nat.sub_self, List.set_cons_zero]
      congr 2
      show _ = (endingAt stop sp).dataEnds.elim PVal.none PVal.int
      rw [endingAt_ends]
      unfold hasEnd at he
      cases hd : sp.dataEnds with
      | none => rfl
      | some e =>
        rw [hd] at he
        dsimp only at he ⊢
        rw [if_pos (by simpa using he)]
        rfl
    · rw [show (p.store .dataEnds _) n = p n from by unfold Params.store; rw [if_neg hn], h n]
      congr 1
      rw [List.map_append, List.map_cons, List.map_append, List.map_cons, raw_endingAt stop sp hn]

/-! ### Cleaning -/

theorem index_of_series {p : Params} {sps : List SParams} (h : HasSeries p sps) (n : Name) {i : Nat}
    {sp : SParams} (hi : sps[i]? = some sp) : Params.index (p n) i = .ok (rawValue sp n) := by
  rw [h n]
  unfold Params.index
  dsimp only
  rw [List.getElem?_map, hi]
  rfl

theorem header_of_series {p : Params} {sps : List SParams} (h : HasSeries p sps) {i : Nat}
    {sp : SParams} (hi : sps[i]? = some sp) {th : Str} (hth : sp.timeHeader = .single th) :
    (Params.index (p .timeHeaderCoord) i).bind PVal.asStr = .ok th := by
  rw [index_of_series h .timeHeaderCoord hi]
  show PVal.asStr (match sp.timeHeader with
    | .single c => .str c
    | .multi cs => .list (cs.map .str)) = _
  rw [hth]
  rfl

theorem cleanSeries_ends {ext : Ext} {th : Str} {s : Sheet} {ends : List (Str × Int)} {stop : Int}
    (hends : endOf ends th = some stop) :
    ∀ (rest pre : List SParams) (p : Params), HasSeries p (pre ++ rest) →
    (∀ sp ∈ rest, sp.timeHeader = .single th) →
    ∃ p', cleanSeries ext (List.range' pre.length rest.length) p s ends = (.ok (), p', s) ∧
      HasSeries p' (pre ++ rest.map (endingAt stop))
  | [], pre, p, hp, _ => ⟨p, rfl, hp⟩
  | sp :: rest, pre, p, hp, hth => by
    rw [List.length_cons, List.range'_succ]
    unfold cleanSeries
    have hi : (pre ++ sp :: rest)[pre.length]? = some sp := by simp
    rw [header_of_series hp hi (hth sp (by simp))]
    dsimp only
    have h2 : cleanOnce ext p s ends pre.length th = (.ok (stop, ends), s) := by
      unfold cleanOnce
      rw [hends]
    rw [h2]
    dsimp only
    rw [index_of_series hp .dataEnds hi]
    dsimp only
    have h3 := setEnd_series stop hp
    obtain ⟨p', e, h'⟩ := cleanSeries_ends hends rest (pre ++ [endingAt stop sp]) _
      (by rw [List.append_assoc]; exact h3) (fun x hx => hth x (List.mem_cons_of_mem _ hx))
    refine ⟨p', ?_, ?_⟩
    · rw [← e]
      congr 2
      simp
    · rw [List.append_assoc] at h'
      exact h'

theorem cleanData_series {ext : Ext} {p : Params} {s s' : Sheet} {sp : SParams} {rest : List SParams}
    {th : Str} {stop : Int} (hp : HasSeries p (sp :: rest))
    (hth : ∀ x ∈ sp :: rest, x.timeHeader = .single th) (hm : sp.timeMulticolumn = false)
    (hc : cleanTimeIndex ext sp s = (.ok stop, s')) (h0 : stop ≠ 0) :
    ∃ p', cleanData ext p s = (.ok (), p', s') ∧ HasSeries p' ((sp :: rest).map (endingAt stop)) := by
  unfold cleanData
  have hi : (sp :: rest)[0]? = some sp := rfl
  rw [index_of_series hp .timeMulticolumn hi]
  dsimp only
  rw [if_neg (by
    show ¬ PVal.truthy (.bool sp.timeMulticolumn) = true
    rw [hm]; unfold PVal.truthy; decide)]
  have h2 : Params.len (p .timeHeaderCoord) = .ok (sp :: rest).length := by
    rw [hp .timeHeaderCoord]
    unfold Params.len
    simp
  rw [h2]
  dsimp only
  rw [List.range_eq_range', List.length_cons, List.range'_succ]
  unfold cleanSeries
  rw [header_of_series hp hi (hth sp (by simp))]
  dsimp only
  have h4 : cleanOnce ext p s [] 0 th = (.ok (stop, [(th, stop)]), s') := by
    unfold cleanOnce
    rw [show endOf [] th = none from rfl]
    dsimp only
    rw [typed_of_series hp hi]
    dsimp only
    rw [hc]
    dsimp only
    rw [if_neg h0]
    rfl
  rw [h4]
  dsimp only
  rw [index_of_series hp .dataEnds hi]
  dsimp only
  have h3 := setEnd_series (pre := []) stop hp
  exact cleanSeries_ends (ext := ext) (ends := [(th, stop)]) (stop := stop) (by simp [endOf]) rest
    [endingAt stop sp] _ h3 (fun x hx => hth x (List.mem_cons_of_mem _ hx))

theorem endingAt_given {stop : Int} {sp : SParams} (h : sp.dataEnds = some stop) : endingAt stop sp = sp := by
  rw [endingAt_same, endingAt_ends, h]
  dsimp only
  have : (if stop = 0 then stop else stop) = stop := by split <;> rfl
  rw [this, ← h]

theorem num_of_series {p : Params} {sps : List SParams} (hp : HasSeries p sps) : p.num = some sps.length := by
  rw [Params.num_eq_some]
  refine ⟨⟨.alignment, _, hp _, by decide, by simp⟩, ?_⟩
  intro m ws hm _
  rw [hp m] at hm
  cases hm
  simp

/-- Cleaning of a time index in several columns. -/
theorem cleanData_multi {ext : Ext} {p : Params} {s s' : Sheet} {sp : SParams} {rest : List SParams}
    {stop : Int} (hp : HasSeries p (sp :: rest)) (hm : sp.timeMulticolumn = true)
    (hc : cleanTimeIndex ext sp s = (.ok stop, s'))
    (hends : ∀ x ∈ sp :: rest, x.dataEnds = none ∨ x.dataEnds = some 0 ∨ x.dataEnds = some stop)
    (hall : EndGiven sp → ∀ x ∈ sp :: rest, EndGiven x) :
    ∃ p', cleanData ext p s = (.ok (), p', s') ∧ HasSeries p' ((sp :: rest).map (endingAt stop)) := by
  unfold cleanData
  have hi : (sp :: rest)[0]? = some sp := rfl
  rw [index_of_series hp .timeMulticolumn hi]
  dsimp only
  rw [if_pos (by
    show PVal.truthy (.bool sp.timeMulticolumn) = true
    rw [hm]; unfold PVal.truthy; decide)]
  unfold cleanMulti
  rw [typed_of_series hp hi]
  dsimp only
  rw [hc]
  dsimp only
  rw [index_of_series hp .dataEnds hi]
  dsimp only
  have htr : (rawValue sp .dataEnds).truthy = true ↔ EndGiven sp := by
    show PVal.truthy (sp.dataEnds.elim .none .int) = true ↔ _
    unfold EndGiven
    cases sp.dataEnds with
    | none => unfold PVal.truthy; simp
    | some e => unfold PVal.truthy; simp
  by_cases hg : EndGiven sp
  · rw [if_pos (htr.2 hg)]
    refine ⟨p, rfl, ?_⟩
    have : (sp :: rest).map (endingAt stop) = sp :: rest := by
      refine (List.map_congr_left fun x hx => ?_).trans (List.map_id _)
      refine endingAt_given ?_
      have := hall hg x hx
      rcases hends x hx with e | e | e
      · exact absurd e this.1
      · exact absurd e this.2
      · exact e
    rw [this]
    exact hp
  · rw [if_neg fun h => hg (htr.1 h)]
    have hset : p.setItem .dataEnds (.int stop) =
        .ok (p.store .dataEnds (.list (List.replicate (rest.length + 1) (.int stop)))) := by
      unfold Params.setItem
      dsimp only
      rw [if_neg (fun h => by cases h.1), if_neg (by decide)]
      unfold Params.setPlain
      rw [if_neg (by unfold Params.validParamList; simp), if_pos (show validParamValue (.int stop) (validValues .dataEnds) = true from rfl), num_of_series hp]
      unfold applyToAll
      dsimp only
      rw [applyGeneric_single (by simp) rfl rfl]
      rfl
    rw [hset]
    refine ⟨_, rfl, ?_⟩
    intro n
    by_cases hn : n = .dataEnds
    · subst hn
      rw [show (p.store .dataEnds _) .dataEnds = _ from by unfold Params.store; rw [if_pos rfl]]
      congr 1
      rw [List.map_map]
      refine List.ext_getElem (by simp) fun i h1 h2 => ?_
      rw [List.getElem_replicate, List.getElem_map]
      rw [List.length_map] at h2
      show _ = (endingAt stop ((sp :: rest)[i])).dataEnds.elim PVal.none PVal.int
      rw [endingAt_ends]
      rcases hends _ (List.getElem_mem h2) with e | e | e <;> rw [e] <;> dsimp only
      · rfl
      · rfl
      · split <;> rfl
    · rw [show (p.store .dataEnds _) n = p n from by unfold Params.store; rw [if_neg hn], hp n, List.map_map]
      congr 1
      exact List.map_congr_left fun x _ => (raw_endingAt stop x hn).symm

/-- Series with one time index in one column (row). -/
theorem Spec.SameIndex.ofSingle {sps : List SParams} {coord freq : Str} {start ta : Int} {al : Align}
    (header : ∀ sp ∈ sps, sp.timeHeader = .single coord) (multicolumn : ∀ sp ∈ sps, sp.timeMulticolumn = false)
    (frequency : ∀ sp ∈ sps, sp.frequency = freq) (starts : ∀ sp ∈ sps, sp.dataStarts = start)
    (timeAlignment : ∀ sp ∈ sps, sp.timeAlignment = ta) (alignment : ∀ sp ∈ sps, sp.alignment = al) :
    SameIndex sps (.single coord) freq start ta al where
  header := header
  multicolumn := by
    intro sp h
    rw [multicolumn sp h]
    exact ⟨fun e => Bool.noConfusion e, fun ⟨_, e⟩ => by cases e⟩
  ends := fun _ e => by cases e
  frequency := frequency
  starts := starts
  timeAlignment := timeAlignment
  alignment := alignment

/-- Cleaning of a time index all series share. -/
theorem cleanData_index {ext : Ext} {p : Params} {s s' : Sheet} {sps : List SParams} {sp : SParams}
    {th : TimeHeader} {freq : Str} {start ta stop : Int} {al : Align} (hp : HasSeries p sps)
    (h0 : sps.head? = some sp) (hs : SameIndex sps th freq start ta al)
    (hc : cleanTimeIndex ext sp s = (.ok stop, s')) (hstop : stop ≠ 0)
    (hends : ∀ x ∈ sps, x.dataEnds = none ∨ x.dataEnds = some 0 ∨ x.dataEnds = some stop) :
    ∃ p', cleanData ext p s = (.ok (), p', s') ∧ HasSeries p' (sps.map (endingAt stop)) := by
  cases sps with
  | nil => cases h0
  | cons x rest =>
    cases h0
    cases th with
    | single c =>
      refine cleanData_series hp hs.header ?_ hc hstop
      cases hm : sp.timeMulticolumn with
      | false => rfl
      | true =>
        obtain ⟨_, e⟩ := (hs.multicolumn sp (by simp)).1 hm
        cases e
    | multi cs =>
      exact cleanData_multi hp ((hs.multicolumn sp (by simp)).2 ⟨cs, rfl⟩) hc hends
        (hs.ends cs rfl sp rfl)

/-! ### Extraction -/

/-- The same cells, and at least as large. -/
def Grown (s s' : Sheet) : Prop := s'.cells = s.cells ∧ s.maxRow ≤ s'.maxRow ∧ s.maxCol ≤ s'.maxCol

theorem Grown.refl (s : Sheet) : Grown s s := ⟨rfl, Int.le_refl _, Int.le_refl _⟩

theorem Grown.trans {a b c : Sheet} (h : Grown a b) (h' : Grown b c) : Grown a c :=
  ⟨h'.1.trans h.1, Int.le_trans h.2.1 h'.2.1, Int.le_trans h.2.2 h'.2.2⟩

theorem grown_touchAll (rcs : List (Int × Int)) : ∀ s : Sheet, Grown s (s.touchAll rcs) := by
  induction rcs with
  | nil => intro s; exact Grown.refl s
  | cons rc rcs ih =>
    intro s
    refine Grown.trans ?_ (ih (s.touch rc.1 rc.2))
    unfold Grown Sheet.touch
    exact ⟨rfl, Int.le_max_left .., Int.le_max_left ..⟩

/-- What a series with known end must give: its ranges are `prs`, its names and values `nv`. -/
structure Gives (ext : Ext) (s : Sheet) (prs : List PRange) (sp : SParams) (nv : List (Str × List Num)) :
    Prop where
  bounds : ∃ th e, (singleHeader true sp.timeHeader = .ok th ∧
    singleHeader sp.timeMulticolumn sp.timeHeader = .ok th) ∧ sp.dataEnds = some e ∧ e ≠ 0 ∧ sp.dataStarts < e ∧
    ∀ s', Grown s s' →
      seriesRanges ext s' sp.frequency sp.dataStarts th e sp.timeAlignment sp.alignment = .ok prs
  series : getSeries ext sp s = .ok nv
  one_each : nv.length = prs.length
  some_range : prs ≠ []

theorem zipArgs_map (fs bs hs es ts as : SParams → PVal) : ∀ sps : List SParams,
    zipArgs (sps.map fs) (sps.map bs) (sps.map hs) (sps.map es) (sps.map ts) (sps.map as) =
      sps.map fun sp => ⟨fs sp, bs sp, hs sp, es sp, ts sp, as sp⟩
  | [] => rfl
  | sp :: sps => by
    simp only [List.map_cons]
    unfold zipArgs
    rw [zipArgs_map fs bs hs es ts as sps]

/-- The arguments of `_get_period_ranges` for a series. -/
def argsOf (sp : SParams) : RangeArgs :=
  ⟨rawValue sp .frequency, rawValue sp .dataStarts, rawValue sp .timeHeaderCoord, rawValue sp .dataEnds,
    rawValue sp .timeAlignment, rawValue sp .alignment⟩

theorem rangeArgs_series {p : Params} {sps : List SParams} (h : HasSeries p sps) :
    rangeArgs p = .ok (sps.map argsOf) := by
  unfold rangeArgs
  rw [h .frequency, h .dataStarts, h .timeHeaderCoord, h .dataEnds, h .timeAlignment, h .alignment]
  show Except.ok _ = _
  rw [zipArgs_map]
  rfl

theorem asAlign_raw (sp : SParams) : (rawValue sp .alignment).asAlign = sp.alignment := by
  show PVal.asAlign (match sp.alignment with
    | .vertical => .str c!"vertical"
    | .horizontal => .str c!"horizontal"
    | .other => .none) = _
  cases sp.alignment <;> decide

theorem rangesOfArgs_series {ext : Ext} {p : Params} {s s' : Sheet} {prs : List PRange} {sp : SParams}
    {nv : List (Str × List Num)} (h : Gives ext s prs sp nv) (hg : Grown s s')
    (hmp : (p .timeMulticolumn).truthy = true) : ∃ reads, rangesOfArgs ext p s' (argsOf sp) = .ok (prs, reads) := by
  obtain ⟨th, e, hth, he, h0, hlt, hr⟩ := h.bounds
  unfold rangesOfArgs argsOf
  have h1 : orNone PVal.asInt (rawValue sp .dataEnds) = .ok (some e) := by
    show orNone PVal.asInt (sp.dataEnds.elim PVal.none PVal.int) = _
    rw [he]; rfl
  have h2 : (rawValue sp .dataStarts).asInt = .ok sp.dataStarts := rfl
  have h3 : (rawValue sp .timeHeaderCoord).asHeader = .ok sp.timeHeader := by
    show PVal.asHeader (match sp.timeHeader with
      | .single c => .str c
      | .multi cs => .list (cs.map .str)) = _
    cases sp.timeHeader with
    | single c => rfl
    | multi cs =>
      show (match asStrs (cs.map .str) with
        | .ok a => Except.ok (TimeHeader.multi a)
        | .error e => .error e) = _
      rw [asStrs_map]
  have h4 : singleHeader (p .timeMulticolumn).truthy sp.timeHeader = .ok th := by
    rw [hmp]; exact hth.1
  have h5 : (rawValue sp .frequency).asStr = .ok sp.frequency := rfl
  have h6 : (rawValue sp .timeAlignment).asInt = .ok sp.timeAlignment := rfl
  dsimp only
  rw [bind_intro h1, bind_intro h2]
  dsimp only
  rw [if_neg (by omega), bind_intro h3, bind_intro h4, bind_intro h5, bind_intro h6, asAlign_raw,
    bind_intro (hr s' hg)]
  exact ⟨_, rfl⟩

/-- Empty entries for the ranges `prs` with keys `ks`. -/
def emptyBuckets (prs : List PRange) (ks : List (Str × Time × Time)) : List Bucket :=
  List.zipWith (fun pr k => ⟨k, pr, [], []⟩) prs ks

/-- `ks` are the keys of the ranges, all different. -/
structure Keys (prs : List PRange) (ks : List (Str × Time × Time)) : Prop where
  keys : List.Forall₂ (fun pr k => rangeKey pr = .ok k) prs ks
  nodup : ks.Nodup

theorem emptyBuckets_keys {prs : List PRange} {ks : List (Str × Time × Time)}
    (h : List.Forall₂ (fun pr k => rangeKey pr = .ok k) prs ks) :
    (emptyBuckets prs ks).map Bucket.key = ks := by
  induction h with
  | nil => rfl
  | cons _ _ ih =>
    unfold emptyBuckets at ih ⊢
    rw [List.zipWith_cons_cons, List.map_cons, ih]

theorem addBuckets_new : ∀ {prs : List PRange} {ks : List (Str × Time × Time)} (bs : List Bucket),
    List.Forall₂ (fun pr k => rangeKey pr = .ok k) prs ks → ks.Nodup →
    (∀ k ∈ ks, k ∉ bs.map Bucket.key) → addBuckets bs prs = .ok (bs ++ emptyBuckets prs ks)
  | _, _, bs, .nil, _, _ => by unfold addBuckets emptyBuckets; simp
  | pr :: prs, k :: ks, bs, .cons h1 h2, hn, hd => by
    unfold addBuckets addBucket
    rw [h1]
    dsimp only
    rw [if_neg (by
      intro ha
      obtain ⟨b, hb, e⟩ := List.any_eq_true.1 ha
      exact hd k (by simp) (List.mem_map.2 ⟨b, hb, of_decide_eq_true e⟩))]
    rw [addBuckets_new (bs ++ [(⟨k, pr, [], []⟩ : Bucket)]) h2 (List.nodup_cons.1 hn).2 (by
      intro k' hk' hm
      rw [List.map_append, List.mem_append] at hm
      rcases hm with hm | hm
      · exact hd k' (List.mem_cons_of_mem _ hk') hm
      · simp only [List.map_cons, List.map_nil, List.mem_singleton] at hm
        subst hm
        exact (List.nodup_cons.1 hn).1 hk')]
    unfold emptyBuckets
    simp

theorem addBuckets_known : ∀ {prs : List PRange} {ks : List (Str × Time × Time)} (bs : List Bucket),
    List.Forall₂ (fun pr k => rangeKey pr = .ok k) prs ks →
    (∀ k ∈ ks, k ∈ bs.map Bucket.key) → addBuckets bs prs = .ok bs
  | _, _, bs, .nil, _ => rfl
  | pr :: prs, k :: ks, bs, .cons h1 h2, hd => by
    unfold addBuckets addBucket
    rw [h1]
    dsimp only
    obtain ⟨b, hb, e⟩ := List.mem_map.1 (hd k (by simp))
    rw [if_pos (List.any_eq_true.2 ⟨b, hb, decide_eq_true e⟩)]
    exact addBuckets_known bs h2 fun k' hk' => hd k' (List.mem_cons_of_mem _ hk')

theorem bucketLoop_series {ext : Ext} {p : Params} {s : Sheet} {prs : List PRange}
    {ks : List (Str × Time × Time)} (hk : Keys prs ks) (hmp : (p .timeMulticolumn).truthy = true) :
    ∀ (sps : List SParams) (bs : List Bucket) (s1 : Sheet), Grown s s1 →
    (∀ sp ∈ sps, ∃ nv, Gives ext s prs sp nv) →
    (bs = [] ∧ sps ≠ [] ∨ bs = emptyBuckets prs ks) →
    ∃ s2, bucketLoop ext p (sps.map argsOf) s1 bs = .ok (emptyBuckets prs ks, s2) ∧ Grown s s2
  | [], bs, s1, hs, _, hbs => by
    rcases hbs with hbs | hbs
    · exact absurd rfl hbs.2
    · subst hbs
      exact ⟨s1, rfl, hs⟩
  | sp :: sps, bs, s1, hs, hg, hbs => by
    obtain ⟨nv, hnv⟩ := hg sp (by simp)
    obtain ⟨reads, hr⟩ := rangesOfArgs_series (p := p) hnv hs hmp
    rw [List.map_cons]
    unfold bucketLoop
    rw [hr]
    dsimp only
    have ha : addBuckets bs prs = .ok (emptyBuckets prs ks) := by
      rcases hbs with ⟨hbs, _⟩ | hbs
      · subst hbs
        rw [addBuckets_new [] hk.keys hk.nodup (by simp), List.nil_append]
      · subst hbs
        exact addBuckets_known _ hk.keys (by rw [emptyBuckets_keys hk.keys]; exact fun k h => h)
    rw [ha]
    exact bucketLoop_series hk hmp sps _ _ (hs.trans (grown_touchAll _ _))
      (fun x hx => hg x (List.mem_cons_of_mem _ hx)) (.inr rfl)

/-- An entry with one more series. -/
def Bucket.with (b : Bucket) (nv : Str × List Num) : Bucket :=
  { b with columns := addName nv.1 b.columns, data := b.data ++ [nv.2] }

theorem putSeries_at {name : Str} {values : List Num} {b : Bucket} {post : List Bucket} :
    ∀ (pre : List Bucket), b.key ∉ pre.map Bucket.key →
    putSeries name values b.key (pre ++ b :: post) = .ok (pre ++ b.with (name, values) :: post)
  | [], _ => by
    rw [List.nil_append]
    unfold putSeries
    rw [if_pos rfl]
    rfl
  | a :: pre, h => by
    rw [List.cons_append]
    unfold putSeries
    rw [if_neg (by
      intro e
      exact h (by rw [List.map_cons, e]; exact List.mem_cons_self ..))]
    rw [putSeries_at pre (fun hm => h (List.mem_cons_of_mem _ hm))]
    rfl

theorem putAll_series : ∀ {prs : List PRange} {bs : List Bucket} (nv : List (Str × List Num))
    (pre : List Bucket), List.Forall₂ (fun pr b => rangeKey pr = .ok b.key) prs bs →
    nv.length = prs.length → ((pre ++ bs).map Bucket.key).Nodup →
    putAll (prs.zip nv) (pre ++ bs) = .ok (pre ++ List.zipWith Bucket.with bs nv)
  | _, _, nv, pre, .nil, _, _ => by simp [putAll]
  | pr :: prs, b :: bs, [], pre, .cons _ _, hl, _ => by cases hl
  | pr :: prs, b :: bs, (name, values) :: nv, pre, .cons h1 h2, hl, hn => by
    rw [List.zip_cons_cons]
    unfold putAll
    rw [h1]
    dsimp only
    have hb : b.key ∉ pre.map Bucket.key := by
      rw [List.map_append, List.map_cons, List.nodup_append] at hn
      intro hm
      exact hn.2.2 _ hm _ (List.mem_cons_self ..) rfl
    rw [putSeries_at pre hb]
    dsimp only
    have := putAll_series nv (pre ++ [b.with (name, values)]) h2 (by simpa using hl) (by
      rw [List.append_assoc, List.singleton_append, List.map_append, List.map_cons]
      rw [List.map_append, List.map_cons] at hn
      exact hn)
    rw [List.append_assoc, List.singleton_append] at this
    rw [this]
    simp

/-- Entries with the keys `ks` and the ranges `prs`. -/
structure Entries (prs : List PRange) (ks : List (Str × Time × Time)) (bs : List Bucket) : Prop where
  keyed : List.Forall₂ (fun pr b => rangeKey pr = .ok b.key) prs bs
  keys : bs.map Bucket.key = ks

theorem keyed_with : ∀ {prs : List PRange} {bs : List Bucket} {nv : List (Str × List Num)},
    List.Forall₂ (fun pr b => rangeKey pr = .ok b.key) prs bs → nv.length = prs.length →
    List.Forall₂ (fun pr b => rangeKey pr = .ok b.key) prs (List.zipWith Bucket.with bs nv) ∧
      (List.zipWith Bucket.with bs nv).map Bucket.key = bs.map Bucket.key
  | _, _, nv, .nil, _ => ⟨by simp, rfl⟩
  | pr :: prs, b :: bs, [], .cons _ _, hl => by cases hl
  | pr :: prs, b :: bs, v :: nv, .cons h1 h2, hl => by
    obtain ⟨a1, a2⟩ := keyed_with (nv := nv) h2 (by simpa using hl)
    rw [List.zipWith_cons_cons]
    refine ⟨.cons h1 a1, ?_⟩
    rw [List.map_cons, a2]
    rfl

theorem Entries.with {prs : List PRange} {ks : List (Str × Time × Time)} {bs : List Bucket}
    (h : Entries prs ks bs) {nv : List (Str × List Num)} (hl : nv.length = prs.length) :
    Entries prs ks (List.zipWith Bucket.with bs nv) :=
  ⟨(keyed_with h.keyed hl).1, (keyed_with h.keyed hl).2.trans h.keys⟩

theorem entries_empty : ∀ {prs : List PRange} {ks : List (Str × Time × Time)},
    List.Forall₂ (fun pr k => rangeKey pr = .ok k) prs ks →
    List.Forall₂ (fun pr b => rangeKey pr = .ok b.key) prs (emptyBuckets prs ks)
  | _, _, .nil => by unfold emptyBuckets; simp
  | pr :: prs, k :: ks, .cons h1 h2 => by
    have := entries_empty h2
    unfold emptyBuckets at this ⊢
    rw [List.zipWith_cons_cons]
    exact .cons h1 this

theorem extractor_exists {sp : SParams} (h : sp.frequency ≠ []) :
    ∃ x, extractors.find? (fun x => x.accepts sp) = some x := by
  have hl : 0 < sp.frequency.length := List.length_pos_iff.2 h
  have : (extractors.find? fun x => x.accepts sp).isSome = true := by
    rw [List.find?_isSome]
    by_cases h1 : sp.frequency.length = 1
    · refine ⟨⟨false, sp.continuity⟩, ?_, ?_⟩
      · unfold extractors; cases sp.continuity <;> simp
      · unfold Extractor.accepts; cases sp.continuity <;> simp [h1]
    · refine ⟨⟨true, sp.continuity⟩, ?_, ?_⟩
      · unfold extractors; cases sp.continuity <;> simp
      · unfold Extractor.accepts; cases sp.continuity <;> simp <;> omega
  exact Option.isSome_iff_exists.1 this

theorem seriesStep_series {ext : Ext} {p : Params} {s s1 : Sheet} {sps : List SParams}
    {prs : List PRange} {ks : List (Str × Time × Time)} (hp : HasSeries p sps) (hn : ks.Nodup) {i : Nat}
    {sp : SParams} (hi : sps[i]? = some sp) {nv : List (Str × List Num)} (hg : Gives ext s prs sp nv)
    (hs : Grown s s1) {bs : List Bucket} (hb : Entries prs ks bs) :
    ∃ s2, seriesStep ext p i s1 bs = .ok (List.zipWith Bucket.with bs nv, s2) ∧ Grown s s2 := by
  obtain ⟨th, e, hth, he, h0, hlt, hr⟩ := hg.bounds
  have hfreq : sp.frequency ≠ [] := by
    intro h
    have := hr s (Grown.refl s)
    rw [h] at this
    cases this
  obtain ⟨x, hx⟩ := extractor_exists hfreq
  unfold seriesStep
  rw [bind_intro (typed_of_series hp hi), hx]
  dsimp only
  rw [bind_intro ((getSeries_congr ext sp hs.1).trans hg.series)]
  have hne : nv ≠ [] := by
    intro h
    have := hg.one_each
    rw [h] at this
    exact hg.some_range (List.length_eq_zero_iff.1 this.symm)
  rw [if_neg (by simpa using hne), bind_intro hth.2, he]
  dsimp only
  have hs2 := hs.trans (grown_touchAll (seriesReads ext sp s1) s1)
  rw [bind_intro (hr _ hs2)]
  have hput := putAll_series nv [] hb.keyed hg.one_each (by
    rw [List.nil_append, hb.keys]; exact hn)
  rw [List.nil_append, List.nil_append] at hput
  rw [bind_intro hput]
  exact ⟨_, rfl, hs2.trans (grown_touchAll _ _)⟩

theorem seriesLoop_series {ext : Ext} {p : Params} {s : Sheet} {prs : List PRange}
    {ks : List (Str × Time × Time)} (hn : ks.Nodup) :
    ∀ {rest : List SParams} {nvs : List (List (Str × List Num))} (pre : List SParams) (s1 : Sheet)
      (bs : List Bucket), HasSeries p (pre ++ rest) → List.Forall₂ (Gives ext s prs) rest nvs →
    Grown s s1 → Entries prs ks bs →
    ∃ s2, seriesLoop ext p (List.range' pre.length rest.length) s1 bs =
      .ok (nvs.foldl (List.zipWith Bucket.with) bs, s2) ∧ Grown s s2
  | _, _, pre, s1, bs, _, .nil, hs, _ => ⟨s1, rfl, hs⟩
  | sp :: rest, nv :: nvs, pre, s1, bs, hp, .cons h1 h2, hs, hb => by
    rw [List.length_cons, List.range'_succ]
    unfold seriesLoop
    obtain ⟨s2, e2, hs2⟩ := seriesStep_series hp hn (i := pre.length) (sp := sp) (by simp) h1 hs hb
    rw [e2]
    dsimp only
    obtain ⟨s3, e3, hs3⟩ := seriesLoop_series hn (pre ++ [sp]) s2 _
      (by rw [List.append_assoc]; exact hp) h2 hs2 (hb.with h1.one_each)
    refine ⟨s3, ?_, hs3⟩
    rw [List.foldl_cons, ← e3]
    congr 2
    simp

/-- The `j`-th entry after adding all series. -/
theorem foldl_with {nvs : List (List (Str × List Num))} : ∀ {bs : List Bucket} {j : Nat} {b : Bucket},
    bs[j]? = some b → (∀ nv ∈ nvs, nv.length = bs.length) →
    ∃ col : List (Str × List Num), List.Forall₂ (fun nv v => nv[j]? = some v) nvs col ∧
      (nvs.foldl (List.zipWith Bucket.with) bs)[j]? = some { b with
        columns := addNames b.columns (col.map Prod.fst), data := b.data ++ col.map Prod.snd } := by
  induction nvs with
  | nil =>
    intro bs j b hb _
    exact ⟨[], .nil, by simpa [addNames] using hb⟩
  | cons nv nvs ih =>
    intro bs j b hb hl
    have hj : j < bs.length := by
      rcases Nat.lt_or_ge j bs.length with h | h
      · exact h
      · rw [List.getElem?_eq_none h] at hb; cases hb
    have hnl := hl nv (by simp)
    obtain ⟨v, hv⟩ : ∃ v, nv[j]? = some v := ⟨nv[j]'(by omega), List.getElem?_eq_getElem _⟩
    obtain ⟨col, h1, h2⟩ := ih (bs := List.zipWith Bucket.with bs nv) (j := j) (b := b.with v)
      (by rw [List.getElem?_zipWith, hb, hv])
      (fun x hx => by rw [hl x (List.mem_cons_of_mem _ hx), List.length_zipWith, hnl, Nat.min_self])
    refine ⟨v :: col, .cons hv h1, ?_⟩
    rw [List.foldl_cons, h2]
    simp [Bucket.with, addNames]

theorem foldl_with_length {nvs : List (List (Str × List Num))} : ∀ {bs : List Bucket},
    (∀ nv ∈ nvs, nv.length = bs.length) →
    (nvs.foldl (List.zipWith Bucket.with) bs).length = bs.length := by
  induction nvs with
  | nil => intro bs _; rfl
  | cons nv nvs ih =>
    intro bs hl
    have h1 : (List.zipWith Bucket.with bs nv).length = bs.length := by
      rw [List.length_zipWith, hl nv (by simp), Nat.min_self]
    rw [List.foldl_cons, ih (fun x hx => (hl x (List.mem_cons_of_mem _ hx)).trans h1.symm), h1]

theorem framesOf_of {ext : Ext} : ∀ {bs : List Bucket} {fs : List Frame},
    List.Forall₂ (fun b f => frameOf ext b = .ok f) bs fs → framesOf ext bs = .ok fs
  | _, _, .nil => rfl
  | b :: bs, f :: fs, .cons h1 h2 => by
    unfold framesOf
    rw [h1]
    dsimp only
    rw [framesOf_of h2]

theorem forall₂_right {α β : Type} {R : α → β → Prop} : ∀ {l : List α} {m : List β},
    List.Forall₂ R l m → ∀ b ∈ m, ∃ a ∈ l, R a b
  | _, _, .nil, b, hb => by cases hb
  | a :: _, _ :: _, .cons h1 h2, b, hb => by
    rcases List.mem_cons.1 hb with rfl | hb
    · exact ⟨a, by simp, h1⟩
    · obtain ⟨a', h, h'⟩ := forall₂_right h2 b hb
      exact ⟨a', List.mem_cons_of_mem _ h, h'⟩

theorem emptyBuckets_get {prs : List PRange} {ks : List (Str × Time × Time)}
    (h : List.Forall₂ (fun pr k => rangeKey pr = .ok k) prs ks) {j : Nat} {pr : PRange}
    (hj : prs[j]? = some pr) : ∃ k, rangeKey pr = .ok k ∧ (emptyBuckets prs ks)[j]? = some ⟨k, pr, [], []⟩ := by
  induction h generalizing j with
  | nil => cases hj
  | cons h1 _ ih =>
    unfold emptyBuckets at ih ⊢
    rw [List.zipWith_cons_cons]
    cases j with
    | zero => cases hj; exact ⟨_, h1, rfl⟩
    | succ j => exact ih hj

theorem emptyBuckets_length {prs : List PRange} {ks : List (Str × Time × Time)}
    (h : List.Forall₂ (fun pr k => rangeKey pr = .ok k) prs ks) :
    (emptyBuckets prs ks).length = prs.length := by
  unfold emptyBuckets
  rw [List.length_zipWith, h.length_eq, Nat.min_self]

theorem forall₂_of_get {α β : Type} {R : α → β → Prop} : ∀ {l : List α} {m : List β},
    l.length = m.length → (∀ (i : Nat) (a : α) (b : β), l[i]? = some a → m[i]? = some b → R a b) →
    List.Forall₂ R l m
  | [], [], _, _ => .nil
  | a :: l, b :: m, hl, h => .cons (h 0 a b rfl rfl)
      (forall₂_of_get (by simpa using hl) fun i a' b' h1 h2 => h (i + 1) a' b' h1 h2)
  | [], _ :: _, hl, _ => by cases hl
  | _ :: _, [], hl, _ => by cases hl

theorem forall₂_nonempty {α β : Type} {R : α → β → Prop} {l : List α} {m : List β}
    (h : List.Forall₂ R l m) (hl : l ≠ []) : m ≠ [] := by
  intro hm
  have := h.length_eq
  rw [hm] at this
  exact hl (List.length_eq_zero_iff.1 this)

/-- Extraction up to the data frames. -/
theorem getData_buckets {ext : Ext} {p : Params} {s : Sheet} {sps : List SParams} {prs : List PRange}
    {ks : List (Str × Time × Time)} {nvs : List (List (Str × List Num))} (hp : HasSeries p sps)
    (hne : sps ≠ []) (hk : Keys prs ks) (hg : List.Forall₂ (Gives ext s prs) sps nvs) :
    ∃ s', getData ext p s = (framesOf ext (nvs.foldl (List.zipWith Bucket.with) (emptyBuckets prs ks)), s') ∧
      s'.cells = s.cells := by
  unfold getData
  rw [rangeArgs_series hp]
  dsimp only [Except.bind]
  obtain ⟨s2, e2, hs2⟩ := bucketLoop_series (p := p) hk (by
      rw [hp .timeMulticolumn]
      unfold PVal.truthy
      simpa using hne) sps [] s (Grown.refl s)
    (fun sp h => by
      obtain ⟨i, hi, rfl⟩ := List.mem_iff_getElem.1 h
      have := hg.length_eq
      exact ⟨nvs[i]'(by omega), hg.get hi (by omega)⟩)
    (.inl ⟨rfl, hne⟩)
  rw [e2]
  dsimp only
  have hl : Params.len (p .headersCoord) = .ok sps.length := by
    rw [hp .headersCoord]
    unfold Params.len
    simp
  rw [hl]
  dsimp only
  rw [List.range_eq_range']
  obtain ⟨s3, e3, hs3⟩ := seriesLoop_series (p := p) hk.nodup [] s2 (emptyBuckets prs ks) hp hg hs2
    ⟨entries_empty hk.keys, emptyBuckets_keys hk.keys⟩
  rw [List.length_nil] at e3
  rw [e3]
  dsimp only
  exact ⟨s3, rfl, hs3.1⟩

theorem getData_series {ext : Ext} {p : Params} {s : Sheet} {sps : List SParams} {prs : List PRange}
    {ks : List (Str × Time × Time)} {nvs : List (List (Str × List Num))} (hp : HasSeries p sps)
    (hne : sps ≠ []) (hk : Keys prs ks) (hg : List.Forall₂ (Gives ext s prs) sps nvs)
    (hlen : ∀ nv ∈ nvs, List.Forall₂ (fun (v : Str × List Num) (pr : PRange) =>
      v.2.length = pr.index.length) nv prs) :
    ∃ fs s', getData ext p s = (.ok fs, s') ∧ fs.length = prs.length ∧ s'.cells = s.cells ∧
      ∀ (j : Nat) (f : Frame), fs[j]? = some f → FrameAt prs nvs j f := by
  obtain ⟨s3, e3, hs3⟩ := getData_buckets hp hne hk hg
  rw [e3]
  have hnl : ∀ nv ∈ nvs, nv.length = (emptyBuckets prs ks).length := by
    intro nv h
    rw [emptyBuckets_length hk.keys]
    exact (hlen nv h).length_eq
  -- the frame of the j-th entry
  have hfr : ∀ (j : Nat) (b : Bucket), (nvs.foldl (List.zipWith Bucket.with) (emptyBuckets prs ks))[j]? = some b →
      ∃ f, frameOf ext b = .ok f ∧ FrameAt prs nvs j f := by
    intro j b hb
    have hj : j < prs.length := by
      rcases Nat.lt_or_ge j prs.length with h | h
      · exact h
      · rw [List.getElem?_eq_none (by rw [foldl_with_length hnl, emptyBuckets_length hk.keys]; exact h)] at hb
        cases hb
    have hpr := List.getElem?_eq_getElem hj
    obtain ⟨k, hkk, hbk⟩ := emptyBuckets_get hk.keys hpr
    obtain ⟨col, hcol, hcb⟩ := foldl_with hbk hnl
    rw [hb] at hcb
    cases hcb
    have hcl := hcol.length_eq
    have hcol_ne : col ≠ [] := forall₂_nonempty hcol (forall₂_nonempty hg hne)
    have hsz : ∀ d ∈ col.map Prod.snd, d.length = (prs[j]).index.length := by
      intro d hd
      obtain ⟨v, hv, rfl⟩ := List.mem_map.1 hd
      obtain ⟨nv, hnv, hvj⟩ := forall₂_right hcol v hv
      have h2 := hlen nv hnv
      obtain ⟨hj', rfl⟩ := List.getElem?_eq_some_iff.1 hvj
      exact h2.get hj' hj
    have hcols : ColumnsOf (col.map Prod.fst) (addNames [] (col.map Prod.fst)) := by
      simpa using addNames_columnsOf .nil (col.map Prod.fst)
    refine ⟨⟨(prs[j]).freqstr, (prs[j]).index, addNames [] (col.map Prod.fst), [] ++ col.map Prod.snd⟩,
      ?_, hpr, col, hcol, hcols, by simp⟩
    unfold frameOf mkFrame
    dsimp only
    have hnames := addNames_length (col.map Prod.fst) []
    have hcpos : 0 < col.length := List.length_pos_iff.2 hcol_ne
    rw [if_pos ⟨by intro h0; rw [h0] at hnames; simp at hnames; omega, by rw [hnames]; simp,
      by simpa using hsz⟩]
  have : ∀ bs : List Bucket, (∀ b ∈ bs, ∃ f, frameOf ext b = .ok f) →
      ∃ fs, List.Forall₂ (fun b f => frameOf ext b = .ok f) bs fs := by
    intro bs
    induction bs with
    | nil => intro _; exact ⟨[], .nil⟩
    | cons b bs ih =>
      intro h
      obtain ⟨f, hf⟩ := h b (by simp)
      obtain ⟨fs, hfs⟩ := ih fun x hx => h x (List.mem_cons_of_mem _ hx)
      exact ⟨f :: fs, .cons hf hfs⟩
  obtain ⟨fs, hfs⟩ := this _ (fun b hb => by
    obtain ⟨j, hj, rfl⟩ := List.mem_iff_getElem.1 hb
    obtain ⟨f, hf, _⟩ := hfr j _ (List.getElem?_eq_getElem hj)
    exact ⟨f, hf⟩)
  refine ⟨fs, s3, ?_, ?_, hs3, ?_⟩
  · rw [framesOf_of hfs]
  · rw [← hfs.length_eq, foldl_with_length hnl, emptyBuckets_length hk.keys]
  · intro j f hf
    obtain ⟨hj, rfl⟩ := List.getElem?_eq_some_iff.1 hf
    have hj' : j < (nvs.foldl (List.zipWith Bucket.with) (emptyBuckets prs ks)).length := by
      rw [hfs.length_eq]; exact hj
    obtain ⟨f', h1, h2⟩ := hfr j _ (List.getElem?_eq_getElem hj')
    have h3 := hfs.get hj' hj
    simp only [List.get_eq_getElem] at h3
    rw [h1] at h3
    cases h3
    exact h2

/-- Cleaning and extraction when all series have one time index, up to the data frames. -/
theorem scrape_buckets {ext : Ext} {p : Params} {s s1 : Sheet} {sps : List SParams}
    {prs : List PRange} {ks : List (Str × Time × Time)} {nvs : List (List (Str × List Num))} {stop : Int}
    (hne : sps ≠ []) (hcd : ∃ p', cleanData ext p s = (.ok (), p', s1) ∧ HasSeries p' (sps.map (endingAt stop)))
    (hk : Keys prs ks)
    (hg : List.Forall₂ (Gives ext s1 prs) (sps.map (endingAt stop)) nvs) :
    ∃ p' s', scrape ext p s =
        (framesOf ext (nvs.foldl (List.zipWith Bucket.with) (emptyBuckets prs ks)), p', s') ∧
      s'.cells = s1.cells ∧ HasSeries p' (sps.map (endingAt stop)) := by
  obtain ⟨p', e1, h1⟩ := hcd
  obtain ⟨s', e2, h3⟩ := getData_buckets h1 (by simpa using hne) hk hg
  refine ⟨p', s', ?_, h3, h1⟩
  unfold scrape
  rw [e1]
  dsimp only
  rw [e2]

/-- Cleaning and extraction when all series have one time index. -/
theorem scrape_series {ext : Ext} {p : Params} {s s1 : Sheet} {sps : List SParams}
    {prs : List PRange} {ks : List (Str × Time × Time)} {nvs : List (List (Str × List Num))} {stop : Int}
    (hne : sps ≠ []) (hcd : ∃ p', cleanData ext p s = (.ok (), p', s1) ∧ HasSeries p' (sps.map (endingAt stop)))
    (hk : Keys prs ks)
    (hg : List.Forall₂ (Gives ext s1 prs) (sps.map (endingAt stop)) nvs)
    (hlen : ∀ nv ∈ nvs, List.Forall₂ (fun (v : Str × List Num) (pr : PRange) =>
      v.2.length = pr.index.length) nv prs) :
    ∃ fs p' s', scrape ext p s = (.ok fs, p', s') ∧ fs.length = prs.length ∧ s'.cells = s1.cells ∧
      HasSeries p' (sps.map (endingAt stop)) ∧
      ∀ (j : Nat) (f : Frame), fs[j]? = some f → FrameAt prs nvs j f := by
  obtain ⟨p', e1, h1⟩ := hcd
  obtain ⟨fs, s', e2, h2, h3, h4⟩ := getData_series h1 (by simpa using hne) hk hg hlen
  refine ⟨fs, p', s', ?_, h2, h3, h1, h4⟩
  unfold scrape
  rw [e1]
  dsimp only
  rw [e2]

end Xls
