/-
Lemmas for C124: parameters for names.
-/
import Verif.Spec.NameParts
import Verif.Lemmas.Table
import Verif.Lemmas.OneIndex
import Verif.Lemmas.OtherNames
import Verif.Lemmas.NumSeries

set_option autoImplicit false

namespace Xls

open Spec

theorem truthy_counts (v : PVal) : v.truthy = false ↔ CountsFalse v := by
  cases v with
  | none => exact ⟨fun _ => trivial, fun _ => rfl⟩
  | bool b => cases b <;> simp [PVal.truthy, CountsFalse]
  | int i => simp [PVal.truthy, CountsFalse]
  | float x => cases x <;> simp [PVal.truthy, CountsFalse]
  | str s => cases s <;> simp [PVal.truthy, CountsFalse]
  | list vs => cases vs <;> simp [PVal.truthy, CountsFalse]
  | dict kvs => cases kvs <;> simp [PVal.truthy, CountsFalse]

theorem setPlain_others {p p' : Params} {n m : Name} {v : PVal} {num : Option Nat} (h : p.setPlain n v num = .ok p')
    (hm : m ≠ n) : p' m = p m := by
  unfold Params.setPlain at h
  split at h
  · cases h
    simp [Params.store, hm]
  · split at h
    · split at h
      · cases h
      · cases h
        simp [Params.store, hm]
    · cases h

theorem setEnd_others (p : Params) (i : Nat) (stop : Int) {m : Name} (hm : m ≠ .dataEnds) : setEnd p i stop m = p m := by
  unfold setEnd
  cases p .dataEnds <;> simp [Params.store, hm]

theorem cleanSeries_others (ext : Ext) {m : Name} (hm : m ≠ .dataEnds) : ∀ (is : List Nat) (p : Params) (s : Sheet)
    (ends : List (Str × Int)), (cleanSeries ext is p s ends).2.1 m = p m
  | [], _, _, _ => rfl
  | i :: is, p, s, ends => by
    unfold cleanSeries
    split
    · rfl
    · split
      · rfl
      · split
        · rfl
        · rw [cleanSeries_others ext hm]
          split
          · rfl
          · exact setEnd_others p i _ hm

/-- Cleaning changes no parameter but `data_ends`. -/
theorem cleanData_others (ext : Ext) (p : Params) (s : Sheet) {m : Name} (hm : m ≠ .dataEnds) :
    (cleanData ext p s).2.1 m = p m := by
  unfold cleanData
  split
  · rfl
  · split
    · unfold cleanMulti
      split
      · rfl
      · split
        · rfl
        · split
          · rfl
          · split
            · rfl
            · split
              · rfl
              next h =>
                unfold Params.setItem at h
                dsimp only at h
                rw [if_neg (by rintro ⟨k, _⟩; cases k), if_neg (by intro k; cases k)] at h
                exact setPlain_others h hm
    · split
      · rfl
      · exact cleanSeries_others ext hm _ _ _ _

theorem seriesLoop_typed {ext : Ext} {p : Params} : ∀ {is : List Nat} {s : Sheet} {bs : List Bucket}
    {res : List Bucket × Sheet}, seriesLoop ext p is s bs = .ok res → ∀ i ∈ is, ∃ sp, p.typed i = .ok sp
  | [], _, _, _, _, _, hi => by cases hi
  | j :: is, s, bs, res, h, i, hi => by
    unfold seriesLoop at h
    split at h
    · cases h
    next bs' s' hstep =>
      rcases List.mem_cons.1 hi with rfl | hi
      · unfold seriesStep at hstep
        cases ht : p.typed i with
        | error e => rw [ht] at hstep; cases hstep
        | ok sp => exact ⟨sp, rfl⟩
      · exact seriesLoop_typed h i hi

theorem asStrs_ok : ∀ {vs : List PVal} {ss : List Str}, asStrs vs = .ok ss → vs = ss.map .str
  | [], _, h => by cases h; rfl
  | v :: vs, ss, h => by
    unfold asStrs at h
    cases v with
    | str x =>
      cases hv : asStrs vs with
      | error e => rw [hv] at h; cases h
      | ok xs =>
        rw [hv] at h
        cases h
        rw [List.map_cons, asStrs_ok hv]
    | _ => cases h

theorem nameParts_ok {v : PVal} {o : Option (List Str)} (h : v.nameParts false = .ok o) : TextsOrNothing v := by
  have plain : (if (false || !v.truthy) = true then Except.ok (none : Option (List Str)) else .error Err.assertionError) =
      .ok o → TextsOrNothing v := by
    intro h
    split at h
    next k =>
      refine .inl ((truthy_counts v).1 ?_)
      simpa using k
    · cases h
  cases v with
  | list vs =>
    unfold PVal.nameParts at h
    dsimp only at h
    cases hv : asStrs vs with
    | error e => rw [hv] at h; cases h
    | ok ss => exact .inr ⟨ss, by rw [asStrs_ok hv]⟩
  | _ => exact plain h

/-- What a typed record says about the values it is made from. -/
theorem ofDict_parts {v : Name → PVal} {sp : SParams} (h : SParams.ofDict (Name.all.map fun n => (n, v n)) = .ok sp) :
    (∃ c, v .headersCoord = .str c) ∧ (CountsFalse (v .seriesNames) →
      TextsOrNothing (v .composedHeadersCoord) ∧ TextsOrNothing (v .context)) := by
  unfold SParams.ofDict at h
  simp only [entry_all, Except.bind, bind_intro rfl] at h
  cases h1 : (v .seriesNames).givenName with
  | error e => rw [h1] at h; cases h
  | ok name =>
  cases h2 : (v .headersCoord).asStr with
  | error e => rw [h1, h2] at h; cases h
  | ok c =>
  cases h3 : (v .composedHeadersCoord).nameParts (v .seriesNames).truthy with
  | error e => rw [h1, h2, h3] at h; cases h
  | ok cs =>
  cases h4 : (v .context).nameParts (v .seriesNames).truthy with
  | error e => rw [h1, h2, h3, h4] at h; cases h
  | ok ctx =>
    refine ⟨?_, fun k => ?_⟩
    · revert h2
      cases v .headersCoord with
      | str x => exact fun _ => ⟨x, rfl⟩
      | _ => exact fun h2 => by cases h2
    · rw [(truthy_counts _).2 k] at h3 h4
      exact ⟨nameParts_ok h3, nameParts_ok h4⟩

theorem ofDict_ends {d : List (Name × PVal)} {sp : SParams} (h : SParams.ofDict d = .ok sp) :
    ∃ x, entry d .dataEnds = .ok x := by
  cases he : entry d .dataEnds with
  | ok x => exact ⟨x, rfl⟩
  | error e =>
    exfalso
    unfold SParams.ofDict at h
    simp only [he] at h
    revert h
    cases entry d .alignment with
    | error e => exact fun h => by cases h
    | ok a =>
    cases entry d .seriesNames with
    | error e => exact fun h => by cases h
    | ok g =>
    simp only [bind_intro rfl]
    cases g.givenName with
    | error e => exact fun h => by cases h
    | ok a =>
    cases (entry d .headersCoord).bind PVal.asStr with
    | error e => exact fun h => by cases h
    | ok a =>
    cases (entry d .composedHeadersCoord).bind (PVal.nameParts g.truthy) with
    | error e => exact fun h => by cases h
    | ok a =>
    cases (entry d .context).bind (PVal.nameParts g.truthy) with
    | error e => exact fun h => by cases h
    | ok a =>
    cases (entry d .dataStarts).bind PVal.asInt with
    | error e => exact fun h => by cases h
    | ok a => exact fun h => by cases h

theorem entry_mem {d : List (Name × PVal)} {n : Name} {x : PVal} (h : entry d n = .ok x) : (n, x) ∈ d := by
  unfold entry at h
  split at h
  next kv hf =>
    cases h
    have h1 := List.find?_some hf
    have h2 := List.mem_of_find?_eq_some hf
    have h3 : kv.1 = n := by simpa using h1
    rw [← h3]
    exact h2
  · cases h

/-! ### Series that have names -/

/-- Parameters of `k` series with names, the same apart from composed headers and contexts. -/
structure NamedPair (p q : Params) (k : Nat) : Prop where
  left : SeriesCount p k
  right : SeriesCount q k
  named : AllNamed p
  same : SameButParts p q

/-- The same error, or two series with the same name that differ in composed headers and context. -/
def TypedAlike (a b : Except Err SParams) : Prop :=
  (∃ e, a = .error e ∧ b = .error e) ∨
    ∃ x y c cs, a = .ok x ∧ b = .ok y ∧ OtherName x y ∧ x.seriesName = some (c :: cs) ∧ y.seriesName = some (c :: cs)

theorem nameParts_named (v : PVal) : ∃ o, v.nameParts true = .ok o := by
  cases v with
  | list vs =>
    unfold PVal.nameParts
    dsimp only
    cases asStrs vs <;> exact ⟨_, rfl⟩
  | _ => exact ⟨_, rfl⟩

theorem ofDict_named {v w : Name → PVal} (h : ∀ n, n ≠ .composedHeadersCoord → n ≠ .context → w n = v n) {c : Char}
    {cs : Str} (hn : v .seriesNames = .str (c :: cs)) :
    TypedAlike (SParams.ofDict (Name.all.map fun n => (n, v n))) (SParams.ofDict (Name.all.map fun n => (n, w n))) := by
  unfold SParams.ofDict
  simp only [entry_all, Except.bind, bind_intro rfl]
  rw [h .seriesNames (by decide) (by decide), h .headersCoord (by decide) (by decide),
    h .dataStarts (by decide) (by decide), h .dataEnds (by decide) (by decide),
    h .timeAlignment (by decide) (by decide), h .timeHeaderCoord (by decide) (by decide),
    h .frequency (by decide) (by decide), h .alignment (by decide) (by decide), h .continuity (by decide) (by decide),
    h .blankRows (by decide) (by decide), h .missings (by decide) (by decide), h .missingValue (by decide) (by decide),
    h .timeMulticolumn (by decide) (by decide), h .timeComposed (by decide) (by decide), hn]
  obtain ⟨o1, e1⟩ := nameParts_named (v .composedHeadersCoord)
  obtain ⟨o2, e2⟩ := nameParts_named (v .context)
  obtain ⟨o3, e3⟩ := nameParts_named (w .composedHeadersCoord)
  obtain ⟨o4, e4⟩ := nameParts_named (w .context)
  have ht : (PVal.str (c :: cs)).truthy = true := rfl
  rw [ht, e1, e2, e3, e4]
  cases (v .headersCoord).asStr with
  | error e => exact .inl ⟨e, rfl, rfl⟩
  | ok _ =>
  cases (v .dataStarts).asInt with
  | error e => exact .inl ⟨e, rfl, rfl⟩
  | ok _ =>
  cases orNone PVal.asInt (v .dataEnds) with
  | error e => exact .inl ⟨e, rfl, rfl⟩
  | ok _ =>
  cases (v .timeAlignment).asInt with
  | error e => exact .inl ⟨e, rfl, rfl⟩
  | ok _ =>
  cases (v .timeHeaderCoord).asHeader with
  | error e => exact .inl ⟨e, rfl, rfl⟩
  | ok _ =>
  cases (v .frequency).asStr with
  | error e => exact .inl ⟨e, rfl, rfl⟩
  | ok _ => exact .inr ⟨_, _, c, cs, rfl, rfl, rfl, rfl, rfl⟩

theorem count_values {p : Params} {k i : Nat} (h : SeriesCount p k) (hi : i < k) : ∃ v, ValuesAt p i v := by
  refine ⟨fun n => match p n with
    | .list vs => vs[i]?.getD .none
    | _ => .none, fun n => ?_⟩
  obtain ⟨vs, h1, h2⟩ := h n
  refine ⟨vs, h1, ?_⟩
  dsimp only
  rw [h1]
  dsimp only
  rw [List.getElem?_eq_getElem (by omega)]
  rfl

theorem typed_values {p : Params} {i : Nat} {v : Name → PVal} (h : ValuesAt p i v) :
    p.typed i = SParams.ofDict (Name.all.map fun n => (n, v n)) := by
  unfold Params.typed Params.series
  rw [seriesDict_of fun n _ => h n]
  rfl

theorem typed_pair {p q : Params} {k i : Nat} (h : NamedPair p q k) (hi : i < k) : TypedAlike (p.typed i) (q.typed i) := by
  obtain ⟨v, hv⟩ := count_values h.left hi
  obtain ⟨w, hw⟩ := count_values h.right hi
  obtain ⟨vs, h1, h2⟩ := h.named
  obtain ⟨vs', h3, h4⟩ := hv .seriesNames
  rw [h1] at h3
  cases h3
  obtain ⟨name, h5, h6⟩ := h2 _ (List.mem_of_getElem? h4)
  rw [typed_values hv, typed_values hw]
  cases name with
  | nil => exact absurd rfl h5
  | cons c cs =>
    refine ofDict_named (fun n k1 k2 => ?_) h6
    obtain ⟨us, g1, g2⟩ := hv n
    obtain ⟨us', g3, g4⟩ := hw n
    rw [h.same n k1 k2, g1] at g3
    cases g3
    rw [g2] at g4
    exact (Option.some.inj g4).symm

theorem pair_store {p q : Params} {k : Nat} (h : NamedPair p q k) {vs : List PVal} (hl : vs.length = k) :
    NamedPair (p.store .dataEnds (.list vs)) (q.store .dataEnds (.list vs)) k where
  left := by
    intro n
    unfold Params.store
    split
    · exact ⟨vs, rfl, hl⟩
    · exact h.left n
  right := by
    intro n
    unfold Params.store
    split
    · exact ⟨vs, rfl, hl⟩
    · exact h.right n
  named := by
    obtain ⟨us, h1, h2⟩ := h.named
    exact ⟨us, by simpa [Params.store] using h1, h2⟩
  same := by
    intro n h1 h2
    unfold Params.store
    split
    · rfl
    · exact h.same n h1 h2

theorem pair_setEnd {p q : Params} {k : Nat} (h : NamedPair p q k) (i : Nat) (stop : Int) :
    NamedPair (setEnd p i stop) (setEnd q i stop) k := by
  obtain ⟨vs, h1, h2⟩ := h.left .dataEnds
  unfold setEnd
  rw [h.same .dataEnds (by decide) (by decide), h1]
  exact pair_store h (by simpa using h2)

/-- The same outcome and worksheet, and again such parameters. -/
def CleansNamed (k : Nat) (a b : Except Err Unit × Params × Sheet) : Prop :=
  b.1 = a.1 ∧ b.2.2 = a.2.2 ∧ NamedPair a.2.1 b.2.1 k

theorem clean_alike {x y : SParams} (ext : Ext) (h : OtherName x y) (s : Sheet) :
    cleanTimeIndex ext y s = cleanTimeIndex ext x s := cleanTimeIndex_same ext (OtherName.dates h) s

theorem cleanSeries_pair (ext : Ext) {k : Nat} : ∀ (is : List Nat) {p q : Params} (s : Sheet) (ends : List (Str × Int)),
    (∀ i ∈ is, i < k) → NamedPair p q k → CleansNamed k (cleanSeries ext is p s ends) (cleanSeries ext is q s ends)
  | [], _, _, _, _, _, h => ⟨rfl, rfl, h⟩
  | i :: is, p, q, s, ends, hi, h => by
    unfold cleanSeries
    rw [h.same .timeHeaderCoord (by decide) (by decide), h.same .dataEnds (by decide) (by decide)]
    cases (Params.index (p .timeHeaderCoord) i).bind PVal.asStr with
    | error e => exact ⟨rfl, rfl, h⟩
    | ok header =>
      dsimp only
      have hone : cleanOnce ext q s ends i header = cleanOnce ext p s ends i header := by
        unfold cleanOnce
        rcases typed_pair h (hi i List.mem_cons_self) with ⟨e, e1, e2⟩ | ⟨x, y, c, cs, e1, e2, e3, -, -⟩
        · rw [e1, e2]
        · rw [e1, e2]
          dsimp only
          rw [clean_alike ext e3]
      rw [hone]
      rcases cleanOnce ext p s ends i header with ⟨_ | ⟨stop, ends'⟩, u⟩
      · exact ⟨rfl, rfl, h⟩
      · dsimp only
        cases Params.index (p .dataEnds) i with
        | error e => exact ⟨rfl, rfl, h⟩
        | ok v =>
          dsimp only
          refine cleanSeries_pair ext is u ends' (fun j hj => hi j (List.mem_cons_of_mem _ hj)) ?_
          split
          · exact h
          · exact pair_setEnd h i stop

theorem count_num {p : Params} {k : Nat} (h : SeriesCount p k) : p.num = some k := by
  rw [Params.num_eq_some]
  obtain ⟨vs, h1, h2⟩ := h .headersCoord
  refine ⟨⟨.headersCoord, vs, h1, by decide, h2⟩, ?_⟩
  intro n ws hw _
  obtain ⟨us, h3, h4⟩ := h n
  rw [h3] at hw
  cases hw
  exact h4.le

theorem setItem_count {p : Params} {k : Nat} (h : SeriesCount p k) (hk : 1 ≤ k) (stop : Int) :
    p.setItem .dataEnds (.int stop) = .ok (p.store .dataEnds (.list (List.replicate k (.int stop)))) := by
  unfold Params.setItem
  dsimp only
  rw [if_neg (fun h => by cases h.1), if_neg (by decide)]
  unfold Params.setPlain
  rw [if_neg (by unfold Params.validParamList; simp),
    if_pos (show validParamValue (.int stop) (validValues .dataEnds) = true from rfl), count_num h]
  unfold applyToAll
  dsimp only
  rw [applyGeneric_single hk rfl rfl]

theorem cleanData_pair (ext : Ext) {k : Nat} (hk : 1 ≤ k) {p q : Params} (h : NamedPair p q k) (s : Sheet) :
    CleansNamed k (cleanData ext p s) (cleanData ext q s) := by
  unfold cleanData
  rw [h.same .timeMulticolumn (by decide) (by decide), h.same .timeHeaderCoord (by decide) (by decide)]
  cases Params.index (p .timeMulticolumn) 0 with
  | error e => exact ⟨rfl, rfl, h⟩
  | ok multi =>
    dsimp only
    split
    · unfold cleanMulti
      rw [h.same .dataEnds (by decide) (by decide)]
      rcases typed_pair h (show 0 < k from hk) with ⟨e, e1, e2⟩ | ⟨x, y, c, cs, e1, e2, e3, -, -⟩
      · rw [e1, e2]
        exact ⟨rfl, rfl, h⟩
      · rw [e1, e2]
        dsimp only
        rw [clean_alike ext e3]
        rcases cleanTimeIndex ext x s with ⟨_ | stop, u⟩
        · exact ⟨rfl, rfl, h⟩
        · dsimp only
          cases Params.index (p .dataEnds) 0 with
          | error e => exact ⟨rfl, rfl, h⟩
          | ok v =>
            dsimp only
            split
            · exact ⟨rfl, rfl, h⟩
            · rw [setItem_count h.left hk, setItem_count h.right hk]
              exact ⟨rfl, rfl, pair_store h (by simp)⟩
    · obtain ⟨vs, h1, h2⟩ := h.left .timeHeaderCoord
      have hl : Params.len (p .timeHeaderCoord) = .ok k := by rw [h1, ← h2]; rfl
      rw [hl]
      exact cleanSeries_pair ext _ s [] (fun i hi => List.mem_range.1 hi) h

theorem seriesStep_pair (ext : Ext) {p q : Params} {k i : Nat} (h : NamedPair p q k) (hi : i < k) (s : Sheet)
    (bs : List Bucket) : seriesStep ext q i s bs = seriesStep ext p i s bs := by
  unfold seriesStep
  rcases typed_pair h hi with ⟨e, e1, e2⟩ | ⟨x, y, c, cs, e1, e2, e3, e4, e5⟩
  · rw [e1, e2]
  · rw [bind_intro e1, bind_intro e2]
    have hy : y = _ := e3
    obtain ⟨a1, a2, a3, a4, a5, a6, a7, a8⟩ :
        y.alignment = x.alignment ∧ y.dataEnds = x.dataEnds ∧ y.timeMulticolumn = x.timeMulticolumn ∧
        y.dataStarts = x.dataStarts ∧ y.frequency = x.frequency ∧ y.timeHeader = x.timeHeader ∧
        y.timeAlignment = x.timeAlignment ∧
        (extractors.find? fun z => z.accepts y) = extractors.find? fun z => z.accepts x := by
      rw [hy]
      exact ⟨rfl, rfl, rfl, rfl, rfl, rfl, rfl, rfl⟩
    have g1 : getSeries ext y s = getSeries ext x s := by
      unfold getSeries getName
      rw [e4, e5, getValues_names e3]
    have g2 : seriesReads ext y s = seriesReads ext x s := by
      have e := valuesLoop_names (ext := ext) e3 s
      obtain ⟨b1, b2, b3, b4, b5⟩ : y.headerCoord = x.headerCoord ∧ y.missings = x.missings ∧
          y.missingValue = x.missingValue ∧ y.continuity = x.continuity ∧ nonContHeader y = nonContHeader x := by
        rw [hy]
        exact ⟨rfl, rfl, rfl, rfl, rfl⟩
      unfold seriesReads
      simp only [e4, e5, e, a1, a2, a4, a5, a6, a7, b1, b2, b3, b4, b5]
    simp only [a1, a2, a3, a4, a5, a6, a7, a8, g1, g2]

theorem seriesLoop_pair (ext : Ext) {p q : Params} {k : Nat} (h : NamedPair p q k) : ∀ (is : List Nat) (s : Sheet)
    (bs : List Bucket), (∀ i ∈ is, i < k) → seriesLoop ext q is s bs = seriesLoop ext p is s bs
  | [], _, _, _ => rfl
  | i :: is, s, bs, hi => by
    unfold seriesLoop
    rw [seriesStep_pair ext h (hi i List.mem_cons_self)]
    cases seriesStep ext p i s bs with
    | error e => rfl
    | ok r => exact seriesLoop_pair ext h is _ _ fun j hj => hi j (List.mem_cons_of_mem _ hj)

theorem bucketLoop_pair (ext : Ext) {p q : Params} (h : q .timeMulticolumn = p .timeMulticolumn) : ∀ (as : List RangeArgs)
    (s : Sheet) (bs : List Bucket), bucketLoop ext q as s bs = bucketLoop ext p as s bs
  | [], _, _ => rfl
  | a :: as, s, bs => by
    unfold bucketLoop
    have e : rangesOfArgs ext q s a = rangesOfArgs ext p s a := by
      unfold rangesOfArgs
      rw [h]
    rw [e]
    cases rangesOfArgs ext p s a with
    | error e => rfl
    | ok r =>
      dsimp only
      cases addBuckets bs r.1 with
      | error e => rfl
      | ok bs' => exact bucketLoop_pair ext h as _ _

theorem getData_pair (ext : Ext) {p q : Params} {k : Nat} (h : NamedPair p q k) (s : Sheet) :
    getData ext q s = getData ext p s := by
  have e1 : rangeArgs q = rangeArgs p := by
    unfold rangeArgs
    rw [h.same .frequency (by decide) (by decide), h.same .dataStarts (by decide) (by decide),
      h.same .timeHeaderCoord (by decide) (by decide), h.same .dataEnds (by decide) (by decide),
      h.same .timeAlignment (by decide) (by decide), h.same .alignment (by decide) (by decide)]
  have e2 : ∀ as, bucketLoop ext q as s [] = bucketLoop ext p as s [] :=
    fun as => bucketLoop_pair ext (h.same .timeMulticolumn (by decide) (by decide)) as s []
  unfold getData
  rw [e1, h.same .headersCoord (by decide) (by decide)]
  simp only [e2]
  obtain ⟨vs, h1, h2⟩ := h.left .headersCoord
  have hl : Params.len (p .headersCoord) = .ok k := by rw [h1, ← h2]; rfl
  rw [hl]
  simp only [seriesLoop_pair ext h _ _ _ fun i hi => List.mem_range.1 hi]

theorem scrape_named (ext : Ext) {p q : Params} {k : Nat} (hk : 1 ≤ k) (h : NamedPair p q k) (s : Sheet) :
    (scrape ext q s).1 = (scrape ext p s).1 ∧ (scrape ext q s).2.2 = (scrape ext p s).2.2 := by
  have hc := cleanData_pair ext hk h s
  unfold scrape
  revert hc
  rcases cleanData ext p s with ⟨r, p1, s1⟩
  rcases cleanData ext q s with ⟨r', q1, s1'⟩
  rintro ⟨h1, h2, h3⟩
  dsimp only at h1 h2 h3
  subst h1 h2
  cases r' with
  | error e => exact ⟨rfl, rfl⟩
  | ok _ =>
    dsimp only
    rw [getData_pair ext h3]
    exact ⟨rfl, rfl⟩

theorem count_complete {p : Params} {k : Nat} (h : SeriesCount p k) : p.isComplete = .ok true := by
  unfold Params.isComplete
  rw [count_num h, completeFrom_true]
  intro n _
  obtain ⟨vs, h1, h2⟩ := h n
  unfold Params.completeAt
  rw [h1]
  split
  · rfl
  · simp only [PVal.isNone, Params.len, h2]
    split
    · next h => cases h
    · split <;> simp

end Xls
