/-
The data frames of two worksheets with the same dates and other numbers.
-/
import Verif.Lemmas.Numbers2
import Verif.Lemmas.Marks
import Verif.Lemmas.Usable

set_option autoImplicit false

namespace Xls

open Spec

section
variable {ext : Ext} {R : Num → Num → Prop} {K : List Str → List Str → Prop} {sps : List SParams} {s t : Sheet}

theorem singleHeader_date {first : Bool} {th : TimeHeader} {a : Str} (h : singleHeader first th = .ok a) :
    a ∈ timeCoords th := by
  cases th with
  | single c => cases h; simp [timeCoords]
  | multi cs =>
    cases cs with
    | nil => cases first <;> cases h
    | cons c cs =>
      cases first with
      | false => cases h
      | true => cases h; simp [timeCoords]

theorem timeLine_rel (h : Pair ext R K sps s t) {sp : SParams} (hsp : sp ∈ sps) {a : Str}
    (ha : a ∈ timeCoords sp.timeHeader) {hr hc : Int} (hh : coordOf a = .ok (hr, hc)) :
    List.Forall₂ (DateCell ext) (timeLine s sp.alignment hr hc) (timeLine t sp.alignment hr hc) := by
  unfold timeLine
  dsimp only
  rw [(h.touch hr hc).rows, (h.touch hr hc).cols, List.forall₂_map_left_iff, List.forall₂_map_right_iff]
  exact List.forall₂_same.2 fun i _ => (h.touch hr hc).date hsp ha hh i

theorem pySlice_rel {α : Type} {Q : α → α → Prop} {xs ys : List α} (h : List.Forall₂ Q xs ys) (i j : Int) :
    List.Forall₂ Q (pySlice xs i j) (pySlice ys i j) := by
  unfold pySlice
  dsimp only
  rw [h.length_eq]
  exact List.forall₂_drop _ (List.forall₂_take _ h)

/-- Cells paired with the same frequencies. -/
def PairsRel (ext : Ext) : List (Cell × Char) → List (Cell × Char) → Prop :=
  List.Forall₂ fun a b => DateCell ext a.1 b.1 ∧ b.2 = a.2

theorem zip_rel {cs ds : List Cell} (h : List.Forall₂ (DateCell ext) cs ds) : ∀ fs : List Char,
    PairsRel ext (cs.zip fs) (ds.zip fs) := by
  induction h with
  | nil => intro fs; exact .nil
  | cons hcd _ ih =>
    intro fs
    cases fs with
    | nil => exact .nil
    | cons f fs => exact .cons ⟨hcd, rfl⟩ (ih fs)

theorem capture_rel (f : Char) {xs ys : List (Cell × Char)} (h : PairsRel ext xs ys) :
    DateCell ext (capture f xs) (capture f ys) := by
  have key : ∀ {c d : Cell}, DateCell ext c d → DateCell ext
      (xs.foldl (fun found p => if p.2 = f ∧ found.truthy = false then p.1 else found) c)
      (ys.foldl (fun found p => if p.2 = f ∧ found.truthy = false then p.1 else found) d) := by
    induction h with
    | nil => exact fun h => h
    | @cons a b xs ys hab _ ih =>
      intro c d hcd
      rw [List.foldl_cons, List.foldl_cons]
      refine ih ?_
      rw [hab.2, hcd.truthy]
      split
      · exact hab.1
      · exact hcd
  exact key (.refl _)

theorem dateRange_rel {a b c d : Cell} (h : DateCell ext a b) (h' : DateCell ext c d) (freq : Str) :
    dateRange ext b d freq = dateRange ext a c freq := by
  unfold dateRange
  rw [h.stamp, h'.stamp]

theorem rangesOf_rel {xs ys xs' ys' : List (Cell × Char)} (h : PairsRel ext xs ys) (h' : PairsRel ext xs' ys') :
    ∀ fs : List Char, rangesOf ext ys ys' fs = rangesOf ext xs xs' fs
  | [] => rfl
  | f :: fs => by
    unfold rangesOf
    rw [dateRange_rel (capture_rel f h) (capture_rel f h'), rangesOf_rel h h' fs]

theorem seriesRanges_rel (h : Pair ext R K sps s t) {sp : SParams} (hsp : sp ∈ sps) {a : Str}
    (ha : a ∈ timeCoords sp.timeHeader) (freq : Str) (ini stop ta : Int) :
    seriesRanges ext t freq ini a stop ta sp.alignment = seriesRanges ext s freq ini a stop ta sp.alignment := by
  unfold seriesRanges singleRanges multiRanges
  cases hh : coordOf a with
  | error e => rfl
  | ok rc =>
    obtain ⟨hr, hc⟩ := rc
    dsimp only
    have hl := timeLine_rel h hsp ha hh
    have hs1 : PairsRel ext (startPairs (timeLine s sp.alignment hr hc) freq ini)
        (startPairs (timeLine t sp.alignment hr hc) freq ini) := zip_rel (pySlice_rel hl _ _) _
    have hs2 : PairsRel ext (endPairs (timeLine s sp.alignment hr hc) freq ini stop sp.alignment)
        (endPairs (timeLine t sp.alignment hr hc) freq ini stop sp.alignment) := by
      unfold endPairs
      dsimp only
      split
      · exact zip_rel (List.forall₂_reverse_iff.2 (pySlice_rel hl _ _)) _
      · exact zip_rel (List.forall₂_reverse_iff.2 (pySlice_rel hl _ _)) _
    rw [rangesOf_rel hs1 hs2]
    unfold Sheet.read
    have d1 := h.date hsp ha hh (ini + ta)
    have d2 := h.date hsp ha hh (stop + ta)
    by_cases b1 : 1 ≤ (axisCell sp.alignment hr hc (ini + ta)).1 ∧ 1 ≤ (axisCell sp.alignment hr hc (ini + ta)).2
    · rw [if_pos b1, if_pos b1]
      by_cases b2 : 1 ≤ (axisCell sp.alignment hr hc (stop + ta)).1 ∧ 1 ≤ (axisCell sp.alignment hr hc (stop + ta)).2
      · rw [if_pos b2, if_pos b2]
        dsimp only
        rw [dateRange_rel d1 d2]
      · rw [if_neg b2, if_neg b2]
    · rw [if_neg b1, if_neg b1]

theorem rangesOfArgs_rel (p : Params) (h : Pair ext R K sps s t) {sp : SParams} (hsp : sp ∈ sps) :
    rangesOfArgs ext p t (argsOf sp) = rangesOfArgs ext p s (argsOf sp) := by
  unfold rangesOfArgs argsOf
  dsimp only
  have e5 : orNone PVal.asInt (rawValue sp .dataEnds) = .ok sp.dataEnds := by
    show orNone PVal.asInt (sp.dataEnds.elim PVal.none PVal.int) = _
    cases sp.dataEnds <;> rfl
  have e6 : (rawValue sp .dataStarts).asInt = .ok sp.dataStarts := rfl
  have e3 : (rawValue sp .frequency).asStr = .ok sp.frequency := rfl
  have e4 : (rawValue sp .timeAlignment).asInt = .ok sp.timeAlignment := rfl
  have e7 : (rawValue sp .timeHeaderCoord).asHeader = .ok sp.timeHeader := by
    show PVal.asHeader (match sp.timeHeader with
      | .single c => .str c
      | .multi cs => .list (cs.map .str)) = _
    cases sp.timeHeader with
    | single c => rfl
    | multi cs =>
      show (match asStrs (cs.map .str) with
        | .ok a => Except.ok (TimeHeader.multi a)
        | .error e => .error e) = _
      rw [asStrs_map]
  rw [e5, e6, e3, e4, e7, asAlign_raw]
  have hb : ∀ {α β : Type} (a : α) (f : α → Except Err β), (Except.ok a >>= f) = f a := fun _ _ => rfl
  simp only [hb]
  cases hd : sp.dataEnds with
  | none => rfl
  | some stop =>
    dsimp only
    by_cases hs : stop = 0 ∨ stop ≤ sp.dataStarts
    · rw [if_pos hs, if_pos hs]
    · rw [if_neg hs, if_neg hs]
      cases hh : singleHeader (p .timeMulticolumn).truthy sp.timeHeader with
      | error e => rfl
      | ok a =>
        rw [hb, hb, seriesRanges_rel h hsp (singleHeader_date hh)]

/-- Corresponding outcomes on two worksheets. -/
def PairStep (ext : Ext) (R : Num → Num → Prop) (K : List Str → List Str → Prop) (sps : List SParams) {α : Type} (Q : α → α → Prop)
    (r r' : Except Err (α × Sheet)) : Prop :=
  (∃ e, r = .error e ∧ r' = .error e) ∨
    ∃ x y u u', r = .ok (x, u) ∧ r' = .ok (y, u') ∧ Q x y ∧ Pair ext R K sps u u'

theorem bucketLoop_rel (p : Params) : ∀ (xs : List SParams) {s t : Sheet} (bs : List Bucket),
    (∀ sp ∈ xs, sp ∈ sps) → Pair ext R K sps s t →
    PairStep ext R K sps Eq (bucketLoop ext p (xs.map argsOf) s bs) (bucketLoop ext p (xs.map argsOf) t bs)
  | [], s, t, bs, _, h => .inr ⟨_, _, _, _, rfl, rfl, rfl, h⟩
  | sp :: xs, s, t, bs, hw, h => by
    rw [List.map_cons]
    unfold bucketLoop
    rw [rangesOfArgs_rel p h (hw sp (by simp))]
    split
    · exact .inl ⟨_, rfl, rfl⟩
    · split
      · exact .inl ⟨_, rfl, rfl⟩
      · exact bucketLoop_rel p xs _ (fun x hx => hw x (by simp [hx])) (h.touchAll _)

/-- Entries with the same dates and columns, and numbers in the relation. -/
structure BucketLike (R : Num → Num → Prop) (K : List Str → List Str → Prop) (b b' : Bucket) : Prop where
  key : b'.key = b.key
  range : b'.range = b.range
  columns : K b.columns b'.columns
  data : List.Forall₂ (List.Forall₂ R) b.data b'.data

theorem putSeries_rel {xs ys : List Num} (hxy : List.Forall₂ R xs ys) {name name' : Str} (hn : NamesFit K name name')
    (k : Str × Time × Time) :
    ∀ {bs bs' : List Bucket}, List.Forall₂ (BucketLike R K) bs bs' →
    ExRel (List.Forall₂ (BucketLike R K)) (putSeries name xs k bs) (putSeries name' ys k bs')
  | _, _, .nil => .inl ⟨_, rfl, rfl⟩
  | b :: bs, b' :: bs', .cons hb h => by
    unfold putSeries
    rw [hb.key]
    split
    · refine .inr ⟨_, _, rfl, rfl, .cons ⟨rfl, hb.range, ?_, ?_⟩ h⟩
      · exact hn _ _ hb.columns
      · exact List.rel_append hb.data (.cons hxy .nil)
    · rcases putSeries_rel hxy hn k h with ⟨e, k1, k2⟩ | ⟨x, y, k1, k2, k3⟩
      · rw [k1, k2]
        exact .inl ⟨_, rfl, rfl⟩
      · rw [k1, k2]
        exact .inr ⟨_, _, rfl, rfl, .cons hb k3⟩

theorem putAll_rel : ∀ (prs : List PRange) {nv nv' : List (Str × List Num)}, NamedRel R K nv nv' →
    ∀ {bs bs' : List Bucket}, List.Forall₂ (BucketLike R K) bs bs' →
    ExRel (List.Forall₂ (BucketLike R K)) (putAll (prs.zip nv) bs) (putAll (prs.zip nv') bs')
  | [], _, _, _, _, _, h => .inr ⟨_, _, rfl, rfl, h⟩
  | _ :: _, _, _, .nil, _, _, h => .inr ⟨_, _, rfl, rfl, h⟩
  | pr :: prs, (n, xs) :: nv, (n', ys) :: nv', .cons hab hn, bs, bs', h => by
    obtain ⟨h1, h2⟩ := hab
    rw [List.zip_cons_cons, List.zip_cons_cons]
    unfold putAll
    cases rangeKey pr with
    | error e => exact .inl ⟨_, rfl, rfl⟩
    | ok k =>
      dsimp only
      rcases putSeries_rel h2 h1 k h with ⟨e, k1, k2⟩ | ⟨x, y, k1, k2, k3⟩
      · rw [k1, k2]
        exact .inl ⟨_, rfl, rfl⟩
      · rw [k1, k2]
        exact putAll_rel prs hn k3

theorem seriesStep_rel (hR : R .nan .nan) {p : Params} {i : Nat} {sp : SParams} (hi : p.typed i = .ok sp)
    (hsp : sp ∈ sps) (h : Pair ext R K sps s t) {bs bs' : List Bucket} (hb : List.Forall₂ (BucketLike R K) bs bs') :
    PairStep ext R K sps (List.Forall₂ (BucketLike R K)) (seriesStep ext p i s bs) (seriesStep ext p i t bs') := by
  have hq : sp = { sp with dataEnds := sp.dataEnds } := rfl
  unfold seriesStep
  rw [bind_intro hi, bind_intro hi]
  cases extractors.find? fun x => x.accepts sp with
  | none => exact .inl ⟨_, rfl, rfl⟩
  | some x =>
    dsimp only
    rcases getSeries_rel hR h hsp with ⟨e, k1, k2⟩ | ⟨nv, nv', k1, k2, hn⟩
    · rw [k1, k2]
      exact .inl ⟨_, rfl, rfl⟩
    · rw [bind_intro k1, bind_intro k2]
      have hemp : nv'.isEmpty = nv.isEmpty := by cases hn <;> rfl
      rw [hemp]
      by_cases hn0 : nv.isEmpty = true
      · rw [if_pos hn0, if_pos hn0]
        exact .inl ⟨_, rfl, rfl⟩
      · rw [if_neg hn0, if_neg hn0, seriesReads_rel hR h hsp hq]
        cases hh : singleHeader sp.timeMulticolumn sp.timeHeader with
        | error e => exact .inl ⟨_, rfl, rfl⟩
        | ok a =>
          rw [bind_intro rfl, bind_intro rfl]
          cases hd : sp.dataEnds with
          | none => exact .inl ⟨_, rfl, rfl⟩
          | some stop =>
            dsimp only
            rw [seriesRanges_rel (h.touchAll (seriesReads ext sp s)) hsp (singleHeader_date hh)]
            cases seriesRanges ext (s.touchAll (seriesReads ext sp s)) sp.frequency sp.dataStarts a stop
                sp.timeAlignment sp.alignment with
            | error e => exact .inl ⟨_, rfl, rfl⟩
            | ok prs =>
              rw [bind_intro rfl, bind_intro rfl]
              rcases putAll_rel prs hn hb with ⟨e, j1, j2⟩ | ⟨x, y, j1, j2, j3⟩
              · rw [j1, j2]
                exact .inl ⟨_, rfl, rfl⟩
              · rw [j1, j2]
                exact .inr ⟨_, _, _, _, rfl, rfl, j3, (h.touchAll _).touchAll _⟩

theorem seriesLoop_rel (hR : R .nan .nan) {p : Params} : ∀ (is : List Nat) {s t : Sheet} {bs bs' : List Bucket},
    (∀ i ∈ is, ∃ sp ∈ sps, p.typed i = .ok sp) → Pair ext R K sps s t → List.Forall₂ (BucketLike R K) bs bs' →
    PairStep ext R K sps (List.Forall₂ (BucketLike R K)) (seriesLoop ext p is s bs) (seriesLoop ext p is t bs')
  | [], s, t, bs, bs', _, h, hb => .inr ⟨_, _, _, _, rfl, rfl, hb, h⟩
  | i :: is, s, t, bs, bs', hi, h, hb => by
    unfold seriesLoop
    obtain ⟨sp, hsp, ht⟩ := hi i (by simp)
    rcases seriesStep_rel hR ht hsp h hb with ⟨e, k1, k2⟩ | ⟨x, y, u, u', k1, k2, k3, k4⟩
    · rw [k1, k2]
      exact .inl ⟨_, rfl, rfl⟩
    · rw [k1, k2]
      exact seriesLoop_rel hR is (fun j hj => hi j (by simp [hj])) k4 k3

theorem lengths_rel {l l' : List (List Num)} (h : List.Forall₂ (List.Forall₂ R) l l') (n : Nat) :
    (∀ d ∈ l', d.length = n) ↔ ∀ d ∈ l, d.length = n := by
  induction h with
  | nil => simp
  | cons hab _ ih => simp only [List.forall_mem_cons, ih, hab.length_eq]

/-- Data frames with the same index, whose columns and numbers are in the relations. -/
structure FrameRel (R : Num → Num → Prop) (K : List Str → List Str → Prop) (f g : Frame) : Prop where
  freq : g.freq = f.freq
  index : g.index = f.index
  columns : K f.columns g.columns
  data : List.Forall₂ (List.Forall₂ R) f.data g.data

theorem mkFrame_rel (hK : ∀ c d, K c d → d.length = c.length) (freq : Str) (index : List Time) {columns columns' : List Str}
    (hc : K columns columns') {l l' : List (List Num)} (h : List.Forall₂ (List.Forall₂ R) l l') :
    ExRel (FrameRel R K) (mkFrame freq index columns l) (mkFrame freq index columns' l') := by
  unfold mkFrame
  have hlen := hK _ _ hc
  have key : (columns' ≠ [] ∧ columns'.length = l'.length ∧ ∀ d ∈ l', d.length = index.length) ↔
      (columns ≠ [] ∧ columns.length = l.length ∧ ∀ d ∈ l, d.length = index.length) := by
    rw [lengths_rel h, ← h.length_eq, ← List.length_pos_iff, ← List.length_pos_iff, hlen]
  by_cases hc' : columns ≠ [] ∧ columns.length = l.length ∧ ∀ d ∈ l, d.length = index.length
  · rw [if_pos hc', if_pos (key.2 hc')]
    exact .inr ⟨_, _, rfl, rfl, ⟨rfl, rfl, hc, h⟩⟩
  · rw [if_neg hc', if_neg fun h => hc' (key.1 h)]
    exact .inl ⟨_, rfl, rfl⟩

theorem frameOf_rel (hK : ∀ c d, K c d → d.length = c.length) {b b' : Bucket} (h : BucketLike R K b b') :
    ExRel (FrameRel R K) (frameOf ext b) (frameOf ext b') := by
  unfold frameOf
  rw [h.key, h.range]
  rcases mkFrame_rel hK b.range.freqstr b.range.index h.columns h.data with ⟨e, k1, k2⟩ | ⟨x, y, k1, k2, k3⟩
  · rw [k1, k2]
    dsimp only
    split
    · exact mkFrame_rel hK _ _ h.columns h.data
    · exact .inl ⟨_, rfl, rfl⟩
  · rw [k1, k2]
    exact .inr ⟨_, _, rfl, rfl, k3⟩

theorem framesOf_rel (hK : ∀ c d, K c d → d.length = c.length) : ∀ {bs bs' : List Bucket}, List.Forall₂ (BucketLike R K) bs bs' →
    ExRel (List.Forall₂ (FrameRel R K)) (framesOf ext bs) (framesOf ext bs')
  | _, _, .nil => .inr ⟨_, _, rfl, rfl, .nil⟩
  | _, _, .cons hb h => by
    unfold framesOf
    rcases frameOf_rel (ext := ext) hK hb with ⟨e, k1, k2⟩ | ⟨x, y, k1, k2, k3⟩
    · rw [k1, k2]
      exact .inl ⟨_, rfl, rfl⟩
    · rw [k1, k2]
      dsimp only
      rcases framesOf_rel hK h with ⟨e, j1, j2⟩ | ⟨x, y, j1, j2, j3⟩
      · rw [j1, j2]
        exact .inl ⟨_, rfl, rfl⟩
      · rw [j1, j2]
        exact .inr ⟨_, _, rfl, rfl, .cons k3 j3⟩

theorem addBuckets_empty : ∀ {prs : List PRange} {bs bs' : List Bucket}, addBuckets bs prs = .ok bs' →
    (∀ b ∈ bs, b.columns = [] ∧ b.data = []) → ∀ b ∈ bs', b.columns = [] ∧ b.data = []
  | [], _, _, h, hb => by cases h; exact hb
  | pr :: prs, bs, bs', h, hb => by
    unfold addBuckets at h
    cases h1 : addBucket bs pr with
    | error e => rw [h1] at h; cases h
    | ok b1 =>
      rw [h1] at h
      refine addBuckets_empty h ?_
      unfold addBucket at h1
      cases hk : rangeKey pr with
      | error e => rw [hk] at h1; cases h1
      | ok k =>
        rw [hk] at h1
        dsimp only at h1
        split at h1
        · cases h1; exact hb
        · cases h1
          intro b hm
          rcases List.mem_append.1 hm with hm | hm
          · exact hb b hm
          · rw [List.mem_singleton.1 hm]
            exact ⟨rfl, rfl⟩

theorem bucketLoop_empty {p : Params} : ∀ {as : List RangeArgs} {s s' : Sheet} {bs bs' : List Bucket},
    bucketLoop ext p as s bs = .ok (bs', s') → (∀ b ∈ bs, b.columns = [] ∧ b.data = []) → ∀ b ∈ bs', b.columns = [] ∧ b.data = []
  | [], _, _, _, _, h, hb => by cases h; exact hb
  | a :: as, s, s', bs, bs', h, hb => by
    unfold bucketLoop at h
    split at h
    · cases h
    · split at h
      · cases h
      next h2 => exact bucketLoop_empty h (addBuckets_empty h2 hb)

theorem getData_rel (hR : R .nan .nan) (hK0 : K [] []) (hK : ∀ c d, K c d → d.length = c.length) {p : Params} (hp : HasSeries p sps) (h : Pair ext R K sps s t) :
    ExRel (List.Forall₂ (FrameRel R K)) (getData ext p s).1 (getData ext p t).1 ∧
      Pair ext R K sps (getData ext p s).2 (getData ext p t).2 := by
  unfold getData
  rw [rangeArgs_series hp]
  have hb : ∀ {α β : Type} (a : α) (f : α → Except Err β), (Except.ok a).bind f = f a := fun _ _ => rfl
  rw [hb, hb]
  rcases bucketLoop_rel p sps [] (fun _ h => h) h with ⟨e, k1, k2⟩ | ⟨bs, _, u, u', k1, k2, rfl, k3⟩
  · rw [k1, k2]
    exact ⟨.inl ⟨_, rfl, rfl⟩, h⟩
  · rw [k1, k2]
    dsimp only
    have l1 : Params.len (p .headersCoord) = .ok sps.length := by
      rw [hp]; unfold Params.len; simp
    rw [l1]
    dsimp only
    have hall : ∀ i ∈ List.range sps.length, ∃ sp ∈ sps, p.typed i = .ok sp := by
      intro i hi
      rw [List.mem_range] at hi
      exact ⟨sps[i], List.getElem_mem hi, typed_of_series hp (List.getElem?_eq_getElem hi)⟩
    have hsame : List.Forall₂ (BucketLike R K) bs bs := by
      refine List.forall₂_same.2 fun b hb => ?_
      obtain ⟨h1, h2⟩ := bucketLoop_empty k1 (by simp) b hb
      exact ⟨rfl, rfl, by rw [h1]; exact hK0, by rw [h2]; exact .nil⟩
    rcases seriesLoop_rel hR (List.range sps.length) hall k3 hsame with
      ⟨e, k1, k2⟩ | ⟨b1, b2, w, w', k1, k2, k4, k5⟩
    · rw [k1, k2]
      exact ⟨.inl ⟨_, rfl, rfl⟩, k3⟩
    · rw [k1, k2]
      exact ⟨framesOf_rel hK k4, k5⟩

/-! ### Cleaning and reading -/

theorem filled_same {sps sps' : List SParams} {kept : Prop} (h : List.Forall₂ (EndFilled kept) sps sps') :
    ∀ sp' ∈ sps', ∃ sp ∈ sps, sp' = { sp with dataEnds := sp'.dataEnds } := by
  induction h with
  | nil => simp
  | cons hab _ ih =>
    intro sp' hm
    rcases List.mem_cons.1 hm with rfl | hm
    · exact ⟨_, by simp, hab.same⟩
    · obtain ⟨sp, h1, h2⟩ := ih sp' hm
      exact ⟨sp, by simp [h1], h2⟩

open Classical in
/-- The cells in the columns and rows of dates. -/
noncomputable def dateCells (sps : List SParams) (r c : Int) : Bool := decide (∃ sp ∈ sps, InDates sp r c)

open Classical in
theorem dateCells_iff {r c : Int} : dateCells sps r c = true ↔ ∃ sp ∈ sps, InDates sp r c := by
  unfold dateCells
  exact decide_eq_true_iff

theorem dateCells_dates {sp : SParams} (h : sp ∈ sps) : DatesT (dateCells sps) sp :=
  fun a ha hr hc hh pos => dateCells_iff.2 ⟨sp, h, a, ha, hr, hc, pos, hh, isAt_iff.2 rfl⟩

/-- The same worksheet apart from cells that are not in columns or rows of dates. -/
structure SameSpot (sps : List SParams) (s t : Sheet) : Prop where
  title : t.title = s.title
  rows : t.maxRow = s.maxRow
  cols : t.maxCol = s.maxCol
  dates : ∀ sp ∈ sps, ∀ r c, InDates sp r c → t.cells r c = s.cells r c

theorem sameSpot_over (h : SameSpot sps s t) : t = over (dateCells sps) t.cells s := by
  have h1 := h.title
  have h2 := h.rows
  have h3 := h.cols
  have h4 : t.cells = (over (dateCells sps) t.cells s).cells := by
    funext r c
    show _ = if dateCells sps r c = true then s.cells r c else t.cells r c
    split
    next hd =>
      obtain ⟨sp, k1, k2⟩ := dateCells_iff.1 hd
      exact h.dates sp k1 r c k2
    · rfl
  obtain ⟨tt, tr, tc, tcells⟩ := t
  obtain ⟨st, sr, sc, scells⟩ := s
  dsimp only at h1 h2 h3
  subst h1 h2 h3
  show Sheet.mk _ _ _ _ = Sheet.mk _ _ _ _
  congr 1

theorem over_self (T : Int → Int → Bool) (s : Sheet) : over T s.cells s = s := by
  obtain ⟨st, sr, sc, scells⟩ := s
  unfold over
  congr 1
  funext r c
  dsimp only
  split <;> rfl

/-- Cleaning and reading, from what holds of the cells of headers and values once the dates were cleaned in the same
way (`u` on the first worksheet, `v` on the second). -/
theorem scrape_pair (hR : R .nan .nan) (hK0 : K [] []) (hK : ∀ c d, K c d → d.length = c.length) {p : Params}
    (hp : HasSeries p sps) (h : SameSpot sps s t)
    (hpair : ∀ u v : Sheet, (∀ r c, dateCells sps r c = true → v.cells r c = u.cells r c) →
      (∀ r c, ¬ dateCells sps r c = true → u.cells r c = s.cells r c ∧ v.cells r c = t.cells r c) →
      ∀ sp ∈ sps, ∀ e, ExRel (NamesFit K) (getName ext { sp with dataEnds := e } u) (getName ext { sp with dataEnds := e } v) ∧
        ∀ r c, InValues sp r c → ExRel (OptRel R) (handleValue ext { sp with dataEnds := e } (u.cells r c))
          (handleValue ext { sp with dataEnds := e } (v.cells r c))) :
    ExRel (List.Forall₂ (FrameRel R K)) (scrape ext p s).1 (scrape ext p t).1 ∧
      (scrape ext p t).2.1 = (scrape ext p s).2.1 := by
  have c1 := cleanData_over (T := dateCells sps) (g := s.cells) ext hp (fun sp h => dateCells_dates h) s
  have c2 := cleanData_over (T := dateCells sps) (g := t.cells) ext hp (fun sp h => dateCells_dates h) s
  rw [over_self] at c1
  rw [← sameSpot_over h] at c2
  obtain ⟨z, hz⟩ : ∃ z, cleanData ext p s = z := ⟨_, rfl⟩
  obtain ⟨x, p', u⟩ := z
  rw [hz] at c1 c2
  unfold scrape
  rw [hz, c2]
  cases x with
  | error e => exact ⟨.inl ⟨_, rfl, rfl⟩, rfl⟩
  | ok w =>
    dsimp only
    obtain ⟨sps', hp', hf⟩ := cleanData_filled hp hz
    have hs := filled_same hf
    have hu : u = over (dateCells sps) s.cells u := congrArg (fun z => z.2.2) c1
    have off : ∀ {r c : Int}, ¬ dateCells sps r c = true → u.cells r c = s.cells r c := by
      intro r c hd
      rw [hu]
      exact if_neg hd
    have off' : ∀ {r c : Int}, ¬ dateCells sps r c = true →
        (over (dateCells sps) t.cells u).cells r c = t.cells r c := fun hd => if_neg hd
    have hpair := hpair u (over (dateCells sps) t.cells u) (fun r c hd => over_cells hd) fun r c hd => ⟨off hd, off' hd⟩
    have pair : Pair ext R K sps' u (over (dateCells sps) t.cells u) := by
      refine ⟨rfl, rfl, fun sp' h1 r c h2 => ?_, fun sp' h1 => ?_, fun sp' h1 r c h2 => ?_⟩
      · obtain ⟨sp, k1, k2⟩ := hs sp' h1
        rw [k2] at h2
        exact .of_eq (over_cells (dateCells_iff.2 ⟨sp, k1, h2⟩))
      · obtain ⟨sp, k1, k2⟩ := hs sp' h1
        rw [k2]
        exact (hpair sp k1 _).1
      · obtain ⟨sp, k1, k2⟩ := hs sp' h1
        rw [k2]
        exact (hpair sp k1 _).2 r c (by rw [k2] at h2; exact h2)
    exact ⟨(getData_rel hR hK0 hK hp' pair).1, rfl⟩

theorem namesFit_eq (a : Str) : NamesFit Eq a a := fun _ _ h => by rw [h]

theorem frameRel_eq {f g : Frame} (h : FrameRel R Eq f g) : FrameLike R f g :=
  ⟨h.freq, h.index, h.columns.symm, h.data⟩

theorem scrape_rel (hR : R .nan .nan) {p : Params} (hp : HasSeries p sps) (ha : ValuesApart sps)
    (h : Renumbered ext R sps s t) :
    ExRel (List.Forall₂ (FrameLike R)) (scrape ext p s).1 (scrape ext p t).1 ∧
      (scrape ext p t).2.1 = (scrape ext p s).2.1 := by
  have key := scrape_pair (K := Eq) hR rfl (fun c d h => by rw [h]) hp ⟨h.title, h.rows, h.cols, h.dates⟩ (s := s) (t := t)
    (ext := ext) ?_
  · refine ⟨?_, key.2⟩
    rcases key.1 with h | ⟨x, y, k1, k2, k3⟩
    · exact .inl h
    · exact .inr ⟨x, y, k1, k2, k3.imp fun _ _ h => frameRel_eq h⟩
  · intro u v hon hoff sp hsp e
    constructor
    · rw [getName_cells (s := u) (t := v)]
      · exact exRel_of fun x _ => namesFit_eq x
      · intro a h2 r c h3
        by_cases hd : dateCells sps r c = true
        · exact hon r c hd
        · rw [(hoff r c hd).1, (hoff r c hd).2]
          exact h.headers sp hsp a h2 r c h3
    · intro r c h3
      have hd : ¬ dateCells sps r c = true := by
        intro hd
        obtain ⟨sq, j1, j2⟩ := dateCells_iff.1 hd
        exact ha sp hsp sq j1 r c h3 j2
      rw [(hoff r c hd).1, (hoff r c hd).2]
      show ExRel (OptRel R) (handleValue ext sp _) (handleValue ext sp _)
      exact handleValue_rel hR (h.values sp hsp r c h3)

end

end Xls
