/-
What `_get_data` returns, in terms of what each series gives.
-/
import Verif.Lemmas.Frames
import Verif.Lemmas.RangeUnique
import Verif.Lemmas.Build

set_option autoImplicit false

namespace Xls

open Spec

/-! ### Looking cells up changes no value -/

theorem touchAll_cells (rcs : List (Int × Int)) : ∀ s : Sheet, (s.touchAll rcs).cells = s.cells := by
  induction rcs with
  | nil => intro s; rfl
  | cons rc rcs ih =>
    intro s
    show ((s.touch rc.1 rc.2).touchAll rcs).cells = s.cells
    rw [ih]
    rfl

theorem read_congr {s s' : Sheet} (h : s.cells = s'.cells) (r c : Int) : s.read r c = s'.read r c := by
  unfold Sheet.read
  rw [h]

theorem valuesLoop_congr (ext : Ext) (sp : SParams) {s s' : Sheet} (h : s.cells = s'.cells) (hr hc : Int) :
    ∀ (is : List Int) (m : List (Str × List Num)) (last : Str),
    valuesLoop ext sp s hr hc is m last = valuesLoop ext sp s' hr hc is m last
  | [], m, last => rfl
  | i :: is, m, last => by
    have h1 : ∀ v j, toBeAdded sp s v j = toBeAdded sp s' v j := by
      intro v j
      unfold toBeAdded
      simp only [read_congr h]
    unfold valuesLoop
    simp only [read_congr h, h1, valuesLoop_congr ext sp h hr hc is]

theorem getValues_congr (ext : Ext) (sp : SParams) {s s' : Sheet} (h : s.cells = s'.cells) :
    getValues ext sp s = getValues ext sp s' := by
  have h1 : ∀ hr hc is, timeCells sp s hr hc is = timeCells sp s' hr hc is := by
    intro hr hc is
    unfold timeCells
    rw [h]
  unfold getValues
  simp only [valuesLoop_congr ext sp h, h1]

theorem composedParts_congr (ext : Ext) {s s' : Sheet} (h : s.cells = s'.cells) :
    ∀ cs, composedParts ext s cs = composedParts ext s' cs
  | [] => rfl
  | c :: cs => by
    have h1 : cellAt s c = cellAt s' c := by unfold cellAt; rw [h]
    unfold composedParts
    rw [h1, composedParts_congr ext h cs]

theorem getName_congr (ext : Ext) (sp : SParams) {s s' : Sheet} (h : s.cells = s'.cells) :
    getName ext sp s = getName ext sp s' := by
  have h1 : ∀ c, cellAt s c = cellAt s' c := by intro c; unfold cellAt; rw [h]
  unfold getName
  simp only [h1, composedParts_congr ext h]

theorem getSeries_congr (ext : Ext) (sp : SParams) {s s' : Sheet} (h : s.cells = s'.cells) :
    getSeries ext sp s = getSeries ext sp s' := by
  unfold getSeries
  rw [getName_congr ext sp h, getValues_congr ext sp h]

theorem singleRanges_congr (ext : Ext) {s s' : Sheet} (h : s.cells = s'.cells) (freq : Str)
    (ini : Int) (header : Str) (stop ta : Int) (al : Align) :
    singleRanges ext s freq ini header stop ta al = singleRanges ext s' freq ini header stop ta al := by
  unfold singleRanges
  simp only [read_congr h]

/-! ### The first step -/

/-- Entries of `dfs_dict` before any series was added. -/
structure Fresh (ext : Ext) (bs : List Bucket) : Prop where
  nodup : (bs.map Bucket.key).Nodup
  empty : ∀ b ∈ bs, b.columns = [] ∧ b.data = []
  keyed : ∀ b ∈ bs, rangeKey b.range = .ok b.key
  generated : ∀ b ∈ bs, Generated ext b.range

theorem addBucket_ok {ext : Ext} {bs bs' : List Bucket} {pr : PRange} (hf : Fresh ext bs)
    (hg : Generated ext pr) (h : addBucket bs pr = .ok bs') : Fresh ext bs' := by
  unfold addBucket at h
  split at h
  · cases h
  next k hk =>
    cases h
    split
    · exact hf
    next hn =>
      have hnk : k ∉ bs.map Bucket.key := by
        intro hm
        obtain ⟨b, hb, e⟩ := List.mem_map.1 hm
        exact hn (List.any_eq_true.2 ⟨b, hb, decide_eq_true e⟩)
      constructor
      · rw [List.map_append, List.nodup_append]
        refine ⟨hf.nodup, by simp, ?_⟩
        intro a ha b hb
        simp only [List.map_cons, List.map_nil, List.mem_singleton] at hb
        subst hb
        rintro rfl
        exact hnk ha
      all_goals
        intro b hb
        rcases List.mem_append.1 hb with hb | hb
      · exact hf.empty b hb
      · rw [List.mem_singleton] at hb; subst hb; exact ⟨rfl, rfl⟩
      · exact hf.keyed b hb
      · rw [List.mem_singleton] at hb; subst hb; exact hk
      · exact hf.generated b hb
      · rw [List.mem_singleton] at hb; subst hb; exact hg

theorem addBuckets_ok {ext : Ext} : ∀ {prs : List PRange} {bs bs' : List Bucket}, Fresh ext bs →
    (∀ pr ∈ prs, Generated ext pr) → addBuckets bs prs = .ok bs' → Fresh ext bs'
  | [], bs, bs', hf, _, h => by unfold addBuckets at h; cases h; exact hf
  | pr :: prs, bs, bs', hf, hg, h => by
    unfold addBuckets at h
    split at h
    · cases h
    next b1 h1 =>
      exact addBuckets_ok (addBucket_ok hf (hg pr (by simp)) h1)
        (fun x hx => hg x (List.mem_cons_of_mem _ hx)) h

theorem rangesOfArgs_generated {ext : Ext} {p : Params} {s : Sheet} {a : RangeArgs}
    {prs : List PRange} {reads : List (Int × Int)} (h : rangesOfArgs ext p s a = .ok (prs, reads)) :
    ∀ pr ∈ prs, Generated ext pr := by
  unfold rangesOfArgs at h
  obtain ⟨stop, _, h⟩ := bind_ok h
  obtain ⟨ini, _, h⟩ := bind_ok h
  cases stop with
  | none => cases h
  | some stop =>
    dsimp only at h
    split at h
    · cases h
    obtain ⟨hh, _, h⟩ := bind_ok h
    obtain ⟨header, _, h⟩ := bind_ok h
    obtain ⟨freq, _, h⟩ := bind_ok h
    obtain ⟨ta, _, h⟩ := bind_ok h
    obtain ⟨prs', h1, h⟩ := bind_ok h
    cases h
    exact seriesRanges_generated h1

theorem bucketLoop_ok {ext : Ext} {p : Params} : ∀ {as : List RangeArgs} {s s' : Sheet}
    {bs bs' : List Bucket}, Fresh ext bs → bucketLoop ext p as s bs = .ok (bs', s') →
    Fresh ext bs' ∧ s'.cells = s.cells
  | [], s, s', bs, bs', hf, h => by unfold bucketLoop at h; cases h; exact ⟨hf, rfl⟩
  | a :: as, s, s', bs, bs', hf, h => by
    unfold bucketLoop at h
    split at h
    · cases h
    next prs reads h1 =>
      split at h
      · cases h
      next bs1 h2 =>
        obtain ⟨h3, h4⟩ := bucketLoop_ok (addBuckets_ok hf (rangesOfArgs_generated h1) h2) h
        exact ⟨h3, h4.trans (touchAll_cells _ _)⟩

/-! ### The second step -/

/-- What series `i` gives: its period ranges (on a sheet with the same values) paired with its names and
values. -/
def SeriesGives (ext : Ext) (p : Params) (s : Sheet) (i : Nat)
    (out : List (PRange × Str × List Num)) : Prop :=
  ∃ sp s' nv prs header stop, p.typed i = .ok sp ∧ getSeries ext sp s = .ok nv ∧ s'.cells = s.cells ∧
    singleHeader sp.timeMulticolumn sp.timeHeader = .ok header ∧ sp.dataEnds = some stop ∧
    seriesRanges ext s' sp.frequency sp.dataStarts header stop sp.timeAlignment sp.alignment = .ok prs ∧
    out = prs.zip nv ∧ nv ≠ []

theorem seriesGives_congr {ext : Ext} {p : Params} {s s' : Sheet} (h : s.cells = s'.cells) {i : Nat}
    {out : List (PRange × Str × List Num)} (hg : SeriesGives ext p s i out) :
    SeriesGives ext p s' i out := by
  obtain ⟨sp, s1, nv, prs, header, stop, h1, h2, h3, h4⟩ := hg
  exact ⟨sp, s1, nv, prs, header, stop, h1, (getSeries_congr ext sp h) ▸ h2, h3.trans h, h4⟩

theorem seriesStep_ok {ext : Ext} {p : Params} {i : Nat} {s s' : Sheet} {bs bs' : List Bucket}
    (h : seriesStep ext p i s bs = .ok (bs', s')) :
    ∃ out, SeriesGives ext p s i out ∧ putAll out bs = .ok bs' ∧ s'.cells = s.cells := by
  unfold seriesStep at h
  obtain ⟨sp, h1, h⟩ := bind_ok h
  split at h
  · cases h
  obtain ⟨nv, h2, h⟩ := bind_ok h
  split at h
  · cases h
  next hne =>
  obtain ⟨header, h3, h⟩ := bind_ok h
  split at h
  · cases h
  next stop h4 =>
    obtain ⟨prs, h5, h⟩ := bind_ok h
    obtain ⟨bs1, h6, h⟩ := bind_ok h
    cases h
    refine ⟨prs.zip nv, ⟨sp, _, nv, prs, header, stop, h1, h2, ?_, h3, h4, h5, rfl,
      fun e => hne (by rw [e]; rfl)⟩, h6, ?_⟩
    · rw [touchAll_cells]
    · rw [touchAll_cells, touchAll_cells]

theorem seriesLoop_ok {ext : Ext} {p : Params} : ∀ {is : List Nat} {s s' : Sheet}
    {bs bs' : List Bucket}, (bs.map Bucket.key).Nodup → seriesLoop ext p is s bs = .ok (bs', s') →
    ∃ (outs : List (List (PRange × Str × List Num))) (ds : List Keyed),
      List.Forall₂ (SeriesGives ext p s) is outs ∧ List.Forall₂ KeyedAs outs.flatten ds ∧
      (∀ d ∈ ds, d.1 ∈ bs.map Bucket.key) ∧ bs' = bs.map (deliver ds) ∧ s'.cells = s.cells
  | [], s, s', bs, bs', _, h => by
    unfold seriesLoop at h
    cases h
    refine ⟨[], [], .nil, .nil, by simp, ?_, rfl⟩
    rw [List.map_congr_left (g := id) (fun b _ => deliver_nil b), List.map_id]
  | i :: is, s, s', bs, bs', hnd, h => by
    unfold seriesLoop at h
    split at h
    · cases h
    next bs1 s1 h1 =>
      obtain ⟨out, g1, g2, g3⟩ := seriesStep_ok h1
      obtain ⟨ds, d1, d2, d3⟩ := putAll_ok hnd g2
      have hk : bs1.map Bucket.key = bs.map Bucket.key := by rw [d3, deliver_map_key]
      obtain ⟨outs, ds', e1, e2, e3, e4, e5⟩ := seriesLoop_ok (hk ▸ hnd) h
      refine ⟨out :: outs, ds ++ ds', .cons g1 ?_, ?_, ?_, ?_, e5.trans g3⟩
      · exact e1.imp fun _ _ hx => seriesGives_congr g3 hx
      · rw [List.flatten_cons]
        exact List.rel_append d1 e2
      · intro d hd
        rcases List.mem_append.1 hd with hd | hd
        · exact d2 d hd
        · exact hk ▸ e3 d hd
      · rw [e4, d3, List.map_map]
        exact List.map_congr_left fun b _ => (deliver_append ds ds' b).symm

/-! ### The third step -/

theorem mkFrame_ok {freq : Str} {index : List Time} {columns : List Str} {data : List (List Num)}
    {f : Frame} (h : mkFrame freq index columns data = .ok f) :
    f = ⟨freq, index, columns, data⟩ ∧ columns ≠ [] ∧ columns.length = data.length ∧
      ∀ d ∈ data, d.length = index.length := by
  unfold mkFrame at h
  split at h
  next hc => cases h; exact ⟨rfl, hc⟩
  · cases h

theorem framesOf_forall {ext : Ext} : ∀ {bs : List Bucket} {fs : List Frame},
    framesOf ext bs = .ok fs → List.Forall₂ (fun b f => frameOf ext b = .ok f) bs fs
  | [], fs, h => by unfold framesOf at h; cases h; exact .nil
  | b :: bs, fs, h => by
    unfold framesOf at h
    split at h
    · cases h
    next f h1 =>
      split at h
      · cases h
      next fs' h2 => cases h; exact .cons h1 (framesOf_forall h2)

end Xls
