/-
Lemmas about the series the columns of a data frame belong to.
-/
import Verif.Lemmas.Usable
import Verif.Lemmas.Provenance

set_option autoImplicit false

namespace Xls

open Spec

/-! ### Names -/

theorem composedParts_inv {ext : Ext} {s : Sheet} : ∀ {coords parts : List Str},
    composedParts ext s coords = .ok parts → ∃ texts,
      List.Forall₂ (fun coord t => ∃ r c, coordOf coord = .ok (r, c) ∧ s.cells r c = .str t) coords texts ∧
      parts = texts.map fun t => strip (ext.unidecode t)
  | [], parts, h => by
    cases h
    exact ⟨[], .nil, rfl⟩
  | coord :: coords, parts, h => by
    unfold composedParts cellAt at h
    cases hc : coordOf coord with
    | error e => rw [hc] at h; cases h
    | ok rc =>
      obtain ⟨r, c⟩ := rc
      rw [hc] at h
      dsimp only at h
      cases hv : s.cells r c with
      | str t =>
        rw [hv] at h
        dsimp only at h
        cases hp : composedParts ext s coords with
        | error e => rw [hp] at h; cases h
        | ok ps =>
          rw [hp] at h
          cases h
          obtain ⟨texts, t1, rfl⟩ := composedParts_inv hp
          exact ⟨t :: texts, .cons ⟨r, c, hc, hv⟩ t1, rfl⟩
      | _ => rw [hv] at h; cases h

theorem getName_series {ext : Ext} {sp : SParams} {s : Sheet} {name : Str} (h : getName ext sp s = .ok name) :
    SeriesName ext sp s name := by
  have key : ∀ v, cellAt s sp.headerCoord = .ok v → ∀ parts,
      composedParts ext s (sp.composedHeaders.getD []) = .ok parts →
      (sp.seriesName = none ∨ sp.seriesName = some []) →
      name = joinWith c!" - " ((sp.context.getD []).map strip ++
        [joinWith c!" " (parts ++ [strip (ext.unidecode (cellStr ext v))])]) → SeriesName ext sp s name := by
    intro v hv parts hp hn he
    unfold cellAt at hv
    split at hv
    · cases hv
    next r c hco =>
      cases hv
      obtain ⟨texts, t1, rfl⟩ := composedParts_inv hp
      refine .inr ⟨hn, r, c, texts, hco, t1, ?_⟩
      rw [he, joinWith_eq, joinWith_eq, List.map_append, shownAs_cellStr]
      rfl
  unfold getName at h
  split at h
  next c cs hs =>
    cases h
    exact .inl ⟨hs, by simp⟩
  next hne =>
    have hn : sp.seriesName = none ∨ sp.seriesName = some [] := by
      cases hs : sp.seriesName with
      | none => exact .inl rfl
      | some n =>
        cases n with
        | nil => exact .inr rfl
        | cons c cs => exact absurd hs (hne c cs)
    split at h
    · cases h
    next v hv =>
      split at h
      · cases h
      next parts hp =>
        injection h with h
        exact key v hv parts hp hn h.symm

theorem columnsOf_at {names cols : List Str} (h : ColumnsOf names cols) : ∀ {j : Nat} {name col : Str},
    names[j]? = some name → cols[j]? = some col → ∃ k, 1 ≤ k ∧ col = suffixed name k := by
  induction h with
  | nil => intro j name col h; simp at h
  | @snoc names cols name0 col0 hc hf ih =>
    intro j name col h1 h2
    have hl := (columnsOf_nodup hc).2
    rcases Nat.lt_trichotomy j names.length with hj | hj | hj
    · rw [List.getElem?_append_left hj] at h1
      rw [List.getElem?_append_left (by omega)] at h2
      exact ih h1 h2
    · rw [List.getElem?_append_right (by omega)] at h1 h2
      rw [hj] at h1
      rw [hj, hl] at h2
      simp only [Nat.sub_self, List.getElem?_cons_zero, Option.some.injEq] at h1 h2
      obtain ⟨k, k1, k2, _⟩ := hf
      exact ⟨k, k1, by rw [← h2, ← h1]; exact k2⟩
    · rw [List.getElem?_eq_none (by simp; omega)] at h1
      cases h1

/-! ### Lists by key -/

/-- The elements of a list sorted into the classes of a list of keys. -/
theorem perm_classes {α κ : Type} [DecidableEq κ] (key : α → Option κ) : ∀ (keys : List κ) (l : List α),
    keys.Nodup → (∀ x ∈ l, ∃ k ∈ keys, key x = some k) →
    (keys.flatMap fun k => l.filter fun x => key x = some k).Perm l
  | [], l, _, h => by
    cases l with
    | nil => exact .nil
    | cons x l => obtain ⟨k, hk, _⟩ := h x (by simp); cases hk
  | k :: keys, l, hn, h => by
    rw [List.flatMap_cons]
    have hn' := List.nodup_cons.1 hn
    have ih := perm_classes key keys (l.filter fun x => !decide (key x = some k)) hn'.2 (by
      intro x hx
      rw [List.mem_filter] at hx
      obtain ⟨k', h1, h2⟩ := h x hx.1
      rcases List.mem_cons.1 h1 with e | e
      · subst e; simp [h2] at hx
      · exact ⟨k', e, h2⟩)
    have e : (keys.flatMap fun k => l.filter fun x => key x = some k) =
        keys.flatMap fun k' => (l.filter fun x => !decide (key x = some k)).filter fun x => key x = some k' := by
      rw [List.flatMap_def, List.flatMap_def]
      congr 1
      refine List.map_congr_left fun k' hk' => ?_
      rw [List.filter_filter]
      refine List.filter_congr fun x _ => ?_
      by_cases hx : key x = some k'
      · have : ¬ key x = some k := by
          rw [hx]
          intro he
          injection he with he
          exact hn'.1 (he ▸ hk')
        simp [hx]
        rintro rfl
        exact hn'.1 hk'
      · simp [hx]
    rw [e]
    exact (List.Perm.append_left _ ih).trans (List.filter_append_perm _ l)

/-! ### Owners -/

/-- What the series give, with the number of the series. -/
def withOwner {α : Type} (given : List (List α)) (n : Nat) : List (Nat × α) :=
  (given.zipIdx n).flatMap fun oi => oi.1.map fun g => (oi.2, g)

theorem withOwner_cons {α : Type} (out : List α) (given : List (List α)) (n : Nat) :
    withOwner (out :: given) n = out.map (fun g => (n, g)) ++ withOwner given (n + 1) := by
  unfold withOwner
  rw [List.zipIdx_cons, List.flatMap_cons]

theorem withOwner_snd {α : Type} : ∀ (given : List (List α)) (n : Nat),
    (withOwner given n).map Prod.snd = given.flatten
  | [], _ => rfl
  | out :: given, n => by
    rw [withOwner_cons, List.map_append, withOwner_snd given, List.flatten_cons, List.map_map]
    congr 1
    exact List.map_id _

theorem withOwner_mem {α : Type} : ∀ {given : List (List α)} {n i : Nat} {g : α},
    (i, g) ∈ withOwner given n → ∃ out, n ≤ i ∧ given[i - n]? = some out ∧ g ∈ out
  | [], _, _, _, h => by cases h
  | out :: given, n, i, g, h => by
    rw [withOwner_cons, List.mem_append] at h
    rcases h with h | h
    · obtain ⟨g', h1, h2⟩ := List.mem_map.1 h
      cases h2
      exact ⟨out, le_refl _, by simp, h1⟩
    · obtain ⟨out', h0, h1, h2⟩ := withOwner_mem h
      refine ⟨out', by omega, ?_, h2⟩
      rw [show i - n = (i - (n + 1)) + 1 by omega, List.getElem?_cons_succ]
      exact h1

theorem withOwner_count {α : Type} : ∀ (given : List (List α)) (n i : Nat),
    ((withOwner given n).map Prod.fst).count i = if n ≤ i then (given.getD (i - n) []).length else 0
  | [], n, i => by simp [withOwner]
  | out :: given, n, i => by
    have h1 : ((out.map fun g => (n, g)).map Prod.fst) = List.replicate out.length n := by
      rw [List.map_map]
      exact List.map_const'
    rw [withOwner_cons, List.map_append, List.count_append, withOwner_count given (n + 1) i, h1,
      List.count_replicate]
    by_cases he : n = i
    · subst he
      rw [if_pos (by simp), if_neg (by omega), if_pos (le_refl _), Nat.sub_self]
      rfl
    · rw [if_neg (by simpa using he)]
      by_cases hl : n ≤ i
      · rw [if_pos (by omega), if_pos hl, show i - n = (i - (n + 1)) + 1 by omega, Nat.zero_add]
        rfl
      · rw [if_neg (by omega), if_neg hl]

theorem map_filter_snd {α β : Type} (q : β → Bool) (l : List (α × β)) :
    (l.filter fun t => q t.2).map Prod.snd = (l.map Prod.snd).filter q := by
  rw [List.filter_map]
  rfl

/-- The columns of the data frames of `_get_data`, series by series. -/
theorem getData_columns {ext : Ext} {p : Params} {s s' : Sheet} {fs : List Frame} {sps : List SParams}
    (hp : HasSeries p sps) (h : getData ext p s = (.ok fs, s')) :
    ∃ (given : List (List (PRange × Str × List Num))) (owners : List (List Nat)),
      List.Forall₂ (SeriesGives ext p s) (List.range sps.length) given ∧
      List.Forall₂ (OwnedBy ext sps s) fs owners ∧
      owners.flatten.Perm ((withOwner given 0).map Prod.fst) := by
  obtain ⟨n, given, spans, hn, h2, h3, h4, hk4, h5⟩ := C63_one_frame_per_range h
  have hlen : n = sps.length := by
    rw [hp .headersCoord] at hn
    unfold Params.len at hn
    cases hn
    simp
  subst hlen
  have hgl := h2.length_eq
  rw [List.length_range] at hgl
  refine ⟨given, spans.map fun k => ((withOwner given 0).filter fun t => spanOf t.2.1 = some k).map Prod.fst,
    h2, ?_, ?_⟩
  · rw [List.forall₂_map_right_iff]
    refine (h5.flip).imp fun f k hF => ?_
    have hsnd : ((withOwner given 0).filter fun t => spanOf t.2.1 = some k).map Prod.snd =
        given.flatten.filter fun g => spanOf g.1 = some k := by
      rw [map_filter_snd (fun g : PRange × Str × List Num => decide (spanOf g.1 = some k)), withOwner_snd]
    have hl1 := (columnsOf_nodup hF.columns).2
    refine ⟨?_, ?_, ?_⟩
    · rw [hl1, List.length_map, ← hsnd, List.length_map, List.length_map]
    · rw [hF.data, List.length_map, ← hsnd, List.length_map, List.length_map]
    · intro j i col d hj hcol hd
      rw [List.getElem?_map] at hj
      cases ht : ((withOwner given 0).filter fun t => spanOf t.2.1 = some k)[j]? with
      | none => rw [ht] at hj; cases hj
      | some t =>
        rw [ht] at hj
        obtain ⟨i', g⟩ := t
        cases hj
        have hg : (given.flatten.filter fun g => spanOf g.1 = some k)[j]? = some g := by
          rw [← hsnd, List.getElem?_map, ht]; rfl
        rw [hF.data, List.getElem?_map, hg] at hd
        cases hd
        obtain ⟨kk, k1, k2⟩ := columnsOf_at hF.columns (j := j) (name := g.2.1) (col := col)
          (by rw [List.getElem?_map, hg]; rfl) hcol
        have hmem : (i', g) ∈ withOwner given 0 :=
          (List.mem_filter.1 (List.mem_of_getElem? ht)).1
        obtain ⟨out, _, ho1, ho2⟩ := withOwner_mem hmem
        rw [Nat.sub_zero] at ho1
        have hil : i' < given.length := by
          by_contra hc
          rw [List.getElem?_eq_none (by omega)] at ho1
          cases ho1
        have hgi := (List.forall₂_iff_get.1 h2).2 i' (by simpa using hgl ▸ hil) hil
        rw [List.get_eq_getElem, List.get_eq_getElem, List.getElem_range] at hgi
        rw [List.getElem?_eq_getElem hil] at ho1
        cases ho1
        obtain ⟨sp, s1, nv, prs, header, stop, ht', hs, _, _, _, hr, he, _⟩ := hgi
        have hsp : sps[i']? = some sp := by
          have hi2 : i' < sps.length := by omega
          have := typed_of_series hp (List.getElem?_eq_getElem hi2)
          rw [ht'] at this
          cases this
          exact List.getElem?_eq_getElem hi2
        refine ⟨sp, hsp, ?_⟩
        rw [he] at ho2
        have hnv := (List.of_mem_zip (a := g.1) (b := g.2) ho2).2
        unfold getSeries at hs
        split at hs
        · cases hs
        next name hname =>
          split at hs
          · cases hs
          next vss hvss =>
            cases hs
            obtain ⟨vs, hvs, e⟩ := List.mem_map.1 hnv
            show ColumnOf ext sp s col g.2.2
            rw [← e] at k2 ⊢
            exact ⟨⟨name, kk, getName_series hname, k1, k2⟩,
              getValues_series (seriesRanges_frequency hr) hvss vs hvs⟩
  · have hp := perm_classes (fun t : Nat × (PRange × Str × List Num) => spanOf t.2.1) spans (withOwner given 0) h3
      (by
        rintro ⟨i, g⟩ ht
        have hgm : g ∈ given.flatten := by
          rw [← withOwner_snd given 0]
          exact List.mem_map_of_mem ht
        exact hk4 g hgm)
    have := hp.map Prod.fst
    rw [List.map_flatMap] at this
    rw [← List.flatMap_def]
    exact this

/-! ### No series without a column -/

theorem singleRanges_length {ext : Ext} {s : Sheet} {freq header : Str} {ini stop ta : Int} {al : Align}
    {prs : List PRange} (hf : freq.length = 1) (h : seriesRanges ext s freq ini header stop ta al = .ok prs) :
    prs.length = 1 := by
  unfold seriesRanges at h
  rw [if_pos hf] at h
  unfold singleRanges at h
  split at h
  · cases h
  · split at h
    · cases h
    · dsimp only at h
      repeat' split at h
      all_goals first | (cases h; done) | (cases h; rfl)

theorem rangesOf_length {ext : Ext} {starts ends : List (Cell × Char)} : ∀ {fs : List Char} {prs : List PRange},
    rangesOf ext starts ends fs = .ok prs → prs.length = fs.length
  | [], _, h => by cases h; rfl
  | f :: fs, prs, h => by
    unfold rangesOf at h
    split at h
    · cases h
    · split at h
      · cases h
      next prs' hp =>
        cases h
        rw [List.length_cons, List.length_cons, rangesOf_length hp]

/-- As many period ranges as different letters in the frequency. -/
theorem seriesRanges_length {ext : Ext} {s : Sheet} {freq header : Str} {ini stop ta : Int} {al : Align}
    {prs : List PRange} (h : seriesRanges ext s freq ini header stop ta al = .ok prs) :
    freq ≠ [] ∧ prs.length = freq.eraseDups.length := by
  by_cases hf : freq.length = 1
  · refine ⟨by rintro rfl; simp at hf, ?_⟩
    rw [singleRanges_length hf h]
    obtain ⟨c, rfl⟩ := List.length_eq_one_iff.1 hf
    rfl
  · unfold seriesRanges at h
    rw [if_neg hf] at h
    split at h
    next h1 =>
      refine ⟨by rintro rfl; simp at h1, ?_⟩
      unfold multiRanges at h
      split at h
      · cases h
      · split at h
        · cases h
        · exact rangesOf_length h
    · cases h

/-- Every series gives something, at most one thing for each letter of its frequency. -/
theorem seriesGives_length {ext : Ext} {p : Params} {s : Sheet} {i : Nat} {sp : SParams}
    {out : List (PRange × Str × List Num)} (h : SeriesGives ext p s i out) (hsp : p.typed i = .ok sp) :
    out ≠ [] ∧ out.length ≤ sp.frequency.eraseDups.length := by
  obtain ⟨sp', s1, nv, prs, header, stop, ht, hs, _, _, _, hr, rfl, hne⟩ := h
  rw [hsp] at ht
  cases ht
  obtain ⟨hf, hl⟩ := seriesRanges_length hr
  have hpos : 0 < sp.frequency.eraseDups.length := by
    cases hs : sp.frequency with
    | nil => exact absurd hs hf
    | cons c cs => rw [List.eraseDups_cons]; simp
  have := List.length_pos_iff.2 hne
  rw [Ne, ← List.length_eq_zero_iff, List.length_zip, hl]
  omega

/-! ### The worksheet before cleaning -/

theorem cleanSeries_keeps_of {ext : Ext} {V : Sheet → Prop} : ∀ (rest pre : List SParams) {p : Params} {s : Sheet}
    {ends : List (Str × Int)}, (∀ sp ∈ rest, ∀ s, V s → V (cleanTimeIndex ext sp s).2) → HasSeries p (pre ++ rest) →
    V s → V (cleanSeries ext (List.range' pre.length rest.length) p s ends).2.2
  | [], pre, p, s, ends, _, _, hs => hs
  | sp :: rest, pre, p, s, ends, hV, hp, hs => by
    rw [List.length_cons, List.range'_succ]
    unfold cleanSeries
    have hi : (pre ++ sp :: rest)[pre.length]? = some sp := by simp
    split
    · exact hs
    next header _ =>
      have hv : V (cleanOnce ext p s ends pre.length header).2 := by
        unfold cleanOnce
        split
        · exact hs
        · rw [typed_of_series hp hi]
          dsimp only
          have hv := hV sp (by simp) s hs
          split
          next h => rw [h] at hv; exact hv
          next h =>
            rw [h] at hv
            split
            · exact hv
            · exact hv
      split
      next h => rw [h] at hv; exact hv
      next stop ends' s1 h =>
        rw [h] at hv
        rw [index_of_series hp .dataEnds hi]
        dsimp only
        have h3 := setEnd_series stop hp
        have := cleanSeries_keeps_of rest (pre ++ [endingAt stop sp])
          (p := if (rawValue sp .dataEnds).truthy then p else setEnd p pre.length stop) (ends := ends') (s := s1)
          (fun x hx => hV x (by simp [hx])) (by rw [List.append_assoc]; exact h3) hv
        rw [List.length_append, List.length_singleton] at this
        exact this

theorem cleanData_keeps_of {ext : Ext} {V : Sheet → Prop} {p : Params} {s : Sheet} {sps : List SParams}
    (hV : ∀ sp ∈ sps, ∀ s, V s → V (cleanTimeIndex ext sp s).2) (hp : HasSeries p sps) (hs : V s) :
    V (cleanData ext p s).2.2 := by
  unfold cleanData
  split
  · exact hs
  next multi hm =>
    split
    · unfold cleanMulti
      cases sps with
      | nil =>
        rw [hp .timeMulticolumn] at hm
        unfold Params.index at hm
        cases hm
      | cons sp rest =>
        rw [typed_of_series hp (i := 0) (sp := sp) rfl]
        dsimp only
        have hv := hV sp (by simp) s hs
        split
        next h => rw [h] at hv; exact hv
        next h =>
          rw [h] at hv
          split
          · exact hv
          · split
            · exact hv
            · split
              · exact hv
              · exact hv
    · split
      · exact hs
      next n hn =>
        have hlen : n = sps.length := by
          rw [hp _] at hn
          unfold Params.len at hn
          cases hn
          simp
        subst hlen
        rw [List.range_eq_range']
        exact cleanSeries_keeps_of sps [] hV hp hs

/-- A cell before the starts of all series is as it was. -/
theorem cleanData_before {ext : Ext} {p : Params} {s : Sheet} {sps : List SParams} (hp : HasSeries p sps)
    {r c : Int} (h : ∀ sp ∈ sps, (if sp.alignment = .vertical then r else c) < sp.dataStarts) :
    (cleanData ext p s).2.2.cells r c = s.cells r c := by
  refine cleanData_keeps_of (V := fun t => t.cells r c = s.cells r c) (fun sp hsp t ht => ?_) hp rfl
  rw [← ht]
  by_contra hne
  obtain ⟨hr, hc, pos, _, h1, _, h2⟩ := C11_only_time_column_touched r c hne
  have := h sp hsp
  unfold IsAt rowOf colOf at h2
  split at this
  next ha => rw [if_pos ha, if_pos ha] at h2; omega
  next ha => rw [if_neg ha, if_neg ha] at h2; omega

theorem seriesName_over {ext : Ext} {sp : SParams} {s s' : Sheet} {name : Str} (hd : DatesOver s s')
    (hh : ∀ r c, coordOf sp.headerCoord = .ok (r, c) → s'.cells r c = s.cells r c)
    (h : SeriesName ext sp s' name) : SeriesName ext sp s name := by
  rcases h with h | ⟨h1, r, c, texts, h2, h3, h4⟩
  · exact .inl h
  · refine .inr ⟨h1, r, c, texts, h2, h3.imp ?_, by rw [← hh r c h2]; exact h4⟩
    rintro coord t ⟨r, c, a, b⟩
    refine ⟨r, c, a, ?_⟩
    rcases hd r c with e | e | ⟨t, e⟩
    · rw [← e]; exact b
    · rw [e] at b; cases b
    · rw [e] at b; cases b

theorem seriesNumbers_over {ext : Ext} {sp : SParams} {s s' : Sheet} {values : List Num} (hd : DatesOver s s')
    (h : SeriesNumbers ext sp s' values) : SeriesNumbers ext sp s values := by
  obtain ⟨r, c, last, places, h1, h2, h3, h4, h5⟩ := h
  exact ⟨r, c, last, places, h1, h2, h3, h4, h5.imp fun k x hx => stands_over (hd _ _) hx⟩

theorem ownedBy_over {ext : Ext} {sps : List SParams} {s s' : Sheet} {f : Frame} {owners : List Nat}
    (hd : DatesOver s s')
    (hh : ∀ sp ∈ sps, ∀ r c, coordOf sp.headerCoord = .ok (r, c) → s'.cells r c = s.cells r c)
    (h : OwnedBy ext sps s' f owners) : OwnedBy ext sps s f owners := by
  refine ⟨h.columns, h.data, fun j i col d h1 h2 h3 => ?_⟩
  obtain ⟨sp, e, ⟨name, k, n1, n2⟩, hn⟩ := h.each j i col d h1 h2 h3
  exact ⟨sp, e, ⟨name, k, seriesName_over hd (hh sp (List.mem_of_getElem? e)) n1, n2⟩, seriesNumbers_over hd hn⟩

end Xls
