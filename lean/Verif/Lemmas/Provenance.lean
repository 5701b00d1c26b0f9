/-
Lemmas about where the numbers of a data frame come from.
-/
import Verif.Spec.Columns
import Verif.Lemmas.Answers
import Verif.Lemmas.GetData3
import Verif.Lemmas.Frames2
import Verif.Props.Frames
import Verif.Props.Cleaning

set_option autoImplicit false

namespace Xls

open Spec

/-! ### One cell -/

theorem floatOf_stands {ext : Ext} {v : Cell} {x : Num} (h : floatOf ext v = .ok x) :
    numberIn ext v = some x := by
  cases v with
  | none => cases h
  | bool b => cases h; cases b <;> rfl
  | int i => cases h; rfl
  | float y => cases h; rfl
  | str s =>
    unfold floatOf at h
    dsimp only at h
    split at h
    next y hy => cases h; exact hy
    · cases h
  | dt t => cases h

theorem handleContinuous_stands {ext : Ext} {sp : SParams} {v : Cell} {x : Num}
    (h : handleContinuous ext sp v = .ok (some x)) : x = .nan ∨ NumberFor ext v x := by
  unfold handleContinuous at h
  repeat' split at h
  · cases h
  · cases h
  · cases h; exact .inl rfl
  next y hy => cases h; rw [stripCell_eq] at hy; exact .inr (.inr (floatOf_stands hy))
  · cases h
  next y hy => cases h; exact .inr (.inl (floatOf_stands hy))
  · cases h

theorem blankToNone_stands {ext : Ext} {v : Cell} {x : Num} (h : validFloat ext (blankToNone v) = some x) :
    NumberFor ext v x := by
  unfold validFloat at h
  split at h
  next y hy =>
    cases h
    have := floatOf_stands hy
    cases v with
    | str s =>
      unfold blankToNone at this
      dsimp only at this
      split at this
      · cases this
      · exact .inl this
    | none => exact .inl this
    | bool b => exact .inl this
    | int i => exact .inl this
    | float y => exact .inl this
    | dt t => exact .inl this
  · cases h

theorem handleNonContinuous_stands {ext : Ext} {sp : SParams} {v : Cell} {x : Num}
    (h : handleNonContinuous ext sp v = .ok (some x)) : x = .nan ∨ NumberFor ext v x := by
  unfold handleNonContinuous at h
  repeat' split at h
  · cases h
  · cases h; exact .inl rfl
  · injection h with h; exact .inr (blankToNone_stands h)
  · injection h with h; exact .inr (blankToNone_stands h)

theorem read_cells {s : Sheet} {r c : Int} {v : Cell} (h : s.read r c = .ok v) :
    1 ≤ r ∧ 1 ≤ c ∧ v = s.cells r c := by
  unfold Sheet.read at h
  split at h
  next hp => cases h; exact ⟨hp.1, hp.2, rfl⟩
  · cases h

/-- What a row contributes stands in its data cell. -/
theorem rowEntry_stands {ext : Ext} {sp : SParams} {s : Sheet} {hr hc i : Int} {x : Num}
    (h : rowEntry ext sp s hr hc i = .ok (some x)) :
    1 ≤ (axisCell sp.alignment hr hc i).1 ∧ 1 ≤ (axisCell sp.alignment hr hc i).2 ∧
    (x = .nan ∨
    NumberFor ext (s.cells (axisCell sp.alignment hr hc i).1 (axisCell sp.alignment hr hc i).2) x) := by
  unfold rowEntry at h
  split at h
  · cases h
  next v hv =>
    obtain ⟨p1, p2, rfl⟩ := read_cells hv
    refine ⟨p1, p2, ?_⟩
    split at h
    · cases h
    next nv hnv =>
      split at h
      · cases h
      next add _ =>
        injection h with h
        split at h
        · subst h
          unfold handleValue at hnv
          split at hnv
          · exact handleContinuous_stands hnv
          · exact handleNonContinuous_stands hnv
        · cases h

/-! ### All values -/

theorem rowEntries_stand {ext : Ext} {sp : SParams} {s : Sheet} {hr hc : Int} : ∀ {is : List Int}
    {xs : List Num}, rowEntries ext sp s hr hc is = .ok xs →
    ∃ ks, ks.Sublist is ∧ List.Forall₂ (fun k x => rowEntry ext sp s hr hc k = .ok (some x)) ks xs
  | [], xs, h => by cases h; exact ⟨[], .slnil, .nil⟩
  | i :: is, xs, h => by
    unfold rowEntries at h
    split at h
    · cases h
    next x hx =>
      split at h
      · cases h
      next ys hys =>
        cases h
        obtain ⟨ks, k1, k2⟩ := rowEntries_stand hys
        cases x with
        | none => exact ⟨ks, k1.cons i, k2⟩
        | some y => exact ⟨i :: ks, k1.cons_cons i, .cons hx k2⟩

theorem forall₂_sublist {α β : Type} {R : α → β → Prop} : ∀ {as : List α} {bs bs' : List β},
    List.Forall₂ R as bs → bs'.Sublist bs → ∃ as', as'.Sublist as ∧ List.Forall₂ R as' bs'
  | [], [], bs', _, h => by cases h; exact ⟨[], .slnil, .nil⟩
  | a :: as, b :: bs, bs', .cons h hs, hsub => by
    cases hsub with
    | cons _ h' =>
      obtain ⟨as', s1, s2⟩ := forall₂_sublist hs h'
      exact ⟨as', s1.cons a, s2⟩
    | cons_cons _ h' =>
      obtain ⟨as', s1, s2⟩ := forall₂_sublist hs h'
      exact ⟨a :: as', s1.cons_cons a, .cons h s2⟩

theorem dealTo_mem {k : Str} {x : Num} : ∀ {m : List (Str × List Num)} {q : Str × List Num},
    q ∈ dealTo m k x → q ∈ m ∨ q.2 = [x] ∨ ∃ q' ∈ m, q.2 = q'.2 ++ [x]
  | [], q, h => by
    unfold dealTo at h
    rw [List.mem_singleton] at h
    rw [h]
    exact .inr (.inl rfl)
  | (k', xs) :: m, q, h => by
    unfold dealTo at h
    split at h
    · rcases List.mem_cons.1 h with e | e
      · rw [e]
        exact .inr (.inr ⟨(k', xs), by simp, rfl⟩)
      · exact .inl (List.mem_cons_of_mem _ e)
    · rcases List.mem_cons.1 h with e | e
      · rw [e]
        exact .inl (by simp)
      · rcases dealTo_mem e with i | i | ⟨q', i1, i2⟩
        · exact .inl (List.mem_cons_of_mem _ i)
        · exact .inr (.inl i)
        · exact .inr (.inr ⟨q', List.mem_cons_of_mem _ i1, i2⟩)

theorem dealAll_sublist {pattern : Str} : ∀ {xs done : List Num} {k : Nat} {m : List (Str × List Num)},
    (∀ q ∈ m, q.2.Sublist done) → ∀ q ∈ dealAll pattern k m xs, q.2.Sublist (done ++ xs)
  | [], done, k, m, h => by
    intro q hq
    rw [List.append_nil]
    exact h q hq
  | x :: xs, done, k, m, h => by
    intro q hq
    have := dealAll_sublist (xs := xs) (done := done ++ [x]) (k := k + 1)
      (m := dealTo m (letterAt pattern k).toList x) ?_ q hq
    · rw [List.append_assoc] at this
      exact this
    · intro q' hq'
      rcases dealTo_mem hq' with i | i | ⟨q2, i1, i2⟩
      · exact (h q' i).trans (List.sublist_append_left _ _)
      · rw [i]
        exact List.sublist_append_right _ _
      · rw [i2]
        exact (h q2 i1).append (List.Sublist.refl _)

theorem fillValues_sublist {ext : Ext} {freq : Str} : ∀ {rows : List (Cell × Num)} {exp : Option Time}
    {ys : List Num}, fillValues ext freq rows exp = .ok ys →
    ys.filter (· ≠ .nan) = (rows.map Prod.snd).filter (· ≠ .nan)
  | [], exp, ys, h => by
    unfold fillValues at h
    cases h
    rfl
  | (c, x) :: rows, exp, ys, h => by
    unfold fillValues at h
    split at h
    · cases h
    next n t _ =>
      split at h
      · cases h
      next zs hzs =>
        cases h
        have ih := fillValues_sublist hzs
        have e : (List.replicate n Num.nan).filter (· ≠ .nan) = [] := by
          rw [List.filter_eq_nil_iff]
          intro y hy
          rw [List.eq_of_mem_replicate hy]
          simp
        rw [List.filter_append, e, List.nil_append, List.map_cons, List.filter_cons, List.filter_cons, ih]

theorem zip_snd_prefix {α β : Type} : ∀ (as : List α) (bs : List β),
    ((as.zip bs).map Prod.snd).Sublist bs
  | [], bs => by simp
  | _ :: _, [] => by simp
  | _ :: as, _ :: bs => by
    rw [List.zip_cons_cons, List.map_cons]
    exact (zip_snd_prefix as bs).cons_cons _

theorem intRange_pairwise (a b : Int) : (intRange a b).Pairwise (· < ·) := by
  unfold intRange
  rw [List.pairwise_map]
  exact List.pairwise_lt_range.imp fun h => by omega

theorem getValues_series {ext : Ext} {sp : SParams} {s : Sheet} {vss : List (List Num)}
    (hf : sp.frequency ≠ []) (h : getValues ext sp s = .ok vss) : ∀ vs ∈ vss, SeriesNumbers ext sp s vs := by
  unfold getValues at h
  split at h
  · cases h
  next hal =>
    split at h
    · cases h
    next hr hc hco =>
      split at h
      · cases h
      next last hlast =>
        split at h
        · cases h
        next m hm =>
          rw [valuesLoop_eq ext sp s hr hc hf _ [] [] 0 (by right; rfl)] at hm
          split at hm
          · cases hm
          next xs hxs =>
            cases hm
            obtain ⟨ks, k1, k2⟩ := rowEntries_stand hxs
            -- any part of the values
            have key : ∀ ys : List Num, (ys.filter (· ≠ .nan)).Sublist (xs.filter (· ≠ .nan)) →
                SeriesNumbers ext sp s ys := by
              intro ys hys
              obtain ⟨ks', p1, p2⟩ := forall₂_sublist k2 (hys.trans List.filter_sublist)
              have hpos : ∀ k ∈ ks', 1 ≤ k := by
                intro k hk
                obtain ⟨j, hj, rfl⟩ := List.mem_iff_getElem.1 hk
                have hlen := p2.length_eq
                have hj' := (List.forall₂_iff_get.1 p2).2 j hj (by omega)
                obtain ⟨q1, q2, _⟩ := rowEntry_stands hj'
                rw [List.get_eq_getElem] at q1 q2
                unfold axisCell at q1 q2
                split at q1 <;> simp_all
              refine ⟨hr, hc, last, ks', hco, hlast, (intRange_pairwise _ _).sublist (p1.trans k1), fun k hk => ?_, ?_⟩
              · have := mem_intRange.1 ((p1.trans k1).subset hk)
                exact ⟨hpos k hk, this.1, by omega⟩
              · rw [List.forall₂_iff_get] at p2 ⊢
                refine ⟨p2.1, fun j h1 h2 => ?_⟩
                rcases (rowEntry_stands (p2.2 j h1 h2)).2.2 with hn | hst
                · have := List.get_mem (ys.filter (· ≠ .nan)) ⟨j, h2⟩
                  rw [List.mem_filter] at this
                  simp_all
                · rw [axisCell_eq] at hst
                  exact hst
            have hplain : ∀ vs ∈ (dealAll sp.frequency 0 [] xs).map Prod.snd, SeriesNumbers ext sp s vs := by
              intro vs hvs
              obtain ⟨q, hq, rfl⟩ := List.mem_map.1 hvs
              refine key _ (List.Sublist.filter _ ?_)
              have := dealAll_sublist (done := []) (by simp) q hq
              rwa [List.nil_append] at this
            split at h
            · split at h
              · cases h
              · split at h
                · split at h
                  · cases h
                  next k ys rest hd =>
                    split at h
                    · cases h
                    · split at h
                      · cases h
                      next zs hzs =>
                        cases h
                        intro vs hvs
                        rw [List.mem_singleton] at hvs
                        subst hvs
                        apply key
                        rw [fillValues_sublist hzs]
                        refine List.Sublist.filter _ ((zip_snd_prefix _ _).trans ?_)
                        have := dealAll_sublist (pattern := sp.frequency) (k := 0) (m := []) (xs := xs)
                          (done := []) (by simp) (k, ys) (by rw [hd]; simp)
                        rwa [List.nil_append] at this
                · cases h; exact hplain
            · cases h; exact hplain

theorem getValues_numbers {ext : Ext} {sp : SParams} {s : Sheet} {vss : List (List Num)}
    (hf : sp.frequency ≠ []) (h : getValues ext sp s = .ok vss) : ∀ vs ∈ vss, NumbersOf ext s vs := by
  intro vs hvs
  obtain ⟨r, c, last, places, _, _, h1, h2, h3⟩ := getValues_series hf h vs hvs
  refine ⟨fun k => timeCell s sp.alignment r c k, places, ?_, h1, fun k hk => (h2 k hk).1, h3⟩
  by_cases ha : sp.alignment = .vertical
  · exact .inl ⟨c, by funext k; simp [timeCell, rowOf, colOf, ha]⟩
  · exact .inr ⟨r, by funext k; simp [timeCell, rowOf, colOf, ha]⟩

/-! ### Frames -/

theorem seriesRanges_frequency {ext : Ext} {s : Sheet} {freq header : Str} {ini stop ta : Int} {al : Align}
    {prs : List PRange} (h : seriesRanges ext s freq ini header stop ta al = .ok prs) : freq ≠ [] := by
  rintro rfl
  unfold seriesRanges at h
  simp at h

theorem getData_numbers {ext : Ext} {p : Params} {s s' : Sheet} {fs : List Frame}
    (h : getData ext p s = (.ok fs, s')) : ∀ f ∈ fs, ∀ d ∈ f.data, NumbersOf ext s d := by
  intro f hf d hd
  obtain ⟨n, given, spans, _, h2, _, h4, _, h5⟩ := C63_one_frame_per_range h
  obtain ⟨hl, hx⟩ := List.forall₂_iff_get.1 h5
  obtain ⟨j, hj, rfl⟩ := List.mem_iff_getElem.1 hf
  have hF := hx j (by omega) hj
  rw [List.get_eq_getElem, List.get_eq_getElem] at hF
  rw [hF.data] at hd
  obtain ⟨g, hg, rfl⟩ := List.mem_map.1 hd
  obtain ⟨out, ho, hgo⟩ := List.mem_flatten.1 (List.mem_filter.1 hg).1
  obtain ⟨_, hy⟩ := List.forall₂_iff_get.1 h2
  obtain ⟨k, hk, rfl⟩ := List.mem_iff_getElem.1 ho
  obtain ⟨sp, s1, nv, prs, header, stop, _, hs, _, _, _, hr, he, _⟩ :=
    hy k (by rw [h2.length_eq]; exact hk) hk
  rw [List.get_eq_getElem] at he
  rw [he] at hgo
  have hnv := (List.of_mem_zip (a := g.1) (b := g.2) hgo).2
  unfold getSeries at hs
  split at hs
  · cases hs
  · split at hs
    · cases hs
    next vss hvss =>
      cases hs
      obtain ⟨vs, hvs, e⟩ := List.mem_map.1 hnv
      rw [← e]
      exact getValues_numbers (seriesRanges_frequency hr) hvss vs hvs

/-! ### What becomes of the worksheet -/

/-- Cells of the second sheet are as in the first one, or hold a date or nothing. -/
def DatesOver (s s' : Sheet) : Prop :=
  ∀ r c, s'.cells r c = s.cells r c ∨ s'.cells r c = .none ∨ ∃ t, s'.cells r c = .dt t

theorem DatesOver.refl (s : Sheet) : DatesOver s s := fun _ _ => .inl rfl

theorem DatesOver.trans {s1 s2 s3 : Sheet} (h : DatesOver s1 s2) (h' : DatesOver s2 s3) :
    DatesOver s1 s3 := by
  intro r c
  rcases h' r c with e | e | e
  · rw [e]; exact h r c
  · exact .inr (.inl e)
  · exact .inr (.inr e)

theorem cleanTimeIndex_datesOver (ext : Ext) (sp : SParams) (s : Sheet) :
    DatesOver s (cleanTimeIndex ext sp s).2 := by
  intro r c
  obtain ⟨st1, s1, q, hst, hend⟩ := cleanTimeIndex_end ext sp s
  rw [hend.cells]
  have hst' := hst
  cases hst with
  | refl => exact .inl rfl
  | @tail st1 s1 q1 st2 s2 h hs =>
    obtain ⟨hr, hc, _, _, _, hh, _⟩ := cleanStep_next hs
    rcases steps_frame hh hst' r c with h' | ⟨_, h'⟩
    · exact .inl h'
    · exact .inr h'

theorem datesOver_clean (ext : Ext) (s0 : Sheet) : CleanKeeps ext (DatesOver s0) :=
  fun sp s h => h.trans (cleanTimeIndex_datesOver ext sp s)

theorem copyCells_over (s : Sheet) (row : Nat) : ∀ (cols : List Nat) {t : Sheet}, DatesOver s t →
    DatesOver s (copyCells s row cols t)
  | [], _, ht => ht
  | col :: cols, t, ht => by
    refine copyCells_over s row cols ?_
    intro r c
    have e : (t.set (row + 1) (col + 1) (s.cells (row + 1) (col + 1))).cells r c =
      if r = (row : Int) + 1 ∧ c = (col : Int) + 1 then s.cells (row + 1) (col + 1) else t.cells r c := rfl
    rw [e]
    split
    next h => rw [h.1, h.2]; exact .inl rfl
    · exact ht r c

theorem copyAllRows_over (s : Sheet) (ncols : Nat) : ∀ (rows : List Nat) {t : Sheet}, DatesOver s t →
    DatesOver s (copyAllRows s ncols rows t)
  | [], _, ht => ht
  | row :: rows, _, ht => copyAllRows_over s ncols rows (copyCells_over s row _ ht)

theorem copySheet_over (s : Sheet) : DatesOver s (copySheet s) :=
  copyAllRows_over s _ _ fun _ _ => .inr (.inl rfl)

theorem stands_over {ext : Ext} {v v' : Cell} {x : Num} (h : v' = v ∨ v' = .none ∨ ∃ t, v' = .dt t)
    (hs : NumberFor ext v' x) : NumberFor ext v x := by
  rcases h with e | e | ⟨t, e⟩
  · rw [← e]; exact hs
  · rw [e] at hs
    rcases hs with hs | hs <;> cases hs
  · rw [e] at hs
    rcases hs with hs | hs <;> cases hs

theorem numbersOf_over {ext : Ext} {s s' : Sheet} (h : DatesOver s s') {values : List Num}
    (hn : NumbersOf ext s' values) : NumbersOf ext s values := by
  obtain ⟨line, places, hl, h1, h2, h3⟩ := hn
  rcases hl with ⟨c, rfl⟩ | ⟨r, rfl⟩
  · exact ⟨_, places, .inl ⟨c, rfl⟩, h1, h2, h3.imp fun k x hx => stands_over (h k c) hx⟩
  · exact ⟨_, places, .inr ⟨r, rfl⟩, h1, h2, h3.imp fun k x hx => stands_over (h r k) hx⟩

theorem scrape_numbers {ext : Ext} {s0 : Sheet} {p p' : Params} {s s' : Sheet} {fs : List Frame}
    (hs : DatesOver s0 s) (h : scrape ext p s = (.ok fs, p', s')) :
    ∀ f ∈ fs, ∀ d ∈ f.data, NumbersOf ext s0 d := by
  unfold scrape at h
  have hv := cleanData_keeps (datesOver_clean ext s0) (p := p) hs
  split at h
  · cases h
  next p1 s1 hc =>
    rw [hc] at hv
    cases hg : getData ext p1 s1 with
    | mk r s2 =>
      rw [hg] at h
      cases h
      exact fun f hf d hd => numbersOf_over hv (getData_numbers hg f hf d hd)

end Xls
