/-
Lemmas for C121: an end that is given does not change how the dates before it are read.
-/
import Verif.Spec.Cut
import Verif.Lemmas.Appended

set_option autoImplicit false

namespace Xls

open Spec

theorem cutAt_hasEnd {n : Int} (hn : 0 < n) (sp : SParams) : hasEnd (cutAt n sp) = true := by
  unfold hasEnd cutAt
  have : n ≠ 0 := by omega
  simpa using this

theorem cutAt_same {n : Int} {x y : SParams} (h : SameDates x y) : SameDates (cutAt n x) (cutAt n y) := by
  unfold SameDates at h ⊢
  unfold cutAt
  rw [h]

/-- The steps to a position are the first ones of the steps to a later one. -/
theorem steps_first {ext : Ext} {sp : SParams} {st st1 st2 : CState} {s s1 s2 : Sheet} {p q q' : Int}
    (h1 : Steps ext sp st s p st1 s1 q) (h2 : Steps ext sp st s p st2 s2 q') (hq : q ≤ q') :
    Steps ext sp st1 s1 q st2 s2 q' := by
  by_cases he : q = q'
  · subst he
    obtain ⟨e1, e2⟩ := steps_unique h1 h2 rfl
    subst e1
    subst e2
    exact .refl _ _ _
  · obtain ⟨x1, x2, x3, x4, a1, a2, a3⟩ := steps_at h2 h1.le (by omega : q < q')
    obtain ⟨e1, e2⟩ := steps_unique a1 h1 rfl
    subst e1
    subst e2
    exact .head a2 a3

/-- Up to the end that is given, which is not after the one that would be found, the cleaned worksheets are the same. -/
theorem cleaned_cut {ext : Ext} {sp : SParams} {s s1 s1' : Sheet} {e e' n : Int} (hal : sp.alignment = .vertical)
    (hta : sp.timeAlignment = 0) (hn : 0 < n) (hle : n ≤ e) (h : cleanTimeIndex ext sp s = (.ok e, s1))
    (h' : cleanTimeIndex ext (cutAt n sp) s = (.ok e', s1')) : ∀ r c, r ≤ n → s1'.cells r c = s1.cells r c := by
  have hd := cutAt_hasEnd hn sp
  obtain ⟨hr, hc, hh, hlt, -, st1, sb, q, hst, hsb, hend⟩ := cleanTimeIndex_ends hta h
  obtain ⟨hr', hc', hh', hlt', -, st1', sb', q', hst', hsb', hend'⟩ := cleanTimeIndex_ends (sp := cutAt n sp) hta h'
  have hst2 : Steps ext (cutAt n sp) .init s sp.dataStarts st1 sb q := steps_given hd hst
  have hscan : scanEnd (cutAt n sp) s = n := if_neg (by omega : n ≠ 0)
  rw [hscan] at hend'
  have hal' : (cutAt n sp).alignment = .vertical := hal
  have before : ∀ {st st' : CState} {u u' : Sheet} {a b : Int}, Steps ext (cutAt n sp) st u a st' u' b →
      ∀ r c, r < a → u'.cells r c = u.cells r c := by
    intro st st' u u' a b hs r c hlt
    have := steps_frame_before hs hlt r c
    unfold timeCell rowOf colOf at this
    simpa only [hal', if_true] using this
  intro r c hrn
  rw [hsb', hsb]
  by_cases hq : q' ≤ q
  · have hk := steps_first hst' hst2 hq
    by_cases hrq : r < q'
    · exact (before hk r c hrq).symm
    · rcases hend' with ⟨k, -, -⟩ | ⟨-, -, hstop⟩
      · omega
      · by_cases hqq : q' = q
        · subst hqq
          obtain ⟨-, e2⟩ := steps_unique hst' hst2 rfl
          rw [e2]
        · obtain ⟨x1, x2, x3, x4, a1, a2, -⟩ := steps_at hst2 hst'.le (by omega : q' < q)
          obtain ⟨e1, e2⟩ := steps_unique a1 hst' rfl
          subst e1
          subst e2
          rw [a2] at hstop
          cases hstop
  · have hk := steps_first hst2 hst' (by omega)
    have hrq : r < q := by
      rcases hend with ⟨-, k, -⟩ | ⟨-, -, hstop⟩
      · omega
      · obtain ⟨x1, x2, x3, x4, a1, a2, -⟩ := steps_at hst' hst.le (by omega : q < q')
        obtain ⟨e1, e2⟩ := steps_unique a1 hst2 rfl
        subst e1
        subst e2
        have hd' : hasEnd { sp with dataEnds := some n } = true := hd
        have a2' : cleanStep ext { sp with dataEnds := some n } x1 x2 q = (.next x3, x4) := a2
        rcases cleanStep_given hd' hstop with k | ⟨-, _, _, -, -, k⟩
        · rw [a2'] at k
          cases k
        · rw [a2'] at k
          cases k
    exact before hk r c hrq

/-- The same of two ends that are given. -/
theorem cleaned_cuts {ext : Ext} {sp : SParams} {s s1 s1' : Sheet} {e e' m n : Int} (hal : sp.alignment = .vertical)
    (hta : sp.timeAlignment = 0) (hn : 0 < n) (hle : n ≤ m) (h : cleanTimeIndex ext (cutAt m sp) s = (.ok e, s1))
    (h' : cleanTimeIndex ext (cutAt n sp) s = (.ok e', s1')) : ∀ r c, r ≤ n → s1'.cells r c = s1.cells r c := by
  have hd := cutAt_hasEnd hn sp
  obtain ⟨hr, hc, hh, hlt, -, st1, sb, q, hst, hsb, hend⟩ := cleanTimeIndex_ends (sp := cutAt m sp) hta h
  obtain ⟨hr', hc', hh', hlt', -, st1', sb', q', hst', hsb', hend'⟩ := cleanTimeIndex_ends (sp := cutAt n sp) hta h'
  have hst2 : Steps ext (cutAt n sp) .init s sp.dataStarts st1 sb q := steps_given (sp := cutAt m sp) hd hst
  have hscan : scanEnd (cutAt n sp) s = n := if_neg (by omega : n ≠ 0)
  have hscan2 : scanEnd (cutAt m sp) s = m := if_neg (by omega : m ≠ 0)
  rw [hscan] at hend'
  rw [hscan2] at hend
  have hal' : (cutAt n sp).alignment = .vertical := hal
  have before : ∀ {st st' : CState} {u u' : Sheet} {a b : Int}, Steps ext (cutAt n sp) st u a st' u' b →
      ∀ r c, r < a → u'.cells r c = u.cells r c := by
    intro st st' u u' a b hs r c hlt
    have := steps_frame_before hs hlt r c
    unfold timeCell rowOf colOf at this
    simpa only [hal', if_true] using this
  intro r c hrn
  rw [hsb', hsb]
  by_cases hq : q' ≤ q
  · have hk := steps_first hst' hst2 hq
    by_cases hrq : r < q'
    · exact (before hk r c hrq).symm
    · rcases hend' with ⟨k, -, -⟩ | ⟨-, -, hstop⟩
      · omega
      · by_cases hqq : q' = q
        · subst hqq
          obtain ⟨-, e2⟩ := steps_unique hst' hst2 rfl
          rw [e2]
        · obtain ⟨x1, x2, x3, x4, a1, a2, -⟩ := steps_at hst2 hst'.le (by omega : q' < q)
          obtain ⟨e1, e2⟩ := steps_unique a1 hst' rfl
          subst e1
          subst e2
          rw [a2] at hstop
          cases hstop
  · have hk := steps_first hst2 hst' (by omega)
    have hrq : r < q := by
      rcases hend with ⟨k, -, -⟩ | ⟨-, -, hstop⟩
      · omega
      · obtain ⟨x1, x2, x3, x4, a1, a2, -⟩ := steps_at hst' hst.le (by omega : q < q')
        obtain ⟨e1, e2⟩ := steps_unique a1 hst2 rfl
        subst e1
        subst e2
        rcases cleanStep_given (sp := cutAt m sp) (d := some n) hd hstop with k | ⟨-, _, _, -, -, k⟩
        · exact absurd (a2.symm.trans k) (by simp)
        · exact absurd (a2.symm.trans k) (by simp)
    exact before hk r c hrq

theorem forall₂_left {α β : Type} {R : α → β → Prop} {l : List α} {m : List β} (h : List.Forall₂ R l m) :
    ∀ a ∈ l, ∃ b ∈ m, R a b :=
  forall₂_right (R := fun b a => R a b) h.flip

theorem forall₂_common_left {α β : Type} {P Q : α → β → Prop} {as : List α} {bs : List β}
    (h : ∀ a ∈ as, ∀ b, P a b → Q a b) (h1 : List.Forall₂ P as bs) : List.Forall₂ Q as bs := by
  induction h1 with
  | nil => exact .nil
  | cons h2 _ ih => exact .cons (h _ (by simp) _ h2) (ih fun a ha => h a (List.mem_cons_of_mem _ ha))

/-- A series that goes down and is read has its header somewhere and does not start before the first row. -/
theorem getSeries_dataCells {ext : Ext} {sp : SParams} {s : Sheet} {n : Int} {c : Str × List Num}
    (hal : sp.alignment = .vertical) (hd : sp.dataStarts ≤ n)
    (h : getSeries ext { sp with dataEnds := some n } s = .ok [c]) :
    getValues ext { sp with dataEnds := some n } s = .ok [c.2] ∧
      ∃ hr hc, DataCells { sp with dataEnds := some n } hr hc n := by
  unfold getSeries at h
  split at h
  · cases h
  next name _ =>
    split at h
    · cases h
    next vss hv =>
      have hv' : getValues ext { sp with dataEnds := some n } s = .ok [c.2] := by
        injection h with h
        match vss, h with
        | [v], h =>
          rw [List.map_cons, List.map_nil, List.singleton_inj] at h
          rw [← h]
          exact hv
      refine ⟨hv', ?_⟩
      unfold getValues at hv
      rw [if_neg (by rw [hal]; simp)] at hv
      dsimp only at hv
      split at hv
      · cases hv
      next hr hc hco =>
        refine ⟨hr, hc, hco, .inl hal, ?_, rfl⟩
        rw [intRange_cons (show sp.dataStarts < n + 1 by omega)] at hv
        unfold valuesLoop at hv
        dsimp only at hv
        rw [hal] at hv
        dsimp only [axisCell] at hv
        by_contra hneg
        rw [show s.read sp.dataStarts hc = .error .valueError from by
          unfold Sheet.read
          rw [if_neg (fun k => hneg k.1)]] at hv
        cases hv

end Xls
