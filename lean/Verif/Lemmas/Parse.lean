/-
Lemmas on time parsing: results are real dates.
-/
import Verif.Spec.TimeIndex
import Verif.Lemmas.Increment

set_option autoImplicit false

namespace Xls
open Spec

theorem mkDate_ok {y m d : Int} {t : Time} (h : mkDate y m d = .ok t) :
    ValidTime t ∧ (t.year : Int) = y ∧ (t.month : Int) = m ∧ (t.day : Int) = d ∧ t.us = 0 := by
  unfold mkDate at h
  split at h
  · next hc =>
    injection h with h
    obtain ⟨h1, h2, h3, h4, h5, h6⟩ := hc
    unfold maxYear at h2
    have hm1 : 1 ≤ m.toNat := by omega
    have hm2 : m.toNat ≤ 12 := by omega
    rw [daysInMonth_eq hm1 hm2] at h6
    subst h
    refine ⟨⟨?_, ?_, ?_, ?_, ?_, ?_, ?_⟩, ?_, ?_, ?_, rfl⟩ <;> simp only [Time.date] <;> omega
  · cases h

theorem mkDate_error {y m d : Int} {e : Err} (h : mkDate y m d = .error e) : e = .valueError := by
  unfold mkDate at h
  split at h
  · cases h
  · injection h with h; exact h.symm

theorem parseComposed_ok {ext : Ext} {p : Parser} {s : Str} {last : Option Time} {t : Time}
    (h : parseComposed ext p s last = .ok t) : ValidTime t ∧ t.day = 1 ∧ t.us = 0 := by
  unfold parseComposed at h
  split at h
  · cases h
  · split at h
    · cases h
    · split at h
      · obtain ⟨hv, _, _, hd, hu⟩ := mkDate_ok h
        exact ⟨hv, by omega, hu⟩
      · cases h

theorem trySimpleFormats_ok {ext : Ext} {s : Str} {sense : Time → Except Err Bool}
    {fs : List Str} {t : Time} (h : trySimpleFormats ext s sense fs = .ok t) :
    (∃ f ∈ fs, ext.arrowParse s f = some t) ∧ sense t = .ok true := by
  induction fs with
  | nil => cases h
  | cons f fs ih =>
    unfold trySimpleFormats at h
    split at h
    · obtain ⟨⟨g, hg, hp⟩, hs⟩ := ih h
      exact ⟨⟨g, List.mem_cons_of_mem _ hg, hp⟩, hs⟩
    · next x hx =>
      split at h
      · cases h
      · next hs => injection h with h; subst h; exact ⟨⟨f, List.mem_cons_self, hx⟩, hs⟩
      · obtain ⟨⟨g, hg, hp⟩, hs⟩ := ih h
        exact ⟨⟨g, List.mem_cons_of_mem _ hg, hp⟩, hs⟩

theorem parseSimpleStr_ok {ext : Ext} {s : Str} {sense : Time → Except Err Bool} {t : Time}
    (h : parseSimpleStr ext s sense = .ok t) :
    (∃ s' f, ext.arrowParse s' f = some t) ∧ sense t = .ok true := by
  unfold parseSimpleStr at h
  simp only at h
  split at h
  · cases h
  · obtain ⟨⟨f, _, hp⟩, hs⟩ := trySimpleFormats_ok h
    exact ⟨⟨_, f, hp⟩, hs⟩

theorem parseCell_ok {ext : Ext} {f : Str → Except Err Time} {c : Cell} {t : Time}
    (h : parseCell ext f c = .ok t) : c = .dt t ∨ ∃ s, f s = .ok t := by
  unfold parseCell at h
  split at h
  · injection h with h; subst h; exact .inl rfl
  · exact .inr ⟨_, h⟩
  · exact .inr ⟨_, h⟩
  · exact .inr ⟨_, h⟩
  · split at h
    · exact .inr ⟨_, h⟩
    · split at h
      · next hh => injection h with h; subst h; exact .inr ⟨_, hh⟩
      · exact .inr ⟨_, h⟩
  · cases h

theorem parseStrWith_valid {ext : Ext} (he : ExtValid ext) {p : Parser} {freq : Str}
    {last : Option Time} {next : Cell} {s : Str} {t : Time}
    (h : parseStrWith ext p freq last next s = .ok t) : ValidTime t := by
  unfold parseStrWith at h
  split at h
  · obtain ⟨⟨s', f, hp⟩, _⟩ := parseSimpleStr_ok h
    exact he _ _ _ hp
  · exact (parseComposed_ok h).1

theorem parseWith_valid {ext : Ext} (he : ExtValid ext) {p : Parser} {freq : Str} {curr : Cell}
    {last : Option Time} {next : Cell} {t : Time} (hc : ∀ x, curr = .dt x → ValidTime x)
    (h : parseWith ext p freq curr last next = .ok t) : ValidTime t := by
  rcases parseCell_ok h with h | ⟨s, h⟩
  · exact hc _ h
  · exact parseStrWith_valid he h

/-! ### the search for a parser -/

theorem searchParser_ok {ext : Ext} {sp : SParams} {curr : Cell} {last : Option Time} {next : Cell}
    {old q : Option Parser} {ps : List Parser} {t : Time}
    (h : searchParser ext sp curr last next old ps = (.ok t, q)) :
    ∃ p ∈ ps, q = some p ∧ accepts ext p sp.timeComposed sp.frequency curr = .ok true ∧
      parseWith ext p sp.frequency curr last next = .ok t := by
  induction ps with
  | nil => simp [searchParser] at h
  | cons p ps ih =>
    unfold searchParser at h
    split at h
    · simp at h
    · next ha =>
      injection h with h1 h2
      exact ⟨p, List.mem_cons_self, h2.symm, ha, h1⟩
    · obtain ⟨p', hp', hq⟩ := ih h
      exact ⟨p', List.mem_cons_of_mem _ hp', hq⟩

theorem parseTimeValue_ok {ext : Ext} {sp : SParams} {parser q : Option Parser} {curr : Cell}
    {last : Option Time} {next : Cell} {t : Time}
    (h : parseTimeValue ext sp parser curr last next = (.ok t, q)) :
    ∃ p, q = some p ∧ parseWith ext p sp.frequency curr last next = .ok t ∧
      (parser = some p ∨ accepts ext p sp.timeComposed sp.frequency curr = .ok true) := by
  unfold parseTimeValue at h
  split at h
  · obtain ⟨p, _, hq, ha, hp⟩ := searchParser_ok h
    exact ⟨p, hq, hp, .inr ha⟩
  · next p =>
    split at h
    · next hp =>
      injection h with h1 h2
      injection h1 with h1; subst h1
      exact ⟨p, h2.symm, hp, .inl rfl⟩
    · simp at h
    · simp at h
    · obtain ⟨p', _, hq, ha, hp⟩ := searchParser_ok h
      exact ⟨p', hq, hp, .inr ha⟩

theorem parseTimeValue_valid {ext : Ext} (he : ExtValid ext) {sp : SParams}
    {parser q : Option Parser} {curr : Cell} {last : Option Time} {next : Cell} {t : Time}
    (hc : ∀ x, curr = .dt x → ValidTime x)
    (h : parseTimeValue ext sp parser curr last next = (.ok t, q)) : ValidTime t := by
  obtain ⟨p, _, hp, _⟩ := parseTimeValue_ok h
  exact parseWith_valid he hc hp

end Xls
