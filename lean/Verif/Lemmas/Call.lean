/-
From a description to the parameters of a plain table.
-/
import Verif.Lemmas.Accept
import Verif.Lemmas.Attempts
import Verif.Spec.Table

set_option autoImplicit false

namespace Xls

open Spec

section
variable {d : PDict} {p : Params} {N : Nat}

/-- A parameter to be discovered that is not given stays unset. -/
theorem unset_stays (hd : DistinctKeys d) (hd0 : d ≠ []) (h : Params.new (.dict d) = .ok p) (hN : p.num = some N)
    {n : Name} (hn : n ∈ [Name.continuity, .blankRows, .missings, .timeComposed]) (hm : Missing d n) :
    p n = .none := by
  obtain ⟨d1, d2, d3, d4, ps, thc', multi, m, hb⟩ := ofDict_ok (new_dict_ok h hd0)
  obtain ⟨N', rfl, hN', _⟩ := hb.num_eq hd
  rw [hN] at hN'
  cases hN'
  have hu : n ∈ untouched ∧ optionalNames.contains n = false := by
    simp only [List.mem_cons, List.not_mem_nil, or_false] at hn
    rcases hn with rfl | rfl | rfl | rfl <;> decide
  have h3 := hb.get?_untouched (.inl hu.1)
  rcases hm with hm | hm
  · rw [hm] at h3
    rw [hb.result, applyOptional_get?, hu.2, Bool.false_and, if_neg (by decide),
      (applyEach_get? hb.applied n).2 h3]
    rfl
  · rw [hm] at h3
    refine hb.value_of h3 ?_ (.inl hu.2)
    simp only [List.mem_cons, List.not_mem_nil, or_false] at hn
    rcases hn with rfl | rfl | rfl | rfl <;> rfl

/-- An optional parameter that is not given is `None` for each series. -/
theorem optional_unset (hd : DistinctKeys d) (hd0 : d ≠ []) (h : Params.new (.dict d) = .ok p)
    (hN : p.num = some N) (h1 : 1 ≤ N) {hc : PVal} {qs : List Pos} (hh : d.get? .headersCoord = some hc)
    (hs : StandsFor hc qs) {n : Name} (hn : n ∈ optionalNames) (hm : Missing d n) :
    p n = .list (List.replicate N .none) := by
  obtain ⟨d1, d2, d3, d4, ps, thc', multi, m, hb⟩ := ofDict_ok (new_dict_ok h hd0)
  obtain ⟨N', rfl, hN', _⟩ := hb.num_eq hd
  rw [hN] at hN'
  cases hN'
  have hany : anyComposed ps = false := by
    obtain ⟨us, e1, e2⟩ := processHeaders_ok (hb.processed hh)
    rw [unpackRanges_standsFor hs] at e1
    cases e1
    rw [separateAll_names] at e2
    cases e2
    unfold anyComposed
    rw [List.any_eq_false]
    intro x hx
    rw [List.mem_map] at hx
    obtain ⟨p, _, rfl⟩ := hx
    intro h'
    cases h'
  have h3 : d3.get? n = d.get? n := by
    simp only [optionalNames, List.mem_cons, List.not_mem_nil, or_false] at hn
    rcases hn with rfl | rfl | rfl | rfl
    · exact hb.get?_untouched (.inl (by decide))
    · exact hb.get?_untouched (.inl (by decide))
    · rw [hb.guessed.others _ (by decide) (by decide), hb.headers.composed, hany, if_neg (by decide),
        hb.get?_d1 (by decide) (by simp [useDefault])]
    · rw [hb.guessed.others _ (by decide) (by decide)]
      rcases hb.headers.context with ⟨_, e⟩ | ⟨c, c', e, ht, _⟩
      · rw [e, hb.get?_d1 (by decide) (by simp [useDefault])]
      · rw [hb.get?_d1 (by decide) (by simp [useDefault])] at e
        rcases hm with hm | hm
        · rw [hm] at e; cases e
        · rw [hm] at e; cases e; cases ht
  have hg : applyGeneric .none (some N) (validValues n) = .list (List.replicate N .none) := by
    refine applyGeneric_none h1 ?_
    simp only [optionalNames, List.mem_cons, List.not_mem_nil, or_false] at hn
    rcases hn with rfl | rfl | rfl | rfl <;> rfl
  have happ : applyToAll n .none (some N) multi = .ok (.list (List.replicate N .none)) := by
    rw [← hg]
    simp only [optionalNames, List.mem_cons, List.not_mem_nil, or_false] at hn
    rcases hn with rfl | rfl | rfl | rfl <;> rfl
  rcases hm with hm | hm
  · rw [hm] at h3
    rw [hb.result, applyOptional_get?, if_pos, hg]
    · rfl
    · rw [Bool.and_eq_true]
      refine ⟨by simpa using hn, ?_⟩
      unfold PDict.falsy
      rw [(applyEach_get? hb.applied n).2 h3]
  · rw [hm] at h3
    refine hb.value_of h3 happ (.inr ?_)
    obtain ⟨k, rfl⟩ : ∃ k, N = k + 1 := ⟨N - 1, by omega⟩
    rfl

end

end Xls
