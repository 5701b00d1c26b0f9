/-
Header texts: ranges and composed headers.
-/
import Verif.Lemmas.Runs
import Verif.Lemmas.Text
import Verif.Lemmas.Validate

set_option autoImplicit false

namespace Xls
open Spec

/-! ### A rectangle is determined by its corners -/

theorem before_irrefl (p : Pos) : ¬ Before p p := by unfold Before; omega

theorem rectangle_unique {a b : Pos} {ps qs : List Pos} (h1 : IsRectangle a b ps)
    (h2 : IsRectangle a b qs) : ps = qs := by
  have nd : ∀ {l : List Pos}, l.Pairwise Before → l.Nodup := by
    intro l h
    refine h.imp ?_
    rintro x y hxy rfl
    exact before_irrefl _ hxy
  have hperm : ps.Perm qs := by
    rw [List.perm_ext_iff_of_nodup (nd h1.order) (nd h2.order)]
    intro p
    rw [h1.cells, h2.cells]
  refine hperm.eq_of_pairwise ?_ h1.order h2.order
  intro x y _ _ hxy hyx
  unfold Before at hxy hyx
  omega

/-! ### Case and separators -/

theorem upperChar_sep {c x : Char} (hx : ¬ (97 ≤ x.toNat ∧ x.toNat ≤ 122))
    (hu : ¬ (65 ≤ x.toNat ∧ x.toNat ≤ 90)) : upperChar c = x ↔ c = x := by
  unfold upperChar
  split
  · next h =>
    constructor
    · rintro rfl
      exfalso
      rw [toNat_ofNat (by omega)] at hu
      omega
    · rintro rfl; exact absurd h hx
  · exact Iff.rfl

theorem mem_upper_sep {s : Str} {x : Char} (hx : ¬ (97 ≤ x.toNat ∧ x.toNat ≤ 122))
    (hu : ¬ (65 ≤ x.toNat ∧ x.toNat ≤ 90)) : x ∈ upper s ↔ x ∈ s := by
  unfold upper
  rw [List.mem_map]
  constructor
  · rintro ⟨c, hc, e⟩
    rw [upperChar_sep hx hu] at e
    rwa [← e]
  · intro h
    exact ⟨x, h, (upperChar_sep hx hu).2 rfl⟩

theorem isDigit_code (c : Char) : isDigit c = true ↔ 48 ≤ c.toNat ∧ c.toNat ≤ 57 := by
  unfold isDigit; simp

theorem not_none_of_digit {s : Str} {x : Char} (h : x ∈ upper s) (hx : isDigit x = true) :
    s ≠ [] ∧ lower s ≠ c!"none" := by
  have hx' := (isDigit_code x).1 hx
  have hs : x ∈ s := (mem_upper_sep (by omega) (by omega)).1 h
  refine ⟨by rintro rfl; simp at hs, ?_⟩
  intro e
  have : lowerChar x ∈ lower s := List.mem_map_of_mem hs
  have hl : lowerChar x = x := by
    unfold lowerChar
    rw [if_neg (by omega)]
  rw [hl, e] at this
  simp only [List.mem_cons, List.not_mem_nil, or_false] at this
  rcases this with rfl | rfl | rfl | rfl <;> revert hx <;> decide

theorem coordStr_has_digit (r c : Nat) : ∃ x ∈ coordStr r c, isDigit x = true := by
  unfold coordStr
  have h1 := natStr_ne_nil r
  cases h : natStr r with
  | nil => exact absurd h h1
  | cons x xs => exact ⟨x, by simp, isDigit_natStr r x (by simp [h])⟩

/-! ### Ranges -/

theorem coordStr_ne_nil' (r c : Nat) : coordStr r c ≠ [] := by
  obtain ⟨x, hx, _⟩ := coordStr_has_digit r c
  intro h; rw [h] at hx; simp at hx

theorem coordRange_rect {a b : Pos} (h : Positive [a, b]) {ps : List Pos} (hr : IsRectangle a b ps) :
    coordRange (coordStr a.1 a.2) (coordStr b.1 b.2) =
      .ok (ps.map fun p => coordStr p.1 p.2) := by
  have ha := h a (by simp)
  have hb := h b (by simp)
  unfold coordRange
  rw [if_neg (coordStr_ne_nil' _ _), parseCoord_coordStr ha.1 ha.2, parseCoord_coordStr hb.1 hb.2]
  simp only
  rw [rectCoords_eq, rectangle_unique hr (isRectangle_rectPositions a b)]

theorem unpackStr_header {s : Str} {ps : List Pos} (h : HeaderText s ps) :
    unpackStr s = .ok (ps.map fun p => coordStr p.1 p.2) := by
  have m1 : '-' ∈ upper s ↔ '-' ∈ s := mem_upper_sep (by decide) (by decide)
  have m2 : ':' ∈ upper s ↔ ':' ∈ s := mem_upper_sep (by decide) (by decide)
  rcases h with ⟨p, h1, h2, hs, rfl⟩ | ⟨a, b, sep, hsep, hpos, hs, hr⟩
  · have n1 : '-' ∉ s := by
      rw [← m1, hs]; exact coordStr_without rfl rfl
    have n2 : ':' ∉ s := by
      rw [← m2, hs]; exact coordStr_without rfl rfl
    unfold unpackStr
    rw [if_pos (by simp [n1, n2]), hs]
    rfl
  · have nu : ∀ (p : Pos), '_' ∉ coordStr p.1 p.2 := fun p => coordStr_without rfl rfl
    have nd : ∀ (p : Pos), '-' ∉ coordStr p.1 p.2 := fun p => coordStr_without rfl rfl
    have nc : ∀ (p : Pos), ':' ∉ coordStr p.1 p.2 := fun p => coordStr_without rfl rfl
    unfold unpackStr
    have key : splitOn sep (coordStr a.1 a.2 ++ sep :: coordStr b.1 b.2) =
        [coordStr a.1 a.2, coordStr b.1 b.2] := by
      rcases hsep with rfl | rfl
      · rw [splitOn_cons (nd a), splitOn_none (nd b)]
      · rw [splitOn_cons (nc a), splitOn_none (nc b)]
    have hsepS : (if s.contains '-' then '-' else ':') = sep := by
      rcases hsep with rfl | rfl
      · have : '-' ∈ s := by rw [← m1, hs]; simp
        simp [this]
      · have : '-' ∉ s := by rw [← m1, hs]; simp [nd]
        simp [this]
    have hcont : ¬ ((!s.contains '-' && !s.contains ':') = true) := by
      rcases hsep with rfl | rfl
      · have : '-' ∈ s := by rw [← m1, hs]; simp
        simp [this]
      · have : ':' ∈ s := by rw [← m2, hs]; simp
        simp [this]
    rw [if_neg hcont, hsepS, hs, key]
    simp only
    rw [if_pos (by simp [nu])]
    exact coordRange_rect hpos hr

theorem header_has_digit {s : Str} {ps : List Pos} (h : HeaderText s ps) :
    ∃ x ∈ upper s, isDigit x = true := by
  rcases h with ⟨p, _, _, hs, _⟩ | ⟨a, b, sep, _, _, hs, _⟩
  · rw [hs]; exact coordStr_has_digit _ _
  · obtain ⟨x, h1, h2⟩ := coordStr_has_digit a.1 a.2
    exact ⟨x, by rw [hs]; simp [h1], h2⟩

theorem unpackRanges_header {s : Str} {ps : List Pos} (h : HeaderText s ps) :
    unpackRanges (.str s) = .ok (.list (names ps)) := by
  obtain ⟨x, h1, h2⟩ := header_has_digit h
  obtain ⟨h3, h4⟩ := not_none_of_digit h1 h2
  unfold unpackRanges
  simp only [h3, h4, or_self, if_false]
  rw [unpackGen, unpackStr_header h]
  simp [names, bind, Except.bind, pure, Except.pure]

theorem unpackElems_headers {ss : List Str} {pss : List (List Pos)}
    (h : List.Forall₂ HeaderText ss pss) :
    unpackElems (ss.map .str) = .ok (names pss.flatten) := by
  induction h with
  | nil => rw [List.map_nil, unpackElems]; rfl
  | @cons s ps ss pss h1 _ ih =>
    rw [List.map_cons, unpackElems, unpackGen, unpackStr_header h1, ih]
    · simp [names, bind, Except.bind, pure, Except.pure]
    · intros; contradiction

theorem unpackRanges_headers {ss : List Str} {pss : List (List Pos)} (hne : ss ≠ [])
    (h : List.Forall₂ HeaderText ss pss) :
    unpackRanges (.list (ss.map .str)) = .ok (.list (names pss.flatten)) := by
  cases ss with
  | nil => exact absurd rfl hne
  | cons s ss =>
    have := unpackElems_headers h
    rw [List.map_cons] at this ⊢
    rw [unpackRanges, unpackGen, this]
    · rfl
    · intro h; cases h

/-! ### Composed headers -/

theorem separateOne_plain {s : Str} (h : '_' ∉ s) : separateOne (.str s) = .ok ([], .str s) := by
  simp [separateOne, h]

theorem separateAll_plain {ss : List Str} (h : ∀ s ∈ ss, '_' ∉ s) :
    separateAll (ss.map .str) = .ok (ss.map fun s => ([], .str s)) := by
  induction ss with
  | nil => rfl
  | cons s ss ih =>
    simp only [List.mem_cons, forall_eq_or_imp] at h
    rw [List.map_cons, separateAll, bind_intro (separateOne_plain h.1), bind_intro (ih h.2)]
    rfl

theorem separateAll_names (ps : List Pos) :
    separateAll (names ps) = .ok (ps.map fun p => ([], .str (coordStr p.1 p.2))) := by
  have := separateAll_plain (ss := ps.map fun p => coordStr p.1 p.2) (by
    intro s hs
    simp only [List.mem_map] at hs
    obtain ⟨p, _, rfl⟩ := hs
    exact coordStr_without rfl rfl)
  rw [List.map_map, List.map_map] at this
  exact this

theorem composed_split {h : Str} {above : List Str} {header : Str} (hc : Composed h above header) :
    splitOn '_' h = above ++ [header] := by
  rw [← hc.1, splitOn_joinWith (by simp) hc.2]

theorem composed_mem_iff {h : Str} {above : List Str} {header : Str}
    (hc : Composed h above header) : '_' ∈ h ↔ above ≠ [] := by
  constructor
  · rintro h1 rfl
    have := hc.1
    simp only [List.nil_append, joinWith] at this
    subst this
    exact hc.2 header (by simp) h1
  · intro h1
    obtain ⟨a, rest, rfl⟩ := List.exists_cons_of_ne_nil h1
    rw [← hc.1]
    cases rest <;> simp [joinWith]

theorem composed_exists (h : Str) : ∃ above header, Composed h above header := by
  obtain ⟨ws, w, e⟩ : ∃ ws w, splitOn '_' h = ws ++ [w] := by
    have := splitOn_ne_nil '_' h
    exact ⟨(splitOn '_' h).dropLast, (splitOn '_' h).getLast this,
      (List.dropLast_append_getLast this).symm⟩
  refine ⟨ws, w, ?_, ?_⟩
  · rw [← e]; exact splitOn_join '_' h
  · rw [← e]; exact splitOn_parts h

theorem separateOne_composed {h : Str} {above : List Str} {header : Str}
    (hc : Composed h above header) : separateOne (.str h) = .ok (above, .str header) := by
  unfold separateOne
  by_cases hu : '_' ∈ h
  · have : h.contains '_' = true := by simpa using hu
    simp only [this, if_true, composed_split hc]
    simp
  · have ha : above = [] := by
      by_contra hne
      exact hu ((composed_mem_iff hc).2 hne)
    subst ha
    have := hc.1
    simp only [List.nil_append, joinWith] at this
    subst this
    have : header.contains '_' = false := by simpa using hu
    simp [hu]

theorem separateAll_composed {hs : List Str} {qs : List (List Str × Str)}
    (h : List.Forall₂ (fun h q => Composed h q.1 q.2) hs qs) :
    separateAll (hs.map .str) = .ok (qs.map fun q => (q.1, .str q.2)) := by
  induction h with
  | nil => rfl
  | cons h1 _ ih =>
    rw [List.map_cons, separateAll, bind_intro (separateOne_composed h1), bind_intro ih]
    rfl

/-! ### Values of a built object -/

section
variable {d : PDict} {p : Params} {d1 d2 d3 d4 : PDict} {ps : List (List Str × PVal)}
  {thc' multi : PVal} {n : Option Nat}

/-- The processed headers are those of the dictionary. -/
theorem Built.processed (h : Built d p d1 d2 d3 d4 ps thc' multi n) {hc : PVal}
    (hh : d.get? .headersCoord = some hc) : processHeaders hc = .ok ps := by
  obtain ⟨hc', h1, h2⟩ := h.headers.headers
  rw [h.get?_d1 (by decide) (by simp [useDefault]), hh] at h1
  simp at h1
  rw [h1]; exact h2

theorem Built.p_headers (h : Built d p d1 d2 d3 d4 ps thc' multi n) :
    p .headersCoord = applyGeneric (headersOf ps) n (validValues .headersCoord) := by
  refine h.value_of (v := headersOf ps) ?_ rfl (Or.inl (by decide))
  rw [h.guessed.others _ (by decide) (by decide), h.headers.headersCoord]

theorem Built.p_composed (h : Built d p d1 d2 d3 d4 ps thc' multi n) (ha : anyComposed ps = true)
    (hn : n = some ps.length) : p .composedHeadersCoord = composedOf ps := by
  have hne : ps ≠ [] := by rintro rfl; simp [anyComposed] at ha
  refine h.value_of (v := composedOf ps) ?_ ?_ (Or.inr ?_)
  · rw [h.guessed.others _ (by decide) (by decide), h.headers.composed, if_pos ha]
  · rw [hn]
    exact congrArg Except.ok (applyGeneric_full (by simp))
  · cases ps with
    | nil => exact absurd rfl hne
    | cons => rfl

end

end Xls
