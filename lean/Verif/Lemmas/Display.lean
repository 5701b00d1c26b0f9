/-
Printed ranges.
-/
import Verif.Model.Display
import Verif.Spec.Display
import Mathlib.Tactic.Ring

set_option autoImplicit false

namespace Xls

open Spec

/-- What is to be shown of a cell. -/
def cellText (ext : Ext) (s : Sheet) (r c : Nat) : Str := coordStr r c ++ c!": " ++ cellStr ext (s.cells r c)

theorem shownCell_fits (ext : Ext) (s : Sheet) {width : Nat} (h : 3 ≤ width) (r c : Nat) :
    Fits (cellText ext s r c) width (shownCell ext s width r c) := by
  unfold shownCell Fits
  dsimp only
  change _ ∧ _
  rw [show coordStr r c ++ c!": " ++ cellStr ext (s.cells r c) = cellText ext s r c from rfl]
  by_cases hw : (width : Int) < (cellText ext s r c).length
  · rw [if_pos hw, if_neg (by omega)]
    have hs : pySlice (cellText ext s r c) 0 ((width : Int) - 3) = (cellText ext s r c).take (width - 3) := by
      unfold pySlice
      dsimp only
      rw [if_neg (by omega), if_neg (by omega)]
      show List.drop 0 _ = _
      rw [List.drop_zero]
      congr 1
      omega
    rw [hs]
    refine ⟨?_, _, List.take_prefix _ _, rfl⟩
    rw [List.length_append, List.length_take]
    simp
    omega
  · rw [if_neg hw, if_pos (by omega)]
    refine ⟨?_, _, rfl, fun x hx => (List.mem_replicate.1 hx).2⟩
    rw [List.length_append, List.length_replicate]
    omega

theorem shownCell_newline (ext : Ext) (s : Sheet) (width : Int) (r c : Nat) (h : '\n' ∉ cellText ext s r c) :
    '\n' ∉ shownCell ext s width r c := by
  unfold shownCell
  dsimp only
  rw [show coordStr r c ++ c!": " ++ cellStr ext (s.cells r c) = cellText ext s r c from rfl]
  split
  · intro hm
    rcases List.mem_append.1 hm with hm | hm
    · exact h (List.mem_of_mem_take (List.mem_of_mem_drop hm))
    · revert hm; decide
  · intro hm
    rcases List.mem_append.1 hm with hm | hm
    · exact h hm
    · exact absurd (List.mem_replicate.1 hm).2 (by decide)

theorem fields_length {α : Type} (f : α → Str) (n : Nat) : ∀ (l : List α), (∀ x ∈ l, (f x).length = n) →
    (l.flatMap f).length = l.length * n
  | [], _ => by simp
  | x :: l, h => by
    rw [List.flatMap_cons, List.length_append, h x (by simp), fields_length f n l (fun y hy => h y (by simp [hy])),
      List.length_cons, Nat.add_mul]
    omega

theorem fields_drop {α : Type} (f : α → Str) (n : Nat) : ∀ (l : List α) (j : Nat) (x : α) (rest : Str),
    (∀ x ∈ l, (f x).length = n) → l[j]? = some x →
    ∃ more, (l.flatMap f ++ rest).drop (j * n) = f x ++ more
  | [], j, x, rest, _, h => by simp at h
  | y :: l, 0, x, rest, _, h => by
    cases h
    exact ⟨l.flatMap f ++ rest, by simp⟩
  | y :: l, j + 1, x, rest, hl, h => by
    obtain ⟨more, hm⟩ := fields_drop f n l j x rest (fun z hz => hl z (by simp [hz])) (by simpa using h)
    refine ⟨more, ?_⟩
    rw [List.flatMap_cons, List.append_assoc, Nat.add_mul, Nat.one_mul, Nat.add_comm, List.drop_append,
      List.drop_eq_nil_of_le (by have := hl y (by simp); omega), List.nil_append,
      show n + j * n - (f y).length = j * n by rw [hl y (by simp)]; omega]
    exact hm

theorem fromTo_get {a b i : Nat} (h : a + i ≤ b) : (fromTo a b)[i]? = some (a + i) := by
  unfold fromTo
  rw [List.getElem?_range' (by omega)]
  simp

theorem fromTo_length (a b : Nat) : (fromTo a b).length = b + 1 - a := by
  unfold fromTo
  simp

theorem field_length (ext : Ext) (s : Sheet) {width : Nat} (h : 3 ≤ width) (r c : Nat) :
    (c!"| " ++ shownCell ext s width r c ++ c!" ").length = width + 3 := by
  simp only [List.length_append, (shownCell_fits ext s h r c).1]
  simp
  omega

theorem rowLine_length (ext : Ext) (s : Sheet) (c1 c2 : Nat) {width : Nat} (h : 3 ≤ width) (r : Nat) :
    (rowLine ext s c1 c2 width r).length = (c2 + 1 - c1) * (width + 3) + 2 := by
  unfold rowLine
  rw [List.length_append, fields_length _ (width + 3) _ (fun c _ => field_length ext s h r c), fromTo_length]
  rfl

theorem ruleLine_length (c1 c2 width : Nat) :
    (ruleLine c1 c2 width).length = (c2 + 1 - c1) * (width + 3) + 2 := by
  unfold ruleLine
  rw [List.length_append, fields_length _ (width + 3) _ (fun c _ => by simp), fromTo_length]
  rfl

theorem two_lines {α β : Type} (f g : α → β) : ∀ (l : List α) (i : Nat) (x : α), l[i]? = some x →
    (l.flatMap fun a => [f a, g a])[2 * i]? = some (f x)
  | [], i, x, h => by simp at h
  | y :: l, 0, x, h => by cases h; rfl
  | y :: l, i + 1, x, h => by
    rw [List.flatMap_cons, show 2 * (i + 1) = 2 * i + 1 + 1 by omega]
    show (f y :: g y :: _)[2 * i + 1 + 1]? = _
    rw [List.getElem?_cons_succ, List.getElem?_cons_succ]
    exact two_lines f g l i x (by simpa using h)

theorem two_length {α β : Type} (f g : α → β) : ∀ (l : List α), (l.flatMap fun a => [f a, g a]).length = 2 * l.length
  | [] => rfl
  | y :: l => by
    rw [List.flatMap_cons, List.length_append, two_length f g l, List.length_cons]
    simp
    omega

theorem flatMap_lines {α : Type} (f g : α → Str) : ∀ (l : List α),
    (l.flatMap fun a => f a ++ c!"\n" ++ g a ++ c!"\n") = (l.flatMap fun a => [f a, g a]).flatMap fun x => x ++ c!"\n"
  | [] => rfl
  | y :: l => by
    rw [List.flatMap_cons, List.flatMap_cons, flatMap_lines f g l, List.flatMap_append]
    simp

theorem printRange_grid (ext : Ext) (s : Sheet) (r1 c1 r2 c2 : Nat) {width : Nat} (h : 3 ≤ width) :
    ∃ lines, (printRange ext s r1 c1 r2 c2 width).1 = (lines.flatMap fun l => l ++ c!"\n") ∧
      Grid (cellText ext s) r1 c1 r2 c2 width lines := by
  refine ⟨(fromTo r1 r2).flatMap fun r => [rowLine ext s c1 c2 width r, ruleLine c1 c2 width],
    flatMap_lines _ _ _, ?_, ?_, ?_, ?_⟩
  · rw [two_length, fromTo_length]
  · intro l hl
    obtain ⟨r, _, hr⟩ := List.mem_flatMap.1 hl
    simp only [List.mem_cons, List.not_mem_nil, or_false] at hr
    rcases hr with rfl | rfl
    · exact rowLine_length ext s c1 c2 h r
    · exact ruleLine_length c1 c2 width
  · intro hn l hl
    obtain ⟨r, _, hr⟩ := List.mem_flatMap.1 hl
    simp only [List.mem_cons, List.not_mem_nil, or_false] at hr
    rcases hr with rfl | rfl
    · unfold rowLine
      intro hm
      rcases List.mem_append.1 hm with hm | hm
      · obtain ⟨c, _, hc⟩ := List.mem_flatMap.1 hm
        simp only [List.mem_append] at hc
        rcases hc with (hc | hc) | hc
        · revert hc; decide
        · exact shownCell_newline ext s width r c (hn r c) hc
        · revert hc; decide
      · revert hm; decide
    · unfold ruleLine
      intro hm
      rcases List.mem_append.1 hm with hm | hm
      · obtain ⟨c, _, hc⟩ := List.mem_flatMap.1 hm
        simp only [List.mem_append] at hc
        rcases hc with (hc | hc) | hc
        · revert hc; decide
        · exact absurd (List.mem_replicate.1 hc).2 (by decide)
        · revert hc; decide
      · revert hm; decide
  · intro i j hi hj
    refine ⟨rowLine ext s c1 c2 width (r1 + i), two_lines _ _ _ _ _ (fromTo_get hi), ?_⟩
    unfold rowLine
    obtain ⟨more, hm⟩ := fields_drop (fun c => c!"| " ++ shownCell ext s width (r1 + i) c ++ c!" ") (width + 3)
      (fromTo c1 c2) j (c1 + j) c!"| " (fun c _ => field_length ext s h _ c) (fromTo_get hj)
    rw [← List.drop_drop, hm]
    have hf := shownCell_fits ext s h (r1 + i) (c1 + j)
    have e : (List.drop 2 (c!"| " ++ shownCell ext s width (r1 + i) (c1 + j) ++ c!" " ++ more)).take width =
        shownCell ext s width (r1 + i) (c1 + j) := by
      rw [List.append_assoc, List.append_assoc]
      show List.take width (shownCell ext s width (r1 + i) (c1 + j) ++ (c!" " ++ more)) = _
      rw [List.take_append_of_le_length (by rw [hf.1]), List.take_of_length_le (by rw [hf.1])]
    rw [e]
    exact hf

end Xls
