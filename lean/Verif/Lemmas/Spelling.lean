/-
How a cell coordinate may be written.
-/
import Verif.Lemmas.Coords

set_option autoImplicit false

namespace Xls

open Spec

theorem upperChar_cases {x y : Char} (h : upperChar x = y) :
    (x = y ∧ ¬ (97 ≤ x.toNat ∧ x.toNat ≤ 122)) ∨ (x.toNat = y.toNat + 32 ∧ 65 ≤ y.toNat ∧ y.toNat ≤ 90) := by
  unfold upperChar at h
  split at h
  next hx =>
    right
    subst h
    rw [toNat_ofNat (by omega)]
    omega
  next hx => exact .inl ⟨h, hx⟩

theorem upperChar_same {x y : Char} (h : upperChar x = y) (hy : ¬ (65 ≤ y.toNat ∧ y.toNat ≤ 90)) : x = y := by
  rcases upperChar_cases h with h | h
  · exact h.1
  · omega

theorem upper_same {s t : Str} (h : upper s = t) (ht : ∀ y ∈ t, ¬ (65 ≤ y.toNat ∧ y.toNat ≤ 90)) : s = t := by
  subst h
  unfold upper at ht ⊢
  refine ((List.map_congr_left fun x hx => ?_).trans (List.map_id _)).symm
  exact (upperChar_same rfl (ht _ (List.mem_map_of_mem hx))).symm

theorem upper_append (a b : Str) : upper (a ++ b) = upper a ++ upper b := List.map_append

theorem upper_append_inv {s a b : Str} (h : upper s = a ++ b) :
    ∃ s1 s2, s = s1 ++ s2 ∧ upper s1 = a ∧ upper s2 = b := by
  unfold upper at h ⊢
  obtain ⟨s1, s2, h1, h2, h3⟩ := List.map_eq_append_iff.1 h
  exact ⟨s1, s2, h1, h2, h3⟩

theorem inCase_upper {w W : Str} (h : upper w = W) (hW : Capitals W) : InCase w W := by
  subst h
  unfold InCase upper
  induction w with
  | nil => exact .nil
  | cons x w ih =>
    refine .cons ?_ (ih fun c hc => hW c (by
      unfold upper at hc ⊢
      exact List.mem_cons_of_mem _ hc))
    rcases upperChar_cases (x := x) rfl with h | h
    · exact .inl h.1
    · exact .inr h.1

theorem upper_inCase {w W : Str} (h : InCase w W) (hW : Capitals W) : upper w = W := by
  unfold InCase at h
  induction h with
  | nil => rfl
  | @cons x X w W hx h ih =>
    have hX := hW X (by simp)
    have h65 : 'A'.toNat = 65 := rfl
    have h90 : 'Z'.toNat = 90 := rfl
    rw [h65, h90] at hX
    have : upperChar x = X := by
      unfold upperChar
      rcases hx with rfl | hx
      · rw [if_neg (by omega)]
      · rw [if_pos (by omega), hx, Nat.add_sub_cancel]
        exact Char.ofNat_toNat X
    show upperChar x :: upper w = X :: W
    rw [this, ih fun c hc => hW c (by simp [hc])]

theorem dropDollar_cases (t : Str) : ∃ d, (d = [] ∨ d = ['$']) ∧ t = d ++ dropDollar t := by
  unfold dropDollar
  split
  · exact ⟨['$'], .inr rfl, rfl⟩
  · exact ⟨[], .inl rfl, rfl⟩

theorem upper_dollar {s d : Str} (hd : d = [] ∨ d = ['$']) (h : upper s = d) : s = d := by
  refine upper_same h fun y hy => ?_
  rcases hd with rfl | rfl
  · cases hy
  · rw [List.mem_singleton] at hy
    subst hy
    decide

theorem notCapital_of_digit {y : Char} (h : isDigit y = true) : ¬ (65 ≤ y.toNat ∧ y.toNat ≤ 90) := by
  simp [isDigit] at h
  omega

theorem parseCoord_iff (s : Str) (r c : Nat) : parseCoord s = some (r, c) ↔ Spelled s r c := by
  constructor
  · intro h
    unfold parseCoord at h
    dsimp only at h
    split at h
    next hc =>
      cases h
      obtain ⟨h1, h2, h3, h4⟩ := hc
      obtain ⟨d1, hd1, e1⟩ := dropDollar_cases (upper s)
      obtain ⟨t, ht⟩ : ∃ t, dropDollar (upper s) = t := ⟨_, rfl⟩
      rw [ht] at h1 h2 h3 h4 e1 ⊢
      obtain ⟨letters, hl⟩ : ∃ l, t.takeWhile isUpperLetter = l := ⟨_, rfl⟩
      obtain ⟨digits, hdg⟩ : ∃ l, dropDollar (t.dropWhile isUpperLetter) = l := ⟨_, rfl⟩
      obtain ⟨d2, hd2, e2⟩ := dropDollar_cases (t.dropWhile isUpperLetter)
      have e3 := List.takeWhile_append_dropWhile (p := isUpperLetter) (l := t)
      have hcap : Capitals letters := fun x hx =>
        (isUpperLetter_iff x).1 (List.all_eq_true.1 List.all_takeWhile x (hl ▸ hx))
      rw [hdg] at h2 h3 h4 e2 ⊢
      rw [e2, hl] at e3
      rw [hl] at h1 ⊢
      rw [← e3] at e1
      clear ht hl hdg e2 e3
      obtain ⟨s1, s', rfl, u1, u'⟩ := upper_append_inv e1
      obtain rfl := upper_dollar hd1 u1
      obtain ⟨w, s'', rfl, uw, u''⟩ := upper_append_inv u'
      obtain ⟨s2, ds, rfl, u2, ud⟩ := upper_append_inv u''
      obtain rfl := upper_dollar hd2 u2
      obtain rfl : ds = digits := upper_same ud fun y hy => notCapital_of_digit (List.all_eq_true.1 h3 y hy)
      refine ⟨s1, w, s2, ds, letters, by simp, hd1, hd2, h1, hcap, inCase_upper uw hcap, ?_, h2, ?_, rfl, h4⟩
      · exact (colIndex_eq_wordNumber hcap).symm
      · intro y hy
        have := List.all_eq_true.1 h3 y hy
        simpa [isDigit] using this
    · cases h
  · rintro ⟨d1, w, d2, ds, W, rfl, hd1, hd2, hne, hcap, hin, hnum, hds, hdig, hval, hpos⟩
    have hd : ∀ y ∈ ds, isDigit y = true := by
      intro y hy
      have := hdig y hy
      simpa [isDigit] using this
    have u1 : upper d1 = d1 := by rcases hd1 with rfl | rfl <;> rfl
    have u2 : upper d2 = d2 := by rcases hd2 with rfl | rfl <;> rfl
    have ud : upper ds = ds := upper_of_plain fun x hx => .inr (hd x hx)
    have uw := upper_inCase hin hcap
    have key : upper (d1 ++ w ++ d2 ++ ds) = d1 ++ (W ++ (d2 ++ ds)) := by
      rw [upper_append, upper_append, upper_append, u1, u2, ud, uw]
      simp
    have hW : ∀ x ∈ W, isUpperLetter x = true := fun x hx => (isUpperLetter_iff x).2 (hcap x hx)
    have k1 : dropDollar (d1 ++ (W ++ (d2 ++ ds))) = W ++ (d2 ++ ds) := by
      rcases hd1 with rfl | rfl
      · obtain ⟨X, W', rfl⟩ := List.exists_cons_of_ne_nil hne
        unfold dropDollar
        split
        next heq =>
          cases heq
          exact absurd (hW '$' (by simp)) (by decide)
        · rfl
      · rfl
    have k2 : dropDollar (d2 ++ ds) = ds := by
      rcases hd2 with rfl | rfl
      · exact dropDollar_of_plain fun x hx => .inr (hd x hx)
      · rfl
    have stop : ∀ x ∈ d2 ++ ds, isUpperLetter x = false := by
      intro x hx
      rcases List.mem_append.1 hx with h | h
      · rcases hd2 with rfl | rfl
        · cases h
        · rw [List.mem_singleton] at h
          subst h
          decide
      · exact not_upper_of_digit (hd x h)
    obtain ⟨t1, t2⟩ := takeWhile_append_stop (p := isUpperLetter) hW stop
    unfold parseCoord
    simp only [key, k1, t1, t2, k2]
    have hdv : digitsVal ds = r := hval
    rw [if_pos ⟨hne, hds, List.all_eq_true.2 hd, by omega⟩, hdv, colIndex_eq_wordNumber hcap, hnum]

end Xls
