/-
Column letters, coordinates, runs, scopes.
-/
import Verif.Model.Coords
import Verif.Spec.Coords
import Mathlib.Tactic.Ring
import Mathlib.Data.List.Induction

set_option autoImplicit false

namespace Xls
open Spec

/-! ### Characters -/

theorem toNat_ofNat {n : Nat} (h : n < 55296) : (Char.ofNat n).toNat = n := by
  have : n.isValidChar := Or.inl h
  simp [Char.ofNat, this, Char.ofNatAux, Char.toNat]

theorem isUpperLetter_iff (c : Char) : isUpperLetter c = true ↔ 65 ≤ c.toNat ∧ c.toNat ≤ 90 := by
  simp [isUpperLetter]

/-! ### Column letters -/

theorem colIndex_append (w : Str) (c : Char) :
    colIndex (w ++ [c]) = colIndex w * 26 + (c.toNat - 64) := by
  simp [colIndex]

theorem colLetterFuel_eq {f n : Nat} (h : n ≤ f) : colLetterFuel f n = colLetterFuel n n := by
  induction n using Nat.strongRecOn generalizing f with
  | _ n ih =>
    match f, n with
    | 0, 0 => rfl
    | f + 1, 0 => rfl
    | 0, n + 1 => omega
    | f + 1, n + 1 =>
      simp only [colLetterFuel]
      have h1 : n / 26 ≤ n := Nat.div_le_self _ _
      rw [ih (n / 26) (by omega) (f := f) (by omega), ← ih (n / 26) (by omega) (f := n) h1]

theorem colLetter_succ (n : Nat) :
    colLetter (n + 1) = colLetter (n / 26) ++ [Char.ofNat (65 + n % 26)] := by
  show colLetterFuel (n + 1) (n + 1) = _
  simp only [colLetterFuel]
  rw [colLetterFuel_eq (Nat.div_le_self _ _)]
  rfl

theorem colIndex_colLetter (n : Nat) : colIndex (colLetter n) = n := by
  induction n using Nat.strongRecOn with
  | _ n ih =>
    cases n with
    | zero => rfl
    | succ n =>
      rw [colLetter_succ, colIndex_append, ih (n / 26) (by omega), toNat_ofNat (by omega)]
      omega

theorem colLetter_colIndex {w : Str} (h : ∀ c ∈ w, isUpperLetter c = true) :
    colLetter (colIndex w) = w := by
  induction w using List.reverseRecOn with
  | nil => rfl
  | append_singleton w c ih =>
    have hc := (isUpperLetter_iff c).1 (h c (by simp))
    rw [colIndex_append]
    obtain ⟨k, hk⟩ : ∃ k, c.toNat = 65 + k := ⟨c.toNat - 65, by omega⟩
    have : colIndex w * 26 + (c.toNat - 64) = (colIndex w * 26 + k) + 1 := by omega
    rw [this, colLetter_succ]
    have h1 : (colIndex w * 26 + k) / 26 = colIndex w := by omega
    have h2 : (colIndex w * 26 + k) % 26 = k := by omega
    rw [h1, h2, ih fun c hc => h c (by simp [hc]), ← hk]
    simp [Char.ofNat_toNat]

theorem isUpperLetter_colLetter (n : Nat) : ∀ c ∈ colLetter n, isUpperLetter c = true := by
  induction n using Nat.strongRecOn with
  | _ n ih =>
    cases n with
    | zero => simp [colLetter, colLetterFuel]
    | succ n =>
      rw [colLetter_succ]
      intro c hc
      rcases List.mem_append.1 hc with h | h
      · exact ih (n / 26) (by omega) c h
      · simp only [List.mem_singleton] at h
        subst h
        rw [isUpperLetter_iff, toNat_ofNat (by omega)]
        omega

theorem colLetter_ne_nil {n : Nat} (h : 1 ≤ n) : colLetter n ≠ [] := by
  cases n with
  | zero => omega
  | succ n => rw [colLetter_succ]; simp

theorem colIndex_eq_wordNumber {w : Str} (h : Capitals w) : colIndex w = wordNumber w := by
  have key : ∀ (w : Str) (a : Nat), Capitals w →
      w.foldl (fun a c => a * 26 + (c.toNat - 64)) a = a * 26 ^ w.length + wordNumber w := by
    intro w
    induction w with
    | nil => intro a _; simp [wordNumber]
    | cons c w ih =>
      intro a hw
      have hc := hw c (by simp)
      have e : 'A'.toNat = 65 := rfl
      simp only [List.foldl_cons, List.length_cons, wordNumber]
      rw [ih _ fun d hd => hw d (by simp [hd])]
      have : c.toNat - 64 = c.toNat - 'A'.toNat + 1 := by omega
      rw [this, pow_succ]
      ring
  have := key w 0 h
  rw [Nat.zero_mul, Nat.zero_add] at this
  exact this

theorem colText_inj {a b : Nat} : colLetter a = colLetter b ↔ a = b :=
  ⟨fun h => by rw [← colIndex_colLetter a, h, colIndex_colLetter], fun h => by rw [h]⟩

/-! ### Numbers as text -/

theorem natStrFuel_eq {f n : Nat} (h : n ≤ f) : natStrFuel f n = natStrFuel n n := by
  induction n using Nat.strongRecOn generalizing f with
  | _ n ih =>
    match f, n with
    | 0, 0 => rfl
    | f + 1, 0 => simp [natStrFuel]
    | 0, n + 1 => omega
    | f + 1, n + 1 =>
      simp only [natStrFuel]
      split
      · rfl
      · rw [ih ((n + 1) / 10) (by omega) (f := f) (by omega),
          ← ih ((n + 1) / 10) (by omega) (f := n) (by omega)]

theorem natStr_small {n : Nat} (h : n < 10) : natStr n = [digitChar n] := by
  unfold natStr
  cases n with
  | zero => rfl
  | succ n => simp [natStrFuel, h]

theorem natStr_big {n : Nat} (h : 10 ≤ n) : natStr n = natStr (n / 10) ++ [digitChar (n % 10)] := by
  unfold natStr
  cases n with
  | zero => omega
  | succ n =>
    rw [natStrFuel, if_neg (by omega), natStrFuel_eq (f := n) (by omega)]

theorem digitChar_toNat {n : Nat} (h : n < 10) : (digitChar n).toNat = 48 + n :=
  toNat_ofNat (by omega)

theorem isDigit_natStr (n : Nat) : ∀ c ∈ natStr n, isDigit c = true := by
  induction n using Nat.strongRecOn with
  | _ n ih =>
    intro c hc
    by_cases h : n < 10
    · rw [natStr_small h] at hc
      simp only [List.mem_singleton] at hc
      subst hc
      simp [isDigit, digitChar_toNat h]; omega
    · rw [natStr_big (by omega)] at hc
      rcases List.mem_append.1 hc with h' | h'
      · exact ih (n / 10) (by omega) c h'
      · simp only [List.mem_singleton] at h'
        subst h'
        have : n % 10 < 10 := by omega
        simp [isDigit, digitChar_toNat this]; omega

theorem natStr_ne_nil (n : Nat) : natStr n ≠ [] := by
  by_cases h : n < 10
  · simp [natStr_small h]
  · simp [natStr_big (n := n) (by omega)]

theorem digitsVal_append (s : Str) (c : Char) :
    digitsVal (s ++ [c]) = digitsVal s * 10 + digitVal c := by
  simp [digitsVal]

theorem digitsVal_natStr (n : Nat) : digitsVal (natStr n) = n := by
  induction n using Nat.strongRecOn with
  | _ n ih =>
    by_cases h : n < 10
    · rw [natStr_small h]; simp [digitsVal, digitVal, digitChar_toNat h]
    · rw [natStr_big (by omega), digitsVal_append, ih (n / 10) (by omega), digitVal,
        digitChar_toNat (by omega)]
      omega

theorem not_upper_of_digit {c : Char} (h : isDigit c = true) : isUpperLetter c = false := by
  have : ¬ isUpperLetter c = true := by
    rw [isUpperLetter_iff]; simp [isDigit] at h; omega
  simpa using this

/-! ### Coordinates -/

theorem takeWhile_append_stop {p : Char → Bool} {a b : Str} (ha : ∀ c ∈ a, p c = true)
    (hb : ∀ c ∈ b, p c = false) : (a ++ b).takeWhile p = a ∧ (a ++ b).dropWhile p = b := by
  induction a with
  | nil =>
    cases b with
    | nil => simp
    | cons x b => simp [hb x (by simp)]
  | cons x a ih =>
    have := ih fun c hc => ha c (by simp [hc])
    simp [ha x (by simp), this]

theorem upper_of_plain {s : Str} (h : ∀ x ∈ s, isUpperLetter x = true ∨ isDigit x = true) : upper s = s := by
  unfold upper
  refine (List.map_congr_left fun x hx => ?_).trans (List.map_id _)
  unfold upperChar
  rw [if_neg]
  · rfl
  · rcases h x hx with h | h
    · rw [isUpperLetter_iff] at h
      omega
    · simp [isDigit] at h
      omega

theorem dropDollar_of_plain {s : Str} (h : ∀ x ∈ s, isUpperLetter x = true ∨ isDigit x = true) :
    dropDollar s = s := by
  unfold dropDollar
  split
  · exfalso
    rcases h '$' (by simp) with h | h <;> revert h <;> decide
  · rfl

theorem parseCoord_coordStr {r c : Nat} (hr : 1 ≤ r) (hc : 1 ≤ c) :
    parseCoord (coordStr r c) = some (r, c) := by
  obtain ⟨h1, h2⟩ := takeWhile_append_stop (p := isUpperLetter) (isUpperLetter_colLetter c)
    (fun x hx => not_upper_of_digit (isDigit_natStr r x hx))
  have plain : ∀ x ∈ colLetter c ++ natStr r, isUpperLetter x = true ∨ isDigit x = true := by
    intro x hx
    rcases List.mem_append.1 hx with h | h
    · exact .inl (isUpperLetter_colLetter c x h)
    · exact .inr (isDigit_natStr r x h)
  unfold parseCoord coordStr
  simp only [upper_of_plain plain, dropDollar_of_plain plain, h1, h2,
    dropDollar_of_plain fun x hx => .inr (isDigit_natStr r x hx), digitsVal_natStr, colIndex_colLetter]
  rw [if_pos ⟨colLetter_ne_nil hc, natStr_ne_nil r, List.all_eq_true.2 (isDigit_natStr r), hr⟩]

theorem coordOf_coordStr {r c : Nat} (hr : 1 ≤ r) (hc : 1 ≤ c) :
    coordOf (coordStr r c) = .ok ((r : Int), (c : Int)) := by
  simp [coordOf, parseCoord_coordStr hr hc]

theorem cellOf_coordStr {r c : Nat} (hr : 1 ≤ r) (hc : 1 ≤ c) :
    cellOf (.str (coordStr r c)) = .ok ((r : Int), (c : Int)) := coordOf_coordStr hr hc

theorem cellsOf_names {ps : List Pos} (h : Positive ps) :
    cellsOf (names ps) = .ok (ps.map fun p => ((p.1 : Int), (p.2 : Int))) := by
  induction ps with
  | nil => rfl
  | cons p ps ih =>
    have hp := h p (by simp)
    have ih := ih fun q hq => h q (by simp [hq])
    unfold names at *
    simp only [List.map_cons, cellsOf, cellOf_coordStr hp.1 hp.2, ih]
    rfl

theorem coordStr_inj {r c r' c' : Nat} (hr : 1 ≤ r) (hc : 1 ≤ c) (hr' : 1 ≤ r') (hc' : 1 ≤ c')
    (h : coordStr r c = coordStr r' c') : r = r' ∧ c = c' := by
  have h1 := parseCoord_coordStr hr hc
  rw [h, parseCoord_coordStr hr' hc'] at h1
  simp at h1
  exact ⟨h1.1.symm, h1.2.symm⟩

/-- Both characters of a coordinate are capital letters or digits. -/
theorem coordStr_chars (r c : Nat) :
    ∀ x ∈ coordStr r c, isUpperLetter x = true ∨ isDigit x = true := by
  intro x hx
  rcases List.mem_append.1 hx with h | h
  · exact Or.inl (isUpperLetter_colLetter c x h)
  · exact Or.inr (isDigit_natStr r x h)

theorem upper_coordStr (r c : Nat) : upper (coordStr r c) = coordStr r c := by
  unfold upper
  conv_rhs => rw [← List.map_id (coordStr r c)]
  apply List.map_congr_left
  intro x hx
  have : ¬ (97 ≤ x.toNat ∧ x.toNat ≤ 122) := by
    rcases coordStr_chars r c x hx with h | h
    · rw [isUpperLetter_iff] at h; omega
    · simp [isDigit] at h; omega
  simp [upperChar, this]

theorem coordStr_without {r c : Nat} {x : Char} (h : isUpperLetter x = false)
    (h' : isDigit x = false) : x ∉ coordStr r c := by
  intro hx
  rcases coordStr_chars r c x hx with h1 | h1 <;> simp_all

/-! ### Alphabetical order -/

theorem strLe_refl (w : Str) : strLe w w = true := by
  induction w with
  | nil => rfl
  | cons c w ih => simp [strLe, ih]

/-- The words of a length: those numbers lie in a window narrower than one step of the next
letter. -/
theorem wordNumber_bounds (w : Str) :
    ∃ base, (∀ v : Str, Capitals v → v.length = w.length →
      base ≤ wordNumber v ∧ wordNumber v < base + 26 ^ w.length) := by
  induction w with
  | nil =>
    refine ⟨0, fun v _ hl => ?_⟩
    have : v = [] := by simpa using hl
    subst this
    simp [wordNumber]
  | cons c w ih =>
    obtain ⟨b, hb⟩ := ih
    refine ⟨26 ^ w.length + b, fun v hv hl => ?_⟩
    cases v with
    | nil => simp at hl
    | cons d v =>
      have hd := hv d (by simp)
      have e : 'A'.toNat = 65 := rfl
      have e' : 'Z'.toNat = 90 := rfl
      have hl' : v.length = w.length := by simpa using hl
      have hb' := hb v (fun x hx => hv x (by simp [hx])) hl'
      simp only [wordNumber, List.length_cons, pow_succ, hl']
      obtain ⟨k, hk⟩ : ∃ k, d.toNat - 'A'.toNat = k := ⟨_, rfl⟩
      rw [hk]
      have h1 : k ≤ 25 := by omega
      have h2 : k * 26 ^ w.length ≤ 25 * 26 ^ w.length := Nat.mul_le_mul_right _ h1
      have h3 : (k + 1) * 26 ^ w.length = k * 26 ^ w.length + 26 ^ w.length := by ring
      rw [h3]
      omega

/-- Words of the same length: alphabetical order is the order of the numbers. -/
theorem strLe_same_length {v w : Str} (hv : Capitals v) (hw : Capitals w)
    (hl : v.length = w.length) : strLe v w = true ↔ wordNumber v ≤ wordNumber w := by
  induction v generalizing w with
  | nil =>
    have : w = [] := by simpa using hl.symm
    subst this
    simp [strLe, wordNumber]
  | cons a v ih =>
    cases w with
    | nil => simp at hl
    | cons b w =>
      have hl' : v.length = w.length := by simpa using hl
      have hv' : Capitals v := fun x hx => hv x (by simp [hx])
      have hw' : Capitals w := fun x hx => hw x (by simp [hx])
      have ha := hv a (by simp)
      have hb := hw b (by simp)
      have e : 'A'.toNat = 65 := rfl
      simp only [strLe, wordNumber]
      by_cases hab : a = b
      · subst hab
        rw [if_pos rfl, ih hv' hw' hl', hl']
        omega
      · rw [if_neg hab, decide_eq_true_iff, hl']
        have hne : a.toNat ≠ b.toNat := fun h => hab (by
          rw [← Char.ofNat_toNat a, ← Char.ofNat_toNat b, h])
        obtain ⟨base, hbase⟩ := wordNumber_bounds w
        have h1 := hbase v hv' hl'
        have h2 := hbase w hw' rfl
        constructor
        · intro h
          have h3 : (a.toNat - 'A'.toNat + 1 + 1) ≤ (b.toNat - 'A'.toNat + 1) := by omega
          have h4 := Nat.mul_le_mul_right (26 ^ w.length) h3
          rw [Nat.add_mul] at h4
          omega
        · intro h
          by_contra hcon
          have h3 : (b.toNat - 'A'.toNat + 1 + 1) ≤ (a.toNat - 'A'.toNat + 1) := by omega
          have h4 := Nat.mul_le_mul_right (26 ^ w.length) h3
          rw [Nat.add_mul] at h4
          omega

end Xls
