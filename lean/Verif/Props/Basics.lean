/-
The functions on texts and numbers that the specifications take from the model, each pinned down by
what Python's documentation says of it, so that they need not be read to be trusted.
-/
import Mathlib.Tactic.IntervalCases
import Mathlib.Tactic.Linarith
import Mathlib.Algebra.Order.Ring.Abs
import Verif.Model.ParseTime
import Verif.Model.Stored
import Verif.Lemmas.Text
import Verif.Lemmas.Coords
import Verif.Spec.WholeNumber

set_option autoImplicit false

namespace Xls

/-! ### `str.strip` -/

theorem lstrip_parts (s : Str) : ∃ a, s = a ++ lstrip s ∧ (∀ c ∈ a, isSpace c = true) ∧
    ∀ c ∈ (lstrip s).head?, isSpace c = false := by
  refine ⟨s.takeWhile isSpace, (List.takeWhile_append_dropWhile).symm, ?_, ?_⟩
  · intro c hc; exact List.all_eq_true.1 List.all_takeWhile c hc
  · intro c hc
    unfold lstrip at hc
    induction s with
    | nil => cases hc
    | cons x s ih =>
      rw [List.dropWhile_cons] at hc
      split at hc
      · exact ih hc
      · rename_i h; cases hc; simpa using h

/-- `s.strip()` is `s` without blanks at either end: what is taken off is blanks only, and what is
left neither begins nor ends with one. These three facts determine it (`strip_unique`). -/
theorem strip_spec (s : Str) : ∃ a b, s = a ++ strip s ++ b ∧ (∀ c ∈ a ++ b, isSpace c = true) ∧
    (∀ c ∈ (strip s).head?, isSpace c = false) ∧ ∀ c ∈ (strip s).getLast?, isSpace c = false := by
  obtain ⟨a, h1, h2, h3⟩ := lstrip_parts s
  obtain ⟨b, h4, h5, h6⟩ := lstrip_parts (lstrip s).reverse
  have h7 : lstrip s = strip s ++ b.reverse := by
    have := congrArg List.reverse h4
    simpa [strip] using this
  refine ⟨a, b.reverse, ?_, ?_, ?_, ?_⟩
  · rw [List.append_assoc, ← h7]; exact h1
  · intro c hc
    rcases List.mem_append.1 hc with h | h
    · exact h2 c h
    · exact h5 c (by simpa using h)
  · intro c hc
    apply h3
    rw [h7]
    cases hs : strip s with
    | nil => rw [hs] at hc; cases hc
    | cons x t => rw [hs] at hc; simpa using hc
  · intro c hc
    apply h6
    simpa [strip] using hc

theorem blanks_then_unique : ∀ {a a' x x' : Str}, a ++ x = a' ++ x' → (∀ c ∈ a, isSpace c = true) →
    (∀ c ∈ a', isSpace c = true) → (∀ c ∈ x.head?, isSpace c = false) →
    (∀ c ∈ x'.head?, isSpace c = false) → x = x'
  | [], [], x, x', h, _, _, _, _ => h
  | [], c :: a', x, x', h, _, h2, h3, _ => by
    have := h2 c (by simp)
    rw [h3 c (by rw [show x = _ from h]; simp)] at this
    cases this
  | c :: a, [], x, x', h, h1, _, _, h4 => by
    have := h1 c (by simp)
    rw [h4 c (by rw [show x' = _ from h.symm]; simp)] at this
    cases this
  | c :: a, c' :: a', x, x', h, h1, h2, h3, h4 => by
    simp only [List.cons_append, List.cons.injEq] at h
    exact blanks_then_unique h.2 (fun c hc => h1 c (by simp [hc])) (fun c hc => h2 c (by simp [hc])) h3 h4

/-- The three facts of `strip_spec` leave one text: the only part of `s` that neither begins nor
ends with a blank and has only blanks around it. -/
theorem strip_unique {s t a b : Str} (h : s = a ++ t ++ b) (hb : ∀ c ∈ a ++ b, isSpace c = true)
    (h1 : ∀ c ∈ t.head?, isSpace c = false) (h2 : ∀ c ∈ t.getLast?, isSpace c = false) : strip s = t := by
  subst h
  by_cases ht : t = []
  · subst ht
    obtain ⟨a', b', h, hb', h3, h4⟩ := strip_spec (a ++ [] ++ b)
    cases hs : strip (a ++ [] ++ b) with
    | nil => rfl
    | cons x y =>
      have hx : x ∈ a ++ b := by
        have : x ∈ a ++ [] ++ b := by rw [h, hs]; simp
        simpa using this
      rw [hs] at h3
      have := h3 x (by simp)
      rw [hb x hx] at this
      cases this
  · have l : ∀ {a x : Str}, (∀ c ∈ a, isSpace c = true) → (∀ c ∈ x.head?, isSpace c = false) →
        lstrip (a ++ x) = x := by
      intro a x ha hx
      obtain ⟨a', e1, e2, e3⟩ := lstrip_parts (a ++ x)
      exact (blanks_then_unique e1 ha e2 hx e3).symm
    unfold strip
    rw [List.append_assoc, l (fun c hc => hb c (by simp [hc])) ?_, List.reverse_append,
      l (fun c hc => hb c (by simp at hc; simp [hc])) ?_, List.reverse_reverse]
    · simpa using h2
    · cases t with
      | nil => exact absurd rfl ht
      | cons x t => simpa using h1

/-! ### `str.split`, `str.join` -/

/-- `s.split(c)` is the only list of texts without `c` that, joined with `c`, gives `s`. -/
theorem splitOn_iff (sep : Char) (s : Str) (ps : List Str) :
    splitOn sep s = ps ↔ ps ≠ [] ∧ (∀ p ∈ ps, sep ∉ p) ∧ [sep].intercalate ps = s := by
  have j : ∀ ps : List Str, joinWith [sep] ps = [sep].intercalate ps := by
    intro ps
    induction ps with
    | nil => rfl
    | cons p ps ih =>
      cases ps with
      | nil => simp [joinWith]
      | cons q ps => rw [joinWith, ih]; simp [List.intercalate, List.intersperse]
  constructor
  · rintro rfl
    exact ⟨splitOn_ne_nil sep s, splitOn_parts s, by rw [← j, splitOn_join]⟩
  · rintro ⟨h1, h2, rfl⟩
    rw [← j, splitOn_joinWith h1 h2]

/-! ### `str.replace` -/

/-- `Replaced old new s t`: reading `s` from the left, each place where `old` stands is replaced by
`new` and reading goes on after it; any other character stays. -/
inductive Replaced (old new : Str) : Str → Str → Prop
  | done : Replaced old new [] []
  | here {s t : Str} : Replaced old new s t → Replaced old new (old ++ s) (new ++ t)
  | stay {c : Char} {s t : Str} : ¬ old <+: c :: s → Replaced old new s t →
      Replaced old new (c :: s) (c :: t)

theorem stripPrefix_some : ∀ {p s r : Str}, stripPrefix? p s = some r → s = p ++ r
  | [], s, r, h => by cases h; rfl
  | _ :: _, [], r, h => by cases h
  | p :: ps, c :: cs, r, h => by
    rw [stripPrefix?] at h
    split at h
    · subst p; rw [stripPrefix_some h]; rfl
    · cases h

theorem stripPrefix_none {p s : Str} (h : stripPrefix? p s = none) : ¬ p <+: s := by
  rintro ⟨r, rfl⟩
  induction p with
  | nil => cases h
  | cons x p ih => apply ih; simpa [stripPrefix?] using h

theorem replaceFuel_replaced {old new : Str} (h : old ≠ []) : ∀ (n : Nat) (s : Str), s.length ≤ n →
    Replaced old new s (replaceFuel old new n s)
  | 0, [], _ => .done
  | n + 1, [], _ => .done
  | n + 1, c :: cs, hn => by
    rw [replaceFuel]
    split
    · rename_i rest hr
      have e := stripPrefix_some hr
      rw [e]
      refine .here (replaceFuel_replaced h n rest ?_)
      have := congrArg List.length e
      have : 0 < old.length := List.length_pos_iff.2 h
      simp at *; omega
    · rename_i hr
      exact .stay (stripPrefix_none hr) (replaceFuel_replaced h n cs (by simpa using hn))

/-- `s.replace(old, new)` for a non-empty `old` is what reading from the left gives, and reading
from the left gives one text only. -/
theorem replaceStr_iff {old new : Str} (h : old ≠ []) (s t : Str) :
    replaceStr old new s = t ↔ Replaced old new s t := by
  have u : ∀ {s t}, Replaced old new s t → ∀ {t'}, Replaced old new s t' → t = t' := by
    intro s t ht
    induction ht with
    | done =>
      intro t' h'
      generalize hs : ([] : Str) = s at h'
      cases h' with
      | done => rfl
      | here => exact absurd (List.append_eq_nil_iff.1 hs.symm).1 h
      | stay => cases hs
    | @here s t ht ih =>
      intro t' h'
      generalize hs : old ++ s = s' at h'
      cases h' with
      | done => exact absurd (List.append_eq_nil_iff.1 hs).1 h
      | here h'' => rw [ih (List.append_cancel_left hs ▸ h'')]
      | stay hn => exact absurd ⟨s, hs⟩ hn
    | @stay c s t hn ht ih =>
      intro t' h'
      generalize hs : c :: s = s' at h'
      cases h' with
      | done => cases hs
      | here => exact absurd ⟨_, hs.symm⟩ hn
      | stay _ h'' => cases hs; rw [ih h'']
  exact ⟨fun e => e ▸ replaceFuel_replaced h _ s (Nat.le_refl _),
    fun ht => u (replaceFuel_replaced h _ s (Nat.le_refl _)) ht⟩

/-! ### Numbers and their texts -/

/-- `str(n)` is digits only, begins with `0` only for zero, and reads as `n`. -/
theorem natStr_spec (n : Nat) : natStr n ≠ [] ∧ (∀ c ∈ natStr n, isDigit c = true) ∧
    digitsVal (natStr n) = n ∧ ((natStr n).head? = some '0' → n = 0) := by
  refine ⟨natStr_ne_nil n, isDigit_natStr n, digitsVal_natStr n, ?_⟩
  induction n using Nat.strongRecOn with
  | _ n ih =>
    intro h
    by_cases hn : n < 10
    · rw [natStr_small hn] at h
      simp only [List.head?_cons, Option.some.injEq] at h
      have := digitChar_toNat hn
      rw [h] at this
      have h0 : '0'.toNat = 48 := rfl
      omega
    · rw [natStr_big (by omega), List.head?_append_of_ne_nil _ (natStr_ne_nil _)] at h
      have := ih (n / 10) (by omega) h
      omega

/-- What `int()` makes of `str(i)` is `i`. -/
theorem pyInt_intStr (i : Int) : pyInt (intStr i) = some i := by
  have dw : ∀ (p : Bool) (s : Str), s ≠ [] → (∀ c ∈ s, isDigit c = true) →
      digitsWithUnderscores p s = some s := by
    intro p s
    induction s generalizing p with
    | nil => intro h; exact absurd rfl h
    | cons c s ih =>
      intro _ hs
      rw [digitsWithUnderscores.eq_def]
      dsimp only
      rw [if_pos (hs c (by simp))]
      cases s with
      | nil => rfl
      | cons d s => rw [ih true (by simp) fun x hx => hs x (by simp [hx])]; rfl
  have ns : ∀ c, isDigit c = true → isSpace c = false := by
    intro c hc
    simp [isDigit] at hc
    simp [isSpace]; omega
  have st : ∀ s : Str, (∀ c ∈ s, isSpace c = false) → strip s = s := fun s hs =>
    strip_unique (a := []) (b := []) (by simp) (by simp)
      (fun c hc => hs c (List.mem_of_mem_head? hc)) (fun c hc => hs c (List.mem_of_getLast? hc))
  obtain ⟨h1, h2, h3, -⟩ := natStr_spec i.natAbs
  unfold intStr
  by_cases hi : i < 0
  · rw [if_pos hi, pyInt, st _ ?_]
    · show (digitsWithUnderscores false (natStr i.natAbs)).map (fun d => -(digitsVal d : Int)) = some i
      rw [dw _ _ h1 h2, Option.map_some, h3]
      congr 1; omega
    · intro c hc
      rcases List.mem_cons.1 hc with rfl | hc
      · decide
      · exact ns c (h2 c hc)
  · rw [if_neg hi, pyInt, st _ fun c hc => ns c (h2 c hc)]
    have e : some (i.natAbs : Int) = some i := by congr 1; omega
    split
    · rename_i ds hd
      exact absurd (h2 '-' (by rw [hd]; simp)) (by decide)
    · rename_i ds hd
      exact absurd (h2 '+' (by rw [hd]; simp)) (by decide)
    · rw [dw _ _ h1 h2, Option.map_some, h3, e]

/-- `int(x)` of a number drops what stands after the point: it is the whole number within less than
one of it, on the side of zero. -/
theorem truncRat_spec (q : Rat) :
    (0 ≤ q → (truncRat q : Rat) ≤ q ∧ q < truncRat q + 1) ∧
      (q ≤ 0 → q ≤ truncRat q ∧ (truncRat q : Rat) < q + 1) := by
  have f : ∀ x : Rat, (x.floor : Rat) ≤ x ∧ x < x.floor + 1 := fun x =>
    ⟨Rat.floor_le x, by have := Rat.lt_floor_add_one x; exact_mod_cast this⟩
  constructor
  · intro h
    rw [truncRat, if_pos h]
    exact f q
  · intro h
    by_cases h0 : 0 ≤ q
    · have : q = 0 := Rat.le_antisymm h h0
      subst this
      have e : truncRat 0 = 0 := by decide +kernel
      rw [e]; grind
    · rw [truncRat, if_neg h0]
      have := f (-q)
      push_cast
      constructor <;> grind

/-! ### `str.lower` and `str.upper` on ASCII texts -/

/-- Capital letters become the small letters in the same place of the alphabet; other characters stay. -/
theorem lowerChar_spec (c : Char) :
    (∃ i : Nat, c!"ABCDEFGHIJKLMNOPQRSTUVWXYZ"[i]? = some c ∧ c!"abcdefghijklmnopqrstuvwxyz"[i]? = some (lowerChar c)) ∨
    c ∉ c!"ABCDEFGHIJKLMNOPQRSTUVWXYZ" ∧ lowerChar c = c := by
  unfold lowerChar
  by_cases h : 65 ≤ c.toNat ∧ c.toNat ≤ 90
  · left
    rw [if_pos h]
    obtain ⟨n, hn⟩ : ∃ n, c.toNat = n := ⟨_, rfl⟩
    have hc : c = Char.ofNat n := by rw [← hn]; exact (Char.ofNat_toNat c).symm
    subst hc
    rw [hn] at h ⊢
    obtain ⟨h1, h2⟩ := h
    clear hn
    refine ⟨n - 65, ?_⟩
    interval_cases n <;> decide
  · right
    rw [if_neg h]
    refine ⟨fun hm => h ?_, rfl⟩
    revert hm
    have : ∀ d ∈ c!"ABCDEFGHIJKLMNOPQRSTUVWXYZ", 65 ≤ d.toNat ∧ d.toNat ≤ 90 := by decide
    exact this c

/-- Small letters become the capital letters in the same place of the alphabet; other characters stay. -/
theorem upperChar_spec (c : Char) :
    (∃ i : Nat, c!"abcdefghijklmnopqrstuvwxyz"[i]? = some c ∧ c!"ABCDEFGHIJKLMNOPQRSTUVWXYZ"[i]? = some (upperChar c)) ∨
    c ∉ c!"abcdefghijklmnopqrstuvwxyz" ∧ upperChar c = c := by
  unfold upperChar
  by_cases h : 97 ≤ c.toNat ∧ c.toNat ≤ 122
  · left
    rw [if_pos h]
    obtain ⟨n, hn⟩ : ∃ n, c.toNat = n := ⟨_, rfl⟩
    have hc : c = Char.ofNat n := by rw [← hn]; exact (Char.ofNat_toNat c).symm
    subst hc
    rw [hn] at h ⊢
    obtain ⟨h1, h2⟩ := h
    clear hn
    refine ⟨n - 97, ?_⟩
    interval_cases n <;> decide
  · right
    rw [if_neg h]
    refine ⟨fun hm => h ?_, rfl⟩
    revert hm
    have : ∀ d ∈ c!"abcdefghijklmnopqrstuvwxyz", 97 ≤ d.toNat ∧ d.toNat ≤ 122 := by decide
    exact this c

/-! ### Division of time spans -/

/-- A time span divided by a number is the whole number of microseconds nearest to the quotient; of two that are
equally near it is the even one. -/
theorem divTimedelta_spec (us : Int) {n : Nat} (hn : 0 < n) :
    (∀ k : Int, |us - divTimedelta us n * n| ≤ |us - k * n|) ∧
    ∀ k : Int, k ≠ divTimedelta us n → |us - k * n| = |us - divTimedelta us n * n| → divTimedelta us n % 2 = 0 := by
  obtain ⟨q, hq⟩ : ∃ q, us / (n : Int) = q := ⟨_, rfl⟩
  obtain ⟨r, hr⟩ : ∃ r, us % (n : Int) = r := ⟨_, rfl⟩
  have e : us = n * q + r := by rw [← hq, ← hr]; exact (Int.mul_ediv_add_emod us n).symm
  have hn' : (0 : Int) < n := by exact_mod_cast hn
  have r0 : 0 ≤ r := by rw [← hr]; exact Int.emod_nonneg _ (by omega)
  have r1 : r < n := by rw [← hr]; exact Int.emod_lt_of_pos _ hn'
  have low : ∀ k : Int, k ≤ q → |us - k * n| = r + (q - k) * n ∧ 0 ≤ (q - k) * n := by
    intro k hk
    have h0 : 0 ≤ (q - k) * n := Int.mul_nonneg (by omega) (by omega)
    have : us - k * n = r + (q - k) * n := by rw [e]; ring
    rw [this, abs_of_nonneg (by omega)]
    exact ⟨rfl, h0⟩
  have high : ∀ k : Int, q + 1 ≤ k → |us - k * n| = (n - r) + (k - q - 1) * n ∧ 0 ≤ (k - q - 1) * n := by
    intro k hk
    have h0 : 0 ≤ (k - q - 1) * n := Int.mul_nonneg (by omega) (by omega)
    have : us - k * n = -((n - r) + (k - q - 1) * n) := by rw [e]; ring
    rw [this, abs_neg, abs_of_nonneg (by omega)]
    exact ⟨rfl, h0⟩
  have far : ∀ k : Int, k ≠ 0 → 0 ≤ k → (n : Int) ≤ k * n := fun k h1 h2 => by
    have : (1 : Int) * n ≤ k * n := Int.mul_le_mul_of_nonneg_right (by omega) (by omega)
    omega
  have lq := (low q (by omega)).1
  have hq1 := (high (q + 1) (by omega)).1
  rw [show (q - q) * (n : Int) = 0 by ring] at lq
  rw [show (q + 1 - q - 1) * (n : Int) = 0 by ring] at hq1
  unfold divTimedelta
  dsimp only
  rw [hq, hr]
  by_cases hc : (n : Int) < 2 * r ∨ (2 * r = n ∧ q % 2 = 1)
  · rw [if_pos hc, hq1]
    constructor
    · intro k
      rcases Int.lt_or_le q k with h | h
      · have := high k h; omega
      · have := low k h; omega
    · intro k hk h
      rcases Int.lt_or_le q k with h' | h'
      · have := high k h'
        have := far (k - q - 1) (by omega) (by omega)
        omega
      · have := low k h'
        omega
  · rw [if_neg hc, lq]
    constructor
    · intro k
      rcases Int.lt_or_le q k with h | h
      · have := high k h; omega
      · have := low k h; omega
    · intro k hk h
      rcases Int.lt_or_le q k with h' | h'
      · have := high k h'
        omega
      · have := low k h'
        have := far (q - k) (by omega) (by omega)
        omega

/-! ### Dictionaries -/

/-- What a dictionary holds for a key is the value of its first pair with this key. -/
theorem lookupKey_iff {k : Str} {v : PVal} : ∀ {kvs : List (Str × PVal)}, PVal.lookupKey k kvs = some v ↔
    ∃ a b, kvs = a ++ (k, v) :: b ∧ ∀ kv ∈ a, kv.1 ≠ k
  | [] => by simp [PVal.lookupKey]
  | (k', v') :: rest => by
    rw [PVal.lookupKey]
    by_cases h : k' = k
    · rw [if_pos h]
      subst h
      constructor
      · intro h; cases h; exact ⟨[], rest, rfl, by simp⟩
      · rintro ⟨a, b, h1, h2⟩
        cases a with
        | nil => cases h1; rfl
        | cons x a => cases h1; exact absurd rfl (h2 (k', v') (by simp))
    · rw [if_neg h, lookupKey_iff]
      constructor
      · rintro ⟨a, b, rfl, h2⟩
        exact ⟨(k', v') :: a, b, rfl, by intro kv hkv; rcases List.mem_cons.1 hkv with rfl | h3; exacts [h, h2 _ h3]⟩
      · rintro ⟨a, b, h1, h2⟩
        cases a with
        | nil => cases h1; exact absurd rfl h
        | cons x a => cases h1; exact ⟨a, b, rfl, fun kv hkv => h2 kv (by simp [hkv])⟩
end Xls
