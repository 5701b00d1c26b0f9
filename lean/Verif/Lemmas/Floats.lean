/-
Rounding to binary64 numbers.
-/
import Verif.Model.Floats
import Verif.Spec.Floats
import Verif.Lemmas.Coords
import Mathlib.Tactic.Linarith
import Mathlib.Tactic.FieldSimp
import Mathlib.Tactic.NormNum
import Mathlib.Tactic.Positivity
import Mathlib.Data.Rat.Floor
import Mathlib.Data.Nat.Log

set_option autoImplicit false

namespace Xls

open Spec

theorem pow2_eq (e : Int) : pow2 e = (2 : Rat) ^ e := by
  unfold pow2
  split
  · rename_i h
    obtain ⟨n, rfl⟩ : ∃ n : Nat, e = -n := ⟨(-e).toNat, by omega⟩
    simp [zpow_neg]
  · obtain ⟨n, rfl⟩ : ∃ n : Nat, e = n := ⟨e.toNat, by omega⟩
    simp

theorem pow10_eq (e : Int) : pow10 e = (10 : Rat) ^ e := by
  unfold pow10
  split
  · rename_i h
    obtain ⟨n, rfl⟩ : ∃ n : Nat, e = -n := ⟨(-e).toNat, by omega⟩
    simp [zpow_neg]
  · obtain ⟨n, rfl⟩ : ∃ n : Nat, e = n := ⟨e.toNat, by omega⟩
    simp

theorem lastBit_bounds {q : Rat} (hq : 0 < q) :
    (2 : Rat) ^ 52 ≤ q / pow2 (lastBit q) ∧ q / pow2 (lastBit q) < (2 : Rat) ^ 53 := by
  have hn : q.num.natAbs ≠ 0 := by
    have := Rat.num_pos.2 hq
    omega
  have hnq : (q.num.natAbs : Rat) = q.num := by
    have := Rat.num_pos.2 hq
    rw [← Int.cast_natCast, Int.natCast_natAbs, abs_of_pos this]
  obtain ⟨a, ha⟩ : ∃ a, q.num.natAbs.log2 = a := ⟨_, rfl⟩
  obtain ⟨b, hb⟩ : ∃ b, q.den.log2 = b := ⟨_, rfl⟩
  have a1 : (2 : Rat) ^ a ≤ q.num.natAbs := by
    have := Nat.log2_self_le hn
    rw [ha] at this
    exact_mod_cast this
  have a2 : (q.num.natAbs : Rat) < 2 ^ (a + 1) := by
    have := @Nat.lt_log2_self q.num.natAbs
    rw [ha] at this
    exact_mod_cast this
  have b1 : (2 : Rat) ^ b ≤ q.den := by
    have := Nat.log2_self_le q.den_nz
    rw [hb] at this
    exact_mod_cast this
  have b2 : (q.den : Rat) < 2 ^ (b + 1) := by
    have := @Nat.lt_log2_self q.den
    rw [hb] at this
    exact_mod_cast this
  have hd : (0 : Rat) < q.den := by exact_mod_cast q.den_pos
  have hqd : q = q.num.natAbs / q.den := by rw [hnq]; exact (Rat.num_div_den q).symm
  have e0 : pow2 ((a : Int) - b - 52) = 2 ^ a / 2 ^ b / 2 ^ 52 := by
    rw [pow2_eq, zpow_sub₀ (by norm_num), zpow_sub₀ (by norm_num)]
    norm_cast
  have p1 : (0 : Rat) < 2 ^ a := by positivity
  have p2 : (0 : Rat) < 2 ^ b := by positivity
  obtain ⟨n, hn'⟩ : ∃ n : Rat, (q.num.natAbs : Rat) = n := ⟨_, rfl⟩
  obtain ⟨d, hd'⟩ : ∃ d : Rat, (q.den : Rat) = d := ⟨_, rfl⟩
  rw [hn'] at hqd a1 a2
  rw [hd'] at hqd b1 b2 hd
  rw [pow_succ] at a2 b2
  have q1 : q / pow2 ((a : Int) - b - 52) < 2 ^ 53 := by
    rw [e0, hqd, div_div_eq_mul_div, div_div_eq_mul_div, div_lt_iff₀ p1, div_mul_eq_mul_div, div_mul_eq_mul_div,
      div_lt_iff₀ hd]
    nlinarith
  have q2 : 2 ^ 51 ≤ q / pow2 ((a : Int) - b - 52) := by
    rw [e0, hqd, div_div_eq_mul_div, div_div_eq_mul_div, le_div_iff₀ p1, div_mul_eq_mul_div, div_mul_eq_mul_div,
      le_div_iff₀ hd]
    nlinarith
  unfold lastBit
  rw [ha, hb]
  dsimp only
  split
  · rename_i h
    have e1 : q / pow2 ((a : Int) - b - 52 - 1) = 2 * (q / pow2 ((a : Int) - b - 52)) := by
      rw [pow2_eq, pow2_eq, zpow_sub_one₀ (by norm_num)]
      field_simp
    rw [e1]
    constructor
    · linarith
    · push_cast at h
      linarith
  · rename_i h
    push_cast at h
    exact ⟨not_lt.1 h, q1⟩

theorem roundEven_int (n : Int) : roundEven n = n := by
  unfold roundEven
  simp

theorem roundEven_near (q : Rat) : |(roundEven q : Rat) - q| ≤ 1 / 2 := by
  have h1 : (q.floor : Rat) ≤ q := Int.floor_le q
  have h2 : q < q.floor + 1 := Int.lt_floor_add_one q
  unfold roundEven
  dsimp only
  rw [abs_le]
  split
  · constructor <;> linarith
  · split
    · push_cast
      constructor <;> linarith
    · split
      · constructor <;> linarith
      · push_cast
        constructor <;> linarith

theorem toDouble_neg (q : Rat) : toDouble (-q) = -toDouble q := by
  unfold toDouble
  by_cases h0 : q = 0
  · simp [h0]
  · rw [if_neg (by simpa using h0), if_neg h0]
    by_cases h : q < 0
    · rw [if_neg (by linarith), if_pos h, neg_neg]
    · have : 0 < q := lt_of_le_of_ne (not_lt.1 h) (Ne.symm h0)
      rw [if_pos (by linarith), if_neg h, neg_neg]

theorem toDouble_zero : toDouble 0 = 0 := rfl

theorem toDouble_pos {q : Rat} (hq : 0 < q) :
    toDouble q = roundEven (q / pow2 (lastBit q)) * pow2 (lastBit q) := by
  unfold toDouble
  rw [if_neg hq.ne', if_neg hq.not_gt]

/-- The relative error is at most half of the last bit. -/
theorem toDouble_near (q : Rat) : |toDouble q - q| ≤ |q| / 2 ^ 53 := by
  have main : ∀ q : Rat, 0 < q → |toDouble q - q| ≤ |q| / 2 ^ 53 := by
    intro q hq
    rw [toDouble_pos hq]
    have hp : (0 : Rat) < pow2 (lastBit q) := by rw [pow2_eq]; exact zpow_pos (by norm_num) _
    have hb := (lastBit_bounds hq).1
    have hr := roundEven_near (q / pow2 (lastBit q))
    obtain ⟨p, hp'⟩ : ∃ p, pow2 (lastBit q) = p := ⟨_, rfl⟩
    rw [hp'] at hp hb hr ⊢
    have e : (roundEven (q / p) : Rat) * p - q = (roundEven (q / p) - q / p) * p := by
      field_simp
    rw [e, abs_mul, abs_of_pos hp, abs_of_pos hq]
    rw [le_div_iff₀ hp] at hb
    have : |(roundEven (q / p) : Rat) - q / p| * p ≤ 1 / 2 * p := by
      exact mul_le_mul_of_nonneg_right hr hp.le
    linarith
  rcases lt_trichotomy q 0 with h | h | h
  · have := main (-q) (by linarith)
    rw [toDouble_neg, abs_neg, ← abs_neg] at this
    convert this using 2
    ring
  · subst h
    simp [toDouble_zero]
  · exact main q h

theorem toDouble_exact_pos {m : Nat} (hm : 0 < m) (h : m < 2 ^ 53) (e : Int) :
    toDouble (m * (2 : Rat) ^ e) = m * (2 : Rat) ^ e := by
  have hm' : (0 : Rat) < m := by exact_mod_cast hm
  have hq : (0 : Rat) < m * (2 : Rat) ^ e := mul_pos hm' (zpow_pos (by norm_num) _)
  rw [toDouble_pos hq]
  obtain ⟨l, hl⟩ : ∃ l, lastBit ((m : Rat) * 2 ^ e) = l := ⟨_, rfl⟩
  have hb := (lastBit_bounds hq).1
  rw [hl, pow2_eq] at hb ⊢
  rw [mul_div_assoc, ← zpow_sub₀ (by norm_num)] at hb ⊢
  have hle : 0 ≤ e - l := by
    by_contra hneg
    have h1 : (2 : Rat) ^ (e - l) ≤ 2 ^ (-1 : Int) := zpow_le_zpow_right₀ (by norm_num) (by omega)
    have h2 : (m : Rat) < 9007199254740992 := by
      have : m < 9007199254740992 := h
      exact_mod_cast this
    have h3 : (m : Rat) * 2 ^ (e - l) ≤ m * 2 ^ (-1 : Int) := mul_le_mul_of_nonneg_left h1 hm'.le
    norm_num at h3 hb
    linarith
  obtain ⟨t, ht⟩ : ∃ t : Nat, e - l = t := ⟨(e - l).toNat, by omega⟩
  have e1 : (m : Rat) * 2 ^ (e - l) = ((m * 2 ^ t : Nat) : Int) := by
    rw [ht]
    push_cast
    norm_cast
  rw [e1, roundEven_int, ← e1, mul_assoc, ← zpow_add₀ (by norm_num)]
  congr 2
  omega

theorem toDouble_exact {m : Int} (h : m.natAbs < 2 ^ 53) (e : Int) :
    toDouble (m * (2 : Rat) ^ e) = m * (2 : Rat) ^ e := by
  have main : ∀ n : Nat, n < 2 ^ 53 → toDouble (n * (2 : Rat) ^ e) = n * (2 : Rat) ^ e := by
    intro n hn
    rcases Nat.eq_zero_or_pos n with h0 | h0
    · subst h0
      simp [toDouble_zero]
    · exact toDouble_exact_pos h0 hn e
  obtain ⟨n, rfl | rfl⟩ := Int.eq_nat_or_neg m
  · exact main n (by omega)
  · have := main n (by omega)
    push_cast
    rw [neg_mul, toDouble_neg, this]

/-! ### Numbers of digits -/

theorem natStr_length_bounds (n : Nat) : n < 10 ^ (natStr n).length ∧ ∀ k, 1 ≤ k → n < 10 ^ k → (natStr n).length ≤ k := by
  induction n using Nat.strongRecOn with
  | _ n ih =>
    by_cases h : n < 10
    · rw [natStr_small h]
      exact ⟨by simpa using h, fun k hk _ => hk⟩
    · rw [natStr_big (by omega)]
      obtain ⟨h1, h2⟩ := ih (n / 10) (by omega)
      rw [List.length_append, List.length_singleton]
      constructor
      · rw [pow_succ]
        omega
      · intro k hk hlt
        obtain ⟨k, rfl⟩ : ∃ k', k = k' + 1 := ⟨k - 1, by omega⟩
        rw [pow_succ] at hlt
        have hk0 : 1 ≤ k := by
          rcases Nat.eq_zero_or_pos k with h0 | h0
          · subst h0; simp at hlt; omega
          · exact h0
        have := h2 k hk0 (by omega)
        omega

theorem natStr_length_pos (n : Nat) : 1 ≤ (natStr n).length := by
  have := natStr_ne_nil n
  cases h : natStr n with
  | nil => exact absurd h this
  | cons _ _ => simp

theorem wholePart_int (n : Int) : wholePart n = n := by
  unfold wholePart
  split
  · rw [← Int.cast_neg, Rat.floor_intCast, neg_neg]
  · rw [Rat.floor_intCast]

theorem wholePart_abs (v : Rat) : |v| < (wholePart v).natAbs + 1 ∧ ((wholePart v).natAbs : Rat) ≤ |v| := by
  have main : ∀ w : Rat, 0 ≤ w → w < (w.floor.natAbs : Rat) + 1 ∧ (w.floor.natAbs : Rat) ≤ w := by
    intro w hw
    have h0 : 0 ≤ w.floor := Int.floor_nonneg.2 hw
    have hc : (w.floor.natAbs : Rat) = w.floor := by
      rw [← Int.cast_natCast, Int.natCast_natAbs, abs_of_nonneg h0]
    rw [hc]
    exact ⟨Int.lt_floor_add_one w, Int.floor_le w⟩
  unfold wholePart
  split
  · rename_i h
    rw [abs_of_neg h, Int.natAbs_neg]
    exact main (-v) (by linarith)
  · rename_i h
    rw [abs_of_nonneg (not_lt.1 h)]
    exact main v (not_lt.1 h)

/-- The number of digits that are kept after the point. -/
theorem kept_digits {v : Rat} {n : Nat} (hn : 1 ≤ n) (hv : |v| < 10 ^ n) :
    ∃ d a : Nat, (17 : Int) - (intStr (wholePart v)).length = a ∧ |v| < 10 ^ d ∧ d ≤ n ∧ d + a ≤ 17 ∧
      (n ≤ 15 → 16 - n ≤ a) ∨ 16 < n := by
  by_cases hbig : 16 < n
  · exact ⟨0, 0, .inr hbig⟩
  obtain ⟨h1, h2⟩ := wholePart_abs v
  obtain ⟨t, ht⟩ : ∃ t, (wholePart v).natAbs = t := ⟨_, rfl⟩
  rw [ht] at h1 h2
  obtain ⟨l1, l2⟩ := natStr_length_bounds t
  have hlt : t < 10 ^ n := by
    have : (t : Rat) < 10 ^ n := lt_of_le_of_lt h2 hv
    exact_mod_cast this
  have hd := l2 n hn hlt
  have hp := natStr_length_pos t
  have hlen : (intStr (wholePart v)).length = (natStr t).length ∨
      (intStr (wholePart v)).length = (natStr t).length + 1 := by
    unfold intStr
    rw [ht]
    split
    · right; simp
    · left; rfl
  have hvd : |v| < 10 ^ (natStr t).length := by
    have : (t : Rat) + 1 ≤ 10 ^ (natStr t).length := by exact_mod_cast l1
    linarith
  rcases hlen with h | h
  · exact ⟨(natStr t).length, 17 - (natStr t).length, .inl ⟨by omega, hvd, hd, by omega, fun _ => by omega⟩⟩
  · exact ⟨(natStr t).length, 16 - (natStr t).length, .inl ⟨by omega, hvd, hd, by omega, fun _ => by omega⟩⟩

/-! ### Short numbers are kept -/

theorem five_pow_lt {a : Nat} (h : a ≤ 17) : 5 ^ a < 2 ^ 53 :=
  lt_of_le_of_lt (Nat.pow_le_pow_right (by omega) h) (by norm_num)

theorem ten_pow_eq (a : Nat) : (10 : Rat) ^ a = ((5 ^ a : Nat) : Int) * (2 : Rat) ^ (a : Int) := by
  rw [show (10 : Rat) = 5 * 2 by norm_num, mul_pow]
  push_cast
  rw [zpow_natCast]

theorem short_num {v : Rat} {d j : Nat} {c : Int} (hv : |v| < 10 ^ d) (hc : v * 2 ^ j = c) :
    c.natAbs < 10 ^ d * 2 ^ j := by
  have h1 : (c.natAbs : Rat) = |v| * 2 ^ j := by
    rw [← Int.cast_natCast, Int.natCast_natAbs, Int.cast_abs, ← hc, abs_mul, abs_of_pos (a := (2 : Rat) ^ j) (by positivity)]
  have h2 : (c.natAbs : Rat) < 10 ^ d * 2 ^ j := by
    rw [h1]
    exact mul_lt_mul_of_pos_right hv (by positivity)
  exact_mod_cast h2

theorem short_eq {v : Rat} {j : Nat} {c : Int} (hc : v * 2 ^ j = c) : v = c * (2 : Rat) ^ (-(j : Int)) := by
  rw [← hc, zpow_neg, zpow_natCast]
  field_simp

theorem toDouble_short {v : Rat} {n j : Nat} {c : Int} (hv : |v| < 10 ^ n) (hc : v * 2 ^ j = c) (h : n + j ≤ 13) :
    toDouble v = v := by
  have hlt := short_num hv hc
  rw [short_eq hc]
  refine toDouble_exact ?_ _
  calc c.natAbs < 10 ^ n * 2 ^ j := hlt
    _ ≤ 10 ^ n * 10 ^ j := Nat.mul_le_mul_left _ (Nat.pow_le_pow_left (by omega) _)
    _ = 10 ^ (n + j) := (pow_add ..).symm
    _ ≤ 10 ^ 13 := Nat.pow_le_pow_right (by omega) h
    _ < 2 ^ 53 := by norm_num

theorem truncateTo_short {v : Rat} {d a j : Nat} {c : Int} (hv : |v| < 10 ^ d) (hc : v * 2 ^ j = c)
    (h : d + j ≤ 13) (hda : d + a ≤ 17) (hja : j ≤ a) : truncateTo v a = v := by
  have hlt := short_num hv hc
  have hs : toDouble (pow10 a) = 10 ^ a := by
    rw [pow10_eq, zpow_natCast, ten_pow_eq]
    exact toDouble_exact (by simpa using five_pow_lt (by omega)) _
  have hm : (c * (5 ^ a : Nat)).natAbs < 2 ^ 53 := by
    rw [Int.natAbs_mul, Int.natAbs_natCast]
    calc c.natAbs * 5 ^ a < 10 ^ d * 2 ^ j * 5 ^ a := Nat.mul_lt_mul_of_pos_right hlt (by positivity)
      _ = 5 ^ (d + a) * 2 ^ (d + j) := by
        rw [show (10 : Nat) = 5 * 2 by norm_num, mul_pow, pow_add, pow_add]; ring
      _ ≤ 5 ^ 17 * 2 ^ 13 := Nat.mul_le_mul (Nat.pow_le_pow_right (by omega) hda) (Nat.pow_le_pow_right (by omega) h)
      _ < 2 ^ 53 := by norm_num
  have hprod : 10 ^ a * v = (c * (5 ^ a : Nat) : Int) * (2 : Rat) ^ ((a : Int) - j) := by
    rw [ten_pow_eq, short_eq hc, zpow_sub₀ (by norm_num), zpow_neg]
    push_cast
    field_simp
  have hint : 10 ^ a * v = ((c * (5 ^ a : Nat) * (2 ^ (a - j) : Nat) : Int) : Rat) := by
    rw [hprod, show (a : Int) - j = ((a - j : Nat) : Int) by omega, zpow_natCast]
    push_cast
    rfl
  have hex : toDouble (10 ^ a * v) = 10 ^ a * v := by
    rw [hprod]
    exact toDouble_exact hm _
  unfold truncateTo
  dsimp only
  rw [hs, hex, hint, wholePart_int, ← hint, hex, mul_comm, mul_div_assoc, div_self (by positivity), mul_one]
  exact toDouble_short hv hc h

/-! ### Finding the number of decimals -/

/-- A decimal number with few digits that is read as `v` is `v`. -/
theorem read_as_short {v x : Rat} {n j : Nat} {c m : Int} (hv : |v| < 10 ^ n) (hc : v * 2 ^ j = c) (h : n + j ≤ 13)
    (hx : x * 10 ^ j = m) (hd : toDouble x = v) : x = v := by
  by_contra hne
  have hvj : v * 10 ^ j = ((c * 5 ^ j : Int) : Rat) := by
    push_cast
    rw [← hc, show (10 : Rat) = 2 * 5 by norm_num, mul_pow]
    ring
  have hnear := toDouble_near x
  rw [hd] at hnear
  have hpos : (0 : Rat) < 10 ^ j := by positivity
  have h1 : (1 : Rat) ≤ |v - x| * 10 ^ j := by
    have e : |v - x| * 10 ^ j = ((|c * 5 ^ j - m| : Int) : Rat) := by
      rw [← abs_of_pos hpos, ← abs_mul, sub_mul, hvj, hx]
      push_cast
      rfl
    rw [e]
    have : c * 5 ^ j - m ≠ 0 := by
      intro h0
      apply hne
      have : v * 10 ^ j = x * 10 ^ j := by rw [hvj, hx, sub_eq_zero.1 h0]
      exact (mul_right_cancel₀ hpos.ne' this).symm
    exact_mod_cast Int.one_le_abs this
  have h2 : |x| ≤ 2 * |v| := by
    have t : |x| ≤ |v - x| + |v| := by
      have := abs_sub_abs_le_abs_sub x v
      rw [abs_sub_comm x v] at this
      linarith
    norm_num at hnear
    linarith [abs_nonneg x]
  have h3 : |v - x| * 10 ^ j ≤ 2 * 10 ^ n / 2 ^ 53 * 10 ^ j := by
    refine mul_le_mul_of_nonneg_right ?_ hpos.le
    calc |v - x| ≤ |x| / 2 ^ 53 := hnear
      _ ≤ 2 * 10 ^ n / 2 ^ 53 := by
        refine div_le_div_of_nonneg_right ?_ (by positivity)
        linarith
  have h4 : (10 : Rat) ^ n * 10 ^ j ≤ 10 ^ 13 := by
    rw [← pow_add]
    exact pow_le_pow_right₀ (by norm_num) h
  have h5 : 2 * (10 : Rat) ^ n / 2 ^ 53 * 10 ^ j = (10 ^ n * 10 ^ j) * (2 / 2 ^ 53) := by ring
  rw [h5] at h3
  have h6 : (10 : Rat) ^ n * 10 ^ j * (2 / 2 ^ 53) ≤ 10 ^ 13 * (2 / 2 ^ 53) :=
    mul_le_mul_of_nonneg_right h4 (by positivity)
  norm_num at h6 h3 h1
  linarith

theorem lastPlace_eq (x : Rat) (k : Int) : ∀ (fuel i : Nat), i < fuel → hasMultiple x k = true →
    (∀ t : Nat, t < i → hasMultiple x (k + i - t) = false) → lastPlace x fuel (k + i) = k
  | 0, i, h, _, _ => by omega
  | fuel + 1, 0, _, hk, _ => by
    rw [lastPlace]
    simp [hk]
  | fuel + 1, i + 1, hi, hk, hn => by
    rw [lastPlace]
    have h0 := hn 0 (by omega)
    rw [show k + ((i + 1 : Nat) : Int) - ((0 : Nat) : Int) = k + ((i + 1 : Nat) : Int) by omega] at h0
    rw [h0]
    simp only [Bool.false_eq_true, if_false]
    rw [show k + ((i + 1 : Nat) : Int) - 1 = k + (i : Int) by omega]
    refine lastPlace_eq x k fuel i (by omega) hk fun t ht => ?_
    have := hn (t + 1) (by omega)
    rwa [show k + ((i + 1 : Nat) : Int) - ((t + 1 : Nat) : Int) = k + (i : Int) - t by omega] at this

theorem lastPlace_ge (x : Rat) (k : Int) (hk : hasMultiple x k = true) : ∀ (fuel i : Nat), i < fuel →
    k ≤ lastPlace x fuel (k + i)
  | 0, i, h => by omega
  | fuel + 1, 0, _ => by
    rw [lastPlace]
    simp [hk]
  | fuel + 1, i + 1, hi => by
    rw [lastPlace]
    split
    · omega
    · rw [show k + ((i + 1 : Nat) : Int) - 1 = k + (i : Int) by omega]
      exact lastPlace_ge x k hk fuel i (by omega)

theorem shownExponent_short {v : Rat} {n j k : Nat} {c : Int} (hn : 1 ≤ n) (hv : |v| < 10 ^ n) (hc : v * 2 ^ j = c)
    (h : n + j ≤ 13) (hk : Decimals v k) : max 0 (-shownExponent v) = k := by
  obtain ⟨⟨m, hm⟩, hmin⟩ := hk
  have hkj : k ≤ j := by
    by_contra hlt
    refine hmin j (by omega) ⟨c * 5 ^ j, ?_⟩
    push_cast
    rw [← hc, show (10 : Rat) = 2 * 5 by norm_num, mul_pow]
    ring
  have hyes : hasMultiple v (-(k : Int)) = true := by
    unfold hasMultiple
    dsimp only
    have e : v / pow10 (-(k : Int)) = m := by
      rw [pow10_eq, zpow_neg, zpow_natCast, div_inv_eq_mul, hm]
    have e2 : (m : Rat) * pow10 (-(k : Int)) = v := by
      rw [← hm, pow10_eq, zpow_neg, zpow_natCast]
      field_simp
    rw [e, Rat.floor_intCast, e2, toDouble_short hv hc h]
    simp
  -- no place before the last one
  have hno : ∀ (kk : Int), -(k : Int) < kk → 0 < k → hasMultiple v kk = false := by
    intro kk hlt hk0
    have main : ∀ mm : Int, toDouble (mm * pow10 kk) ≠ v := by
      intro mm hd
      by_cases hneg : kk < 0
      · obtain ⟨k', rfl⟩ : ∃ k' : Nat, kk = -k' := ⟨(-kk).toNat, by omega⟩
        have hx : (mm : Rat) * pow10 (-(k' : Int)) * 10 ^ j = ((mm * 10 ^ (j - k') : Int) : Rat) := by
          rw [pow10_eq, zpow_neg, zpow_natCast]
          push_cast
          rw [show j = (j - k') + k' by omega, pow_add, show j - k' + k' - k' = j - k' by omega]
          field_simp
        have := read_as_short hv hc h hx hd
        refine hmin k' (by omega) ⟨mm, ?_⟩
        rw [← this, pow10_eq, zpow_neg, zpow_natCast]
        field_simp
      · obtain ⟨k', rfl⟩ : ∃ k' : Nat, kk = k' := ⟨kk.toNat, by omega⟩
        have hx : (mm : Rat) * pow10 (k' : Int) * 10 ^ j = ((mm * 10 ^ k' * 10 ^ j : Int) : Rat) := by
          rw [pow10_eq, zpow_natCast]
          push_cast
          rfl
        have := read_as_short hv hc h hx hd
        refine hmin 0 hk0 ⟨mm * 10 ^ k', ?_⟩
        rw [← this, pow10_eq, zpow_natCast]
        push_cast
        ring
    unfold hasMultiple
    dsimp only
    have m1 := main (v / pow10 kk).floor
    have m2 := main ((v / pow10 kk).floor + 1)
    push_cast at m2
    simp [m1, m2]
  unfold shownExponent
  by_cases h0 : v = 0
  · rw [if_pos h0]
    have : k = 0 := by
      by_contra hk0
      exact hmin 0 (by omega) ⟨0, by simp [h0]⟩
    simp [this]
  · rw [if_neg h0]
    obtain ⟨l, hl⟩ : ∃ l, (intStr (wholePart v)).length = l := ⟨_, rfl⟩
    have hle : l ≤ 16 := by
      obtain ⟨d, a, ⟨h1, _⟩ | h1⟩ := kept_digits hn hv
      · omega
      · omega
    rw [hl]
    by_cases hk0 : 0 < k
    · have := lastPlace_eq v (-(k : Int)) 400 (l + k) (by omega) hyes
        (fun t ht => hno _ (by push_cast; omega) hk0)
      rw [show -(k : Int) + ((l + k : Nat) : Int) = l by push_cast; omega] at this
      rw [this]
      omega
    · have hk0' : k = 0 := by omega
      subst hk0'
      have := lastPlace_ge v 0 (by simpa using hyes) 400 l (by omega)
      rw [show (0 : Int) + (l : Int) = l by omega] at this
      simp only [Nat.cast_zero]
      omega

/-- `infer_decimals` of a short number. -/
theorem inferDecimals_short {v : Rat} (hv : Short v) {k : Nat} (hk : Decimals v k) :
    max 0 (-inferDecimals v) = k := by
  obtain ⟨n, j, hn, h, hlt, c, hc⟩ := hv
  obtain ⟨d, a, ⟨h1, h2, h3, h4, h5⟩ | h1⟩ := kept_digits hn hlt
  · unfold inferDecimals
    rw [h1, truncateTo_short h2 hc (by omega) h4 (by have := h5 (by omega); omega)]
    exact shownExponent_short hn hlt hc h hk
  · omega

theorem decimals_exist {v : Rat} (hv : Short v) : ∃ k, Decimals v k := by
  classical
  obtain ⟨n, j, hn, h, hlt, c, hc⟩ := hv
  have hex : ∃ k : Nat, ∃ m : Int, v * 10 ^ k = m := by
    refine ⟨j, c * 5 ^ j, ?_⟩
    push_cast
    rw [← hc, show (10 : Rat) = 2 * 5 by norm_num, mul_pow]
    ring
  exact ⟨Nat.find hex, Nat.find_spec hex, fun k' hk' => Nat.find_min hex hk'⟩

end Xls
