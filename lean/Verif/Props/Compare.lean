/-
Properties C67, C68 and C73: comparison of numbers and of data frames, guess of a frequency.
-/
import Verif.Spec.Compare
import Mathlib.Tactic.Linarith
import Mathlib.Tactic.Ring
import Mathlib.Tactic.Tauto
import Mathlib.Tactic.NormNum
import Mathlib.Tactic.FieldSimp
import Mathlib.Tactic.Positivity
import Mathlib.Algebra.Order.Field.Rat

set_option autoImplicit false

namespace Xls

open Spec

theorem absRat_eq (x : Rat) : absRat x = |x| := by
  unfold absRat
  split
  next h => rw [abs_of_nonneg h]
  next h => rw [abs_of_neg (not_le.1 h)]

theorem Spec.IsNumber.asNum {c : Cell} {a : Rat} (h : IsNumber c a) : c.asNum = some (.fin a) := by
  cases h <;> rfl

theorem Spec.IsNumber.truthy {c : Cell} {a : Rat} (h : IsNumber c a) : c.truthy = decide (a ≠ 0) := by
  cases h with
  | int i =>
    unfold Cell.truthy
    by_cases h : i = 0 <;> simp [h]
  | float => unfold Cell.truthy; by_cases h : a = 0 <;> simp [h]
  | true => rfl
  | false => rfl

theorem Spec.IsNumber.eqPy {ca cb : Cell} {a b : Rat} (ha : IsNumber ca a) (hb : IsNumber cb b) :
    ca.eqPy cb = decide (a = b) := by
  unfold Cell.eqPy
  rw [ha.asNum, hb.asNum]
  by_cases h : a = b <;> simp [h]

/-- `approx_equal` of two numbers, all cases. -/
theorem approxEqual_numbers {ca cb : Cell} {a b : Rat} (ha : IsNumber ca a) (hb : IsNumber cb b)
    (tol : Rat) :
    approxEqual ca cb tol =
      if a = b then .ok true
      else if a = 0 ∨ b = 0 then .error .notImplementedError
      else .ok (decide (|a - b| ≤ tol * a)) := by
  unfold approxEqual
  rw [ha.eqPy hb]
  by_cases h : a = b
  · simp [h]
  · have hn : isNan ca = .ok false := by unfold isNan; rw [ha.asNum]
    have hs : ∀ s, ca ≠ .str s := by intro s hs; subst hs; cases ha
    simp only [h, decide_false, Bool.false_eq_true, if_false]
    split
    · next s _ => exact absurd rfl (hs s)
    · rw [ha.truthy, hb.truthy, hn]
      unfold approxNumbers
      rw [ha.asNum, hb.asNum]
      dsimp only
      rw [absRat_eq]
      by_cases h0 : a = 0 <;> by_cases h1 : b = 0
      · rw [h0, h1] at h; exact absurd rfl h
      · simp [h0, h1]
      · simp [h0, h1]
      · simp [h0, h1]

/-! ### C67 -/

/-- C67. A number is approximately equal to itself, a NaN too. -/
theorem C67_reflexive (c : Cell) (tol : Rat) (h : (∃ a, IsNumber c a) ∨ c = .float .nan) :
    approxEqual c c tol = .ok true := by
  rcases h with ⟨a, ha⟩ | rfl
  · rw [approxEqual_numbers ha ha, if_pos rfl]
  · rfl

/-- C67. For a positive first number and a second number that is not zero it is the test of the
documentation. Missing: negative numbers and zero (`C67_negative_violated`, `C67_zero_violated`). -/
theorem C67_tolerance_partial {ca cb : Cell} {a b : Rat} (ha : IsNumber ca a) (hb : IsNumber cb b)
    {tol : Rat} (htol : 0 ≤ tol) (hpos : 0 < a) (hb0 : b ≠ 0) :
    (approxEqual ca cb tol = .ok true ↔ |a - b| ≤ tol * |a|) ∧
    (approxEqual ca cb tol = .ok false ↔ ¬ |a - b| ≤ tol * |a|) := by
  rw [approxEqual_numbers ha hb, abs_of_pos hpos]
  by_cases h : a = b
  · subst h
    have : 0 ≤ tol * a := by positivity
    simp [this]
  · have h0 : ¬ (a = 0 ∨ b = 0) := by
      rintro (h | h)
      · rw [h] at hpos; exact lt_irrefl _ hpos
      · exact hb0 h
    rw [if_neg h, if_neg h0]
    constructor <;> simp

example : approxEqual (.int 1000) (.float (.fin 1001)) (1 / 1000) = .ok true :=
  (C67_tolerance_partial (.int 1000) (.float 1001) (by norm_num) (by norm_num) (by norm_num)).1.2
    (by norm_num [abs_of_neg])

/-- C67, violated: a negative number is approximately equal only to itself, whatever the tolerance. -/
theorem C67_negative_violated {ca cb : Cell} {a b : Rat} (ha : IsNumber ca a) (hb : IsNumber cb b)
    {tol : Rat} (htol : 0 ≤ tol) (hneg : a < 0) (hb0 : b ≠ 0) :
    approxEqual ca cb tol = .ok (decide (a = b)) := by
  rw [approxEqual_numbers ha hb]
  by_cases h : a = b
  · simp [h]
  · have h0 : ¬ (a = 0 ∨ b = 0) := by
      rintro (h | h)
      · rw [h] at hneg; exact lt_irrefl _ hneg
      · exact hb0 h
    rw [if_neg h, if_neg h0]
    have h1 : 0 < |a - b| := abs_pos.2 (sub_ne_zero.2 h)
    have h2 : tol * a ≤ 0 := mul_nonpos_of_nonneg_of_nonpos htol hneg.le
    simp [h, not_le.2 (lt_of_le_of_lt h2 h1)]

example : approxEqual (.int (-1000)) (.int (-1001)) (1 / 2) = .ok false :=
  C67_negative_violated (.int _) (.int _) (by norm_num) (by norm_num) (by norm_num)

/-- C67, violated: comparing zero with another number raises. -/
theorem C67_zero_violated {ca cb : Cell} {b : Rat} (ha : IsNumber ca 0) (hb : IsNumber cb b)
    (tol : Rat) (hb0 : b ≠ 0) :
    approxEqual ca cb tol = .error .notImplementedError ∧
    approxEqual cb ca tol = .error .notImplementedError := by
  rw [approxEqual_numbers ha hb, approxEqual_numbers hb ha]
  simp [hb0, Ne.symm hb0]

example : approxEqual (.float (.fin 0)) (.float (.fin (1 / 1000000))) 1 = .error .notImplementedError :=
  (C67_zero_violated (.float 0) (.float _) 1 (by norm_num)).1

/-- C67, violated: the test is not symmetric. -/
theorem C67_symmetry_violated :
    approxEqual (.int 10) (.int 9) (1 / 10) = .ok true ∧
    approxEqual (.int 9) (.int 10) (1 / 10) = .ok false :=
  ⟨(C67_tolerance_partial (.int 10) (.int 9) (by norm_num) (by norm_num) (by norm_num)).1.2
      (by norm_num),
   (C67_tolerance_partial (.int 9) (.int 10) (by norm_num) (by norm_num) (by norm_num)).2.2
      (by norm_num [abs_of_neg])⟩

/-- C67. For positive numbers it is symmetric up to a slightly larger tolerance. -/
theorem C67_nearly_symmetric {ca cb : Cell} {a b : Rat} (ha : IsNumber ca a) (hb : IsNumber cb b)
    {tol : Rat} (htol : 0 ≤ tol) (htol1 : tol < 1) (hpa : 0 < a) (hpb : 0 < b)
    (h : approxEqual ca cb tol = .ok true) : approxEqual cb ca (tol / (1 - tol)) = .ok true := by
  have h1 := (C67_tolerance_partial ha hb htol hpa hpb.ne').1.1 h
  rw [abs_of_pos hpa] at h1
  have hd : 0 < 1 - tol := by linarith
  refine (C67_tolerance_partial hb ha (div_nonneg htol hd.le) hpb hpa.ne').1.2 ?_
  rw [abs_of_pos hpb, abs_sub_comm]
  have h2 : a - b ≤ tol * a := le_trans (le_abs_self _) h1
  have h3 : a * (1 - tol) ≤ b := by linarith
  have h4 : a ≤ b / (1 - tol) := by rw [le_div_iff₀ hd]; exact h3
  calc |a - b| ≤ tol * a := h1
    _ ≤ tol * (b / (1 - tol)) := mul_le_mul_of_nonneg_left h4 htol
    _ = tol / (1 - tol) * b := by ring

/-! ### C73 -/

theorem inferFreqFrom_none {c : Cell} {x tol : Rat} (hc : IsNumber c x) (hx : x ≠ 0) :
    ∀ {l : List (Int × Option Str)}, (∀ p ∈ l, (0 : Rat) < (p.1 : Rat) ∧ ¬ |(p.1 : Rat) - x| ≤ tol * p.1) →
    0 ≤ tol → inferFreqFrom c tol l = .error .exception
  | [], _, _ => rfl
  | (n, name) :: l, h, ht => by
    obtain ⟨h1, h2⟩ := h (n, name) (by simp)
    unfold inferFreqFrom
    have := (C67_tolerance_partial (.int n) hc ht h1 hx).2.2 (by rw [abs_of_pos h1]; exact h2)
    rw [this]
    exact inferFreqFrom_none hc hx (fun p hp => h p (List.mem_cons_of_mem _ hp)) ht

theorem inferFreqFrom_cons {c : Cell} {x tol : Rat} (hc : IsNumber c x) (hx : x ≠ 0) {n : Int}
    {name : Option Str} {l : List (Int × Option Str)} (hn : (0 : Rat) < n) (ht : 0 ≤ tol) :
    inferFreqFrom c tol ((n, name) :: l) =
      if |(n : Rat) - x| ≤ tol * n then (match name with | some f => .ok f | none => .error .exception)
      else inferFreqFrom c tol l := by
  rw [inferFreqFrom.eq_def]
  dsimp only
  have h := C67_tolerance_partial (.int n) hc ht hn hx
  rw [abs_of_pos hn] at h
  by_cases h1 : |(n : Rat) - x| ≤ tol * n
  · rw [h.1.2 h1, if_pos h1]
    cases name <;> rfl
  · rw [h.2.2 h1, if_neg h1]

/-- C73. A spacing has a frequency exactly when it is within 10% of the nominal number of seconds. -/
theorem C73_classified {c : Cell} {x : Rat} (hc : IsNumber c x) (hx : x ≠ 0) (f : Str) :
    inferFreq c = .ok f ↔ ∃ n, (f, n) ∈ namedSpacings ∧ |n - x| ≤ n / 10 := by
  unfold inferFreq freqTests
  have key : ∀ n : Int, (|(n : Rat) - x| ≤ 1 / 10 * n) ↔ (9 / 10 * n ≤ x ∧ x ≤ 11 / 10 * (n : Rat)) := by
    intro n
    rw [abs_le]
    constructor
    · rintro ⟨h1, h2⟩; constructor <;> linarith
    · rintro ⟨h1, h2⟩; constructor <;> linarith
  have key2 : ∀ n : Rat, (|n - x| ≤ n / 10) ↔ (9 / 10 * n ≤ x ∧ x ≤ 11 / 10 * n) := by
    intro n
    rw [abs_le]
    constructor
    · rintro ⟨h1, h2⟩; constructor <;> linarith
    · rintro ⟨h1, h2⟩; constructor <;> linarith
  have ht : (0 : Rat) ≤ 1 / 10 := by norm_num
  rw [inferFreqFrom_cons hc hx (by norm_num) ht, inferFreqFrom_cons hc hx (by norm_num) ht,
    inferFreqFrom_cons hc hx (by norm_num) ht, inferFreqFrom_cons hc hx (by norm_num) ht,
    inferFreqFrom_cons hc hx (by norm_num) ht, inferFreqFrom_cons hc hx (by norm_num) ht,
    inferFreqFrom_cons hc hx (by norm_num) ht, inferFreqFrom_cons hc hx (by norm_num) ht,
    inferFreqFrom_cons hc hx (by norm_num) ht]
  simp only [key, key2, namedSpacings, List.mem_cons, List.not_mem_nil, or_false, Prod.mk.injEq,
    inferFreqFrom]
  push_cast
  constructor
  · intro h
    by_cases h1 : 9 / 10 * 1 ≤ x ∧ x ≤ 11 / 10 * (1 : Rat)
    · rw [if_pos h1] at h; cases h; exact ⟨1, by simp, h1⟩
    rw [if_neg h1] at h
    by_cases h2 : 9 / 10 * 60 ≤ x ∧ x ≤ 11 / 10 * (60 : Rat)
    · rw [if_pos h2] at h; cases h; exact ⟨60, by simp, h2⟩
    rw [if_neg h2] at h
    by_cases h3 : 9 / 10 * 3600 ≤ x ∧ x ≤ 11 / 10 * (3600 : Rat)
    · rw [if_pos h3] at h; cases h; exact ⟨60 * 60, by simp, by constructor <;> linarith [h3.1, h3.2]⟩
    rw [if_neg h3] at h
    by_cases h4 : 9 / 10 * 86400 ≤ x ∧ x ≤ 11 / 10 * (86400 : Rat)
    · rw [if_pos h4] at h; cases h
      exact ⟨24 * 60 * 60, by simp, by constructor <;> linarith [h4.1, h4.2]⟩
    rw [if_neg h4] at h
    by_cases h5 : 9 / 10 * 604800 ≤ x ∧ x ≤ 11 / 10 * (604800 : Rat)
    · rw [if_pos h5] at h; cases h
      exact ⟨7 * 24 * 60 * 60, by simp, by constructor <;> linarith [h5.1, h5.2]⟩
    rw [if_neg h5] at h
    by_cases h6 : 9 / 10 * 2419200 ≤ x ∧ x ≤ 11 / 10 * (2419200 : Rat)
    · rw [if_pos h6] at h; cases h
      exact ⟨28 * 24 * 60 * 60, by simp, by constructor <;> linarith [h6.1, h6.2]⟩
    rw [if_neg h6] at h
    by_cases h7 : 9 / 10 * 7776000 ≤ x ∧ x ≤ 11 / 10 * (7776000 : Rat)
    · rw [if_pos h7] at h; cases h
      exact ⟨90 * 24 * 60 * 60, by simp, by constructor <;> linarith [h7.1, h7.2]⟩
    rw [if_neg h7] at h
    by_cases h8 : 9 / 10 * 15552000 ≤ x ∧ x ≤ 11 / 10 * (15552000 : Rat)
    · rw [if_pos h8] at h; cases h
    rw [if_neg h8] at h
    by_cases h9 : 9 / 10 * 31536000 ≤ x ∧ x ≤ 11 / 10 * (31536000 : Rat)
    · rw [if_pos h9] at h; cases h
      exact ⟨365 * 24 * 60 * 60, by simp, by constructor <;> linarith [h9.1, h9.2]⟩
    rw [if_neg h9] at h
    cases h
  · rintro ⟨n, hn, hl, hu⟩
    rcases hn with ⟨rfl, rfl⟩ | ⟨rfl, rfl⟩ | ⟨rfl, rfl⟩ | ⟨rfl, rfl⟩ | ⟨rfl, rfl⟩ | ⟨rfl, rfl⟩ |
      ⟨rfl, rfl⟩ | ⟨rfl, rfl⟩
    · rw [if_pos (by constructor <;> linarith)]
    · iterate 1 rw [if_neg (by rintro ⟨h1, h2⟩; linarith)]
      rw [if_pos (by constructor <;> linarith)]
    · iterate 2 rw [if_neg (by rintro ⟨h1, h2⟩; linarith)]
      rw [if_pos (by constructor <;> linarith)]
    · iterate 3 rw [if_neg (by rintro ⟨h1, h2⟩; linarith)]
      rw [if_pos (by constructor <;> linarith)]
    · iterate 4 rw [if_neg (by rintro ⟨h1, h2⟩; linarith)]
      rw [if_pos (by constructor <;> linarith)]
    · iterate 5 rw [if_neg (by rintro ⟨h1, h2⟩; linarith)]
      rw [if_pos (by constructor <;> linarith)]
    · iterate 6 rw [if_neg (by rintro ⟨h1, h2⟩; linarith)]
      rw [if_pos (by constructor <;> linarith)]
    · iterate 8 rw [if_neg (by rintro ⟨h1, h2⟩; linarith)]
      rw [if_pos (by constructor <;> linarith)]

/-- C73. A spacing has at most one frequency. -/
theorem C73_unambiguous (x : Rat) (f g : Str) (m n : Rat) (hf : (f, m) ∈ namedSpacings)
    (hg : (g, n) ∈ namedSpacings) (hm : |m - x| ≤ m / 10) (hn : |n - x| ≤ n / 10) : f = g ∧ m = n := by
  rw [abs_le] at hm hn
  obtain ⟨m1, m2⟩ := hm
  obtain ⟨n1, n2⟩ := hn
  simp only [namedSpacings, List.mem_cons, List.not_mem_nil, or_false, Prod.mk.injEq] at hf hg
  rcases hf with ⟨rfl, rfl⟩ | ⟨rfl, rfl⟩ | ⟨rfl, rfl⟩ | ⟨rfl, rfl⟩ | ⟨rfl, rfl⟩ | ⟨rfl, rfl⟩ |
      ⟨rfl, rfl⟩ | ⟨rfl, rfl⟩ <;>
    rcases hg with ⟨rfl, rfl⟩ | ⟨rfl, rfl⟩ | ⟨rfl, rfl⟩ | ⟨rfl, rfl⟩ | ⟨rfl, rfl⟩ | ⟨rfl, rfl⟩ |
      ⟨rfl, rfl⟩ | ⟨rfl, rfl⟩ <;>
    first | exact ⟨rfl, rfl⟩ | (exfalso; linarith)

/-- C73. Any other spacing raises: a plain exception, also for semesters (half of 360 days); zero is
refused by the comparison. -/
theorem C73_refused {c : Cell} {x : Rat} (hc : IsNumber c x)
    (h : ¬ ∃ f n, (f, n) ∈ namedSpacings ∧ |n - x| ≤ n / 10) :
    inferFreq c = .error (if x = 0 then .notImplementedError else .exception) := by
  by_cases hx : x = 0
  · subst hx
    unfold inferFreq freqTests
    rw [inferFreqFrom, (C67_zero_violated (cb := .int 1) hc (.int 1) (1 / 10) (by norm_num)).2]
    rfl
  · rw [if_neg hx]
    cases hr : inferFreq c with
    | ok f =>
      obtain ⟨n, h1, h2⟩ := (C73_classified hc hx f).1 hr
      exact absurd ⟨f, n, h1, h2⟩ h
    | error e =>
      unfold inferFreq freqTests at hr
      have ht : (0 : Rat) ≤ 1 / 10 := by norm_num
      rw [inferFreqFrom_cons hc hx (by norm_num) ht, inferFreqFrom_cons hc hx (by norm_num) ht,
        inferFreqFrom_cons hc hx (by norm_num) ht, inferFreqFrom_cons hc hx (by norm_num) ht,
        inferFreqFrom_cons hc hx (by norm_num) ht, inferFreqFrom_cons hc hx (by norm_num) ht,
        inferFreqFrom_cons hc hx (by norm_num) ht, inferFreqFrom_cons hc hx (by norm_num) ht,
        inferFreqFrom_cons hc hx (by norm_num) ht, inferFreqFrom] at hr
      repeat' (split at hr)
      all_goals first | (cases hr; rfl) | cases hr

/-- C73. Half a year is a spacing that is refused, months and quarters are not. -/
example : inferFreq (.int (182 * 86400)) = .error .exception ∧ inferFreq (.int (30 * 86400)) = .ok c!"MS" ∧
    inferFreq (.int (91 * 86400)) = .ok c!"QS" := by
  refine ⟨?_, ?_, ?_⟩
  · refine (C73_refused (.int _) ?_).trans (congrArg _ (if_neg (by norm_num)))
    rintro ⟨f, n, h, hl⟩
    rw [abs_le] at hl
    obtain ⟨h1, h2⟩ := hl
    simp only [namedSpacings, List.mem_cons, List.not_mem_nil, or_false, Prod.mk.injEq] at h
    push_cast at h1 h2
    rcases h with ⟨rfl, rfl⟩ | ⟨rfl, rfl⟩ | ⟨rfl, rfl⟩ | ⟨rfl, rfl⟩ | ⟨rfl, rfl⟩ | ⟨rfl, rfl⟩ |
      ⟨rfl, rfl⟩ | ⟨rfl, rfl⟩ <;> linarith
  · exact (C73_classified (.int _) (by norm_num) _).2
      ⟨28 * 24 * 60 * 60, by simp [namedSpacings], by norm_num [abs_of_neg, abs_of_pos]⟩
  · exact (C73_classified (.int _) (by norm_num) _).2
      ⟨90 * 24 * 60 * 60, by simp [namedSpacings], by norm_num [abs_of_neg, abs_of_pos]⟩

/-! ### C68 -/

theorem approxEqual_floats (a b : Num) :
    approxEqual (.float a) (.float b) (1 / 10000) = .ok true ↔ CloseNum a b := by
  cases a with
  | nan =>
    cases b with
    | nan => exact ⟨fun _ => trivial, fun _ => rfl⟩
    | fin b =>
      by_cases hb : b = 0
      · subst hb
        exact ⟨(fun h => by cases h), (fun h => h.elim)⟩
      · have : approxEqual (.float .nan) (.float (.fin b)) (1 / 10000) = .ok false := by
          simp [approxEqual, Cell.eqPy, Cell.asNum, Cell.truthy, isNan, approxNumbers, hb]
        rw [this]
        exact ⟨(fun h => by cases h), (fun h => h.elim)⟩
  | fin a =>
    cases b with
    | nan =>
      by_cases ha : a = 0
      · subst ha
        exact ⟨(fun h => by cases h), (fun h => h.elim)⟩
      · have : approxEqual (.float (.fin a)) (.float .nan) (1 / 10000) = .ok false := by
          simp [approxEqual, Cell.eqPy, Cell.asNum, Cell.truthy, isNan, approxNumbers, ha]
        rw [this]
        exact ⟨(fun h => by cases h), (fun h => h.elim)⟩
    | fin b =>
      rw [approxEqual_numbers (.float a) (.float b)]
      unfold CloseNum
      by_cases h : a = b
      · simp [h]
      · rw [if_neg h]
        by_cases h0 : a = 0 ∨ b = 0
        · rw [if_pos h0]
          constructor
          · intro h; cases h
          · rintro (h1 | ⟨h1, h2, _⟩)
            · exact absurd h1 h
            · rcases h0 with h0 | h0
              · rw [h0] at h1; exact absurd h1 (lt_irrefl _)
              · exact absurd h0 h2
        · rw [if_neg h0]
          rw [not_or] at h0
          have hpos : 0 < |a - b| := abs_pos.2 (sub_ne_zero.2 h)
          simp only [Except.ok.injEq, decide_eq_true_eq, h, false_or]
          constructor
          · intro h1
            refine ⟨?_, h0.2, by linarith⟩
            have : 0 < 1 / 10000 * a := lt_of_lt_of_le hpos h1
            linarith
          · rintro ⟨_, _, h1⟩
            linarith

theorem closePairs_true : ∀ {xs ys : List Num}, xs.length = ys.length →
    (closePairs (xs.zip ys) = .ok true ↔ List.Forall₂ CloseNum xs ys)
  | [], [], _ => by simp [closePairs]
  | x :: xs, y :: ys, h => by
    rw [List.zip_cons_cons, closePairs.eq_def, List.forall₂_cons, ← approxEqual_floats,
      ← closePairs_true (by simpa using h)]
    dsimp only
    cases approxEqual (.float x) (.float y) (1 / 10000) with
    | error e => simp
    | ok b => cases b <;> simp

theorem checkValues_true {f g : Frame} : ∀ {cols : List Str},
    checkValues f g cols = .ok true ↔
      ∀ col ∈ cols, closePairs ((f.column col).zip (g.column col)) = .ok true
  | [] => by simp [checkValues]
  | col :: cols => by
    rw [checkValues.eq_def, List.forall_mem_cons, ← checkValues_true (cols := cols)]
    dsimp only
    cases closePairs ((f.column col).zip (g.column col)) with
    | error e => simp
    | ok b =>
      cases checkValues f g cols with
      | error e => simp
      | ok r => cases b <;> cases r <;> simp

theorem find_zip : ∀ {cs : List Str} {ds : List (List Num)} {i : Nat} {c : Str} {d : List Num},
    cs.Nodup → cs[i]? = some c → ds[i]? = some d →
    (cs.zip ds).find? (fun cd => cd.1 = c) = some (c, d)
  | [], _, _, _, _, _, h, _ => by simp at h
  | _ :: _, [], _, _, _, _, _, h => by simp at h
  | c' :: cs, d' :: ds, 0, c, d, _, h1, h2 => by
    simp at h1 h2
    subst h1
    subst h2
    simp
  | c' :: cs, d' :: ds, i + 1, c, d, hn, h1, h2 => by
    rw [List.nodup_cons] at hn
    rw [List.getElem?_cons_succ] at h1 h2
    rw [List.zip_cons_cons, List.find?_cons_of_neg]
    · exact find_zip hn.2 h1 h2
    · have := List.mem_of_getElem? h1
      intro he
      rw [decide_eq_true_eq] at he
      dsimp only at he
      rw [he] at hn
      exact hn.1 this

theorem column_of_hasValues {f : Frame} (hf : ProperFrame f) {col : Str} {xs : List Num}
    (h : HasValues f col xs) : f.column col = xs := by
  obtain ⟨i, h1, h2⟩ := h
  unfold Frame.column
  rw [find_zip hf.nodup h1 h2]
  rfl

theorem hasValues_column {f : Frame} (hf : ProperFrame f) {col : Str} (h : col ∈ f.columns) :
    HasValues f col (f.column col) ∧ (f.column col).length = f.index.length := by
  obtain ⟨i, hi, hc⟩ := List.mem_iff_getElem.1 h
  have hd : i < f.data.length := by rw [← hf.columns]; exact hi
  have hv : HasValues f col f.data[i] :=
    ⟨i, by rw [List.getElem?_eq_getElem hi, hc], by rw [List.getElem?_eq_getElem hd]⟩
  rw [column_of_hasValues hf hv]
  exact ⟨hv, hf.values _ (List.getElem_mem hd)⟩

theorem zip_any_ne : ∀ {xs ys : List Time}, xs.length = ys.length →
    (((xs.zip ys).any fun ab => ab.1 ≠ ab.2) = true ↔ xs ≠ ys)
  | [], [], _ => by simp
  | x :: xs, y :: ys, h => by
    rw [List.zip_cons_cons, List.any_cons, Bool.or_eq_true, zip_any_ne (by simpa using h)]
    simp only [decide_eq_true_eq, ne_eq, List.cons.injEq, not_and]
    tauto

theorem any_not_mem {xs ys : List Str} : (xs.any fun c => c ∉ ys) = true ↔ ¬ ∀ c ∈ xs, c ∈ ys := by
  simp

/-- C68. Two data frames compare as equal exactly when they have the same frequency, dates and columns
(in any order) and close values. -/
theorem C68_equal_iff_close {f g : Frame} (hf : ProperFrame f) (hg : ProperFrame g) :
    compareFrames f g = .ok () ↔ CloseFrames f g := by
  constructor
  · intro h
    unfold compareFrames at h
    split at h
    · cases h
    next h1 =>
    split at h
    · cases h
    next h2 =>
    split at h
    · cases h
    next h3 =>
    split at h
    · cases h
    next h4 =>
    split at h
    · cases h
    next h5 =>
    rw [ne_eq, not_not] at h1 h2
    rw [any_not_mem, not_not] at h3 h4
    rw [zip_any_ne h1, not_not] at h5
    have hcols : ∀ col, col ∈ f.columns ↔ col ∈ g.columns := fun col => ⟨h3 col, h4 col⟩
    refine ⟨h2, h5, hcols, ?_⟩
    intro col xs ys hx hy
    have hc : checkValues f g f.columns = .ok true := by
      cases hv : checkValues f g f.columns with
      | error e => rw [hv] at h; cases h
      | ok b => cases b with
        | false => rw [hv] at h; cases h
        | true => rfl
    have hm : col ∈ f.columns := by
      obtain ⟨i, hi, _⟩ := hx
      exact List.mem_of_getElem? hi
    have hp := checkValues_true.1 hc col hm
    rw [column_of_hasValues hf hx, column_of_hasValues hg hy] at hp
    refine (closePairs_true ?_).1 hp
    obtain ⟨_, l1⟩ := hasValues_column hf hm
    obtain ⟨_, l2⟩ := hasValues_column hg ((hcols col).1 hm)
    rw [column_of_hasValues hf hx] at l1
    rw [column_of_hasValues hg hy] at l2
    rw [l1, l2, h1]
  · rintro ⟨h1, h2, h3, h4⟩
    unfold compareFrames
    rw [if_neg (by rw [h2]; simp), if_neg (by rw [h1]; simp),
      if_neg (by rw [any_not_mem, not_not]; exact fun c => (h3 c).1),
      if_neg (by rw [any_not_mem, not_not]; exact fun c => (h3 c).2),
      if_neg (by rw [zip_any_ne (by rw [h2]), not_not]; exact h2)]
    have hc : checkValues f g f.columns = .ok true := by
      rw [checkValues_true]
      intro col hm
      obtain ⟨v1, l1⟩ := hasValues_column hf hm
      obtain ⟨v2, l2⟩ := hasValues_column hg ((h3 col).1 hm)
      exact (closePairs_true (by rw [l1, l2, h2])).2 (h4 col _ _ v1 v2)
    rw [hc]

theorem closeNum_refl : ∀ x : Num, CloseNum x x
  | .nan => trivial
  | .fin _ => .inl rfl

/-- C68. A data frame compares as equal to itself. -/
theorem C68_reflexive {f : Frame} (hf : ProperFrame f) : compareFrames f f = .ok () := by
  refine (C68_equal_iff_close hf hf).2 ⟨rfl, rfl, fun _ => Iff.rfl, ?_⟩
  intro col xs ys hx hy
  rw [← column_of_hasValues hf hx, ← column_of_hasValues hf hy]
  exact List.forall₂_same.2 fun x _ => closeNum_refl x

/-- C68. Data frames of the same size and frequency but with different columns raise a plain
`Exception`, which is not the documented `AssertionError`. -/
theorem C68_different_columns {f g : Frame} (hl : f.index.length = g.index.length) (hf : f.freq = g.freq)
    (hc : ¬ ∀ col, col ∈ f.columns ↔ col ∈ g.columns) : compareFrames f g = .error .exception := by
  unfold compareFrames
  rw [if_neg (by rw [hl]; simp), if_neg (by rw [hf]; simp)]
  by_cases h3 : ∀ c ∈ f.columns, c ∈ g.columns
  · rw [if_neg (by rw [any_not_mem, not_not]; exact h3)]
    by_cases h4 : ∀ c ∈ g.columns, c ∈ f.columns
    · exact absurd (fun col => ⟨h3 col, h4 col⟩) hc
    · rw [if_pos (any_not_mem.2 h4)]
  · rw [if_pos (any_not_mem.2 h3)]

/-- The frames of the examples below. -/
def Sample.frame (x : Num) : Frame :=
  ⟨c!"MS", [⟨2000, 1, 1, 0⟩, ⟨2000, 2, 1, 0⟩], [c!"a", c!"b"], [[.fin 1, .nan], [.fin 10000, x]]⟩

theorem Sample.frame_proper (x : Num) : ProperFrame (Sample.frame x) :=
  ⟨by show [c!"a", c!"b"].Nodup; decide, rfl, by intro d hd; simp [Sample.frame] at hd; rcases hd with rfl | rfl <;> rfl⟩

example : compareFrames (Sample.frame (.fin 20000)) (Sample.frame (.fin 20001)) = .ok () :=
  (C68_equal_iff_close (Sample.frame_proper _) (Sample.frame_proper _)).2
    ⟨rfl, rfl, fun _ => Iff.rfl, by
      intro col xs ys hx hy
      rw [← column_of_hasValues (Sample.frame_proper _) hx,
        ← column_of_hasValues (Sample.frame_proper _) hy]
      obtain ⟨i, hi, _⟩ := hx
      rcases i with _ | _ | i
      · simp [Sample.frame] at hi; subst hi
        exact .cons (.inl rfl) (.cons trivial .nil)
      · simp [Sample.frame] at hi; subst hi
        exact .cons (.inl rfl) (.cons (.inr ⟨by norm_num, by norm_num, by norm_num [abs_of_neg]⟩) .nil)
      · simp [Sample.frame] at hi⟩

example : compareFrames (Sample.frame .nan) { Sample.frame .nan with columns := [c!"a", c!"c"] } =
    .error .exception :=
  C68_different_columns rfl rfl fun h => absurd ((h c!"b").1 (by decide)) (by decide)

end Xls
