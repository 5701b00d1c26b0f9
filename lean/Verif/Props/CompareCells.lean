/-
Properties C80, C81 and C82: comparison of workbooks and of period ranges, search for a stored data frame.
-/
import Verif.Spec.CompareCells
import Verif.Model.CompareCells
import Verif.Props.Compare
import Verif.Lemmas.RangeUnique
import Verif.Spec.Samples

set_option autoImplicit false

namespace Xls

open Spec

/-! ### One pair of cells -/

theorem compareCell_numbers (ext : Ext) {a b : Cell} {p q : Rat} (ha : IsNumber a p)
    (hb : IsNumber b q) : compareCell ext a b = .ok () ↔ CloseReal p q := by
  have ta : a.toFloat ext = some (.fin p) := by cases ha <;> rfl
  have tb : b.toFloat ext = some (.fin q) := by cases hb <;> rfl
  unfold compareCell CloseReal
  rw [ta, tb]
  dsimp only
  rw [approxEqual_numbers ha hb]
  by_cases h : p = q
  · simp [h]
  · simp only [h, if_false, false_or]
    by_cases h0 : p = 0 ∨ q = 0
    · simp only [h0, if_true]
      simp only [reduceCtorEq, false_iff]
      intro ⟨k1, k2, _⟩
      rcases h0 with h0 | h0
      · rw [h0] at k1; exact absurd k1 (lt_irrefl _)
      · exact absurd h0 k2
    · simp only [h0, if_false]
      have hp : p ≠ 0 := fun k => h0 (.inl k)
      have hq : q ≠ 0 := fun k => h0 (.inr k)
      have e : 1 / 100000 * p = p / 100000 := by ring
      rw [e]
      by_cases k : |p - q| ≤ p / 100000
      · simp only [k, decide_true, true_iff]
        have : 0 ≤ p / 100000 := le_trans (abs_nonneg _) k
        have : 0 ≤ p := by linarith
        exact ⟨lt_of_le_of_ne this (Ne.symm hp), hq, trivial⟩
      · simp [k]

theorem toFloat_cases (ext : Ext) {a : Cell} (ha : ∀ s, a = .str s → ext.floatOfStr s = none) :
    (∃ p, IsNumber a p) ∨ a = .float .nan ∨
      (a.toFloat ext = none ∧ a.asNum = none ∧ (a = .none ∨ (∃ s, a = .str s) ∨ ∃ t, a = .dt t)) := by
  cases a with
  | none => exact .inr (.inr ⟨rfl, rfl, .inl rfl⟩)
  | str s => exact .inr (.inr ⟨ha s rfl, rfl, .inr (.inl ⟨s, rfl⟩)⟩)
  | dt t => exact .inr (.inr ⟨rfl, rfl, .inr (.inr ⟨t, rfl⟩)⟩)
  | int i => exact .inl ⟨_, .int i⟩
  | bool b => cases b; exacts [.inl ⟨_, .false⟩, .inl ⟨_, .true⟩]
  | float x => cases x; exacts [.inr (.inl rfl), .inl ⟨_, .float _⟩]

theorem Spec.IsNumber.unique {a : Cell} {p q : Rat} (h : IsNumber a p) (k : IsNumber a q) : p = q := by
  have e : some (Num.fin p) = some (Num.fin q) := h.asNum.symm.trans k.asNum
  injection e with e
  injection e

theorem Spec.IsNumber.normalize {a : Cell} {p : Rat} (h : IsNumber a p) : normalizeValue a = a := by
  cases h <;> rfl

theorem Spec.IsNumber.toFloat (ext : Ext) {a : Cell} {p : Rat} (h : IsNumber a p) :
    a.toFloat ext = some (.fin p) := by
  cases h <;> rfl

theorem normalize_asNum {a : Cell} (h : a.asNum = none) : (normalizeValue a).asNum = none := by
  cases a <;> first | rfl | exact h

/-- Two values one of which is no number are equal only if none is. -/
theorem eqPy_plain {a b : Cell} (h : a.asNum = none ∨ b.asNum = none) :
    a.eqPy b = true ↔ a.asNum = none ∧ b.asNum = none ∧ a = b := by
  unfold Cell.eqPy
  cases ha : a.asNum with
  | none =>
    cases hb : b.asNum with
    | none => simp
    | some y => simp
  | some x =>
    cases hb : b.asNum with
    | none => cases x <;> simp
    | some y => rw [ha, hb] at h; rcases h with h | h <;> cases h

theorem compareCell_plain (ext : Ext) {a b : Cell} (h : a.toFloat ext = none ∨ b.toFloat ext = none)
    (hn : a.asNum = none ∨ b.asNum = none) :
    compareCell ext a b = .ok () ↔ (normalizeValue a).asNum = none ∧ (normalizeValue b).asNum = none ∧
      normalizeValue a = normalizeValue b := by
  rw [← eqPy_plain (hn.imp normalize_asNum normalize_asNum)]
  unfold compareCell
  split
  next x y hx hy => rcases h with h | h <;> simp_all
  next =>
    split
    next k => simp [k]
    next k => simp [k]

theorem compareCell_close (ext : Ext) {a b : Cell} {x y : Num} (ha : a.toFloat ext = some x)
    (hb : b.toFloat ext = some y) : compareCell ext a b = .ok () ↔
      approxEqual a b (1 / 100000) = .ok true := by
  unfold compareCell
  rw [ha, hb]
  dsimp only
  cases approxEqual a b (1 / 100000) with
  | error e => simp
  | ok r => cases r <;> simp

theorem approxEqual_nan_right {a : Cell} {p : Rat} (h : IsNumber a p) (tol : Rat) :
    approxEqual a (.float .nan) tol ≠ .ok true := by
  unfold approxEqual
  have e : a.eqPy (.float .nan) = false := by unfold Cell.eqPy; rw [h.asNum]; rfl
  have hn : isNan a = .ok false := by unfold isNan; rw [h.asNum]
  have ha : approxNumbers a (.float .nan) tol = .ok false := by unfold approxNumbers; rw [h.asNum]; rfl
  rw [e]
  simp only [Bool.false_eq_true, if_false]
  rw [hn, ha]
  cases h' : a.truthy <;> simp [Cell.truthy]

theorem approxEqual_nan_left {a : Cell} {p : Rat} (h : IsNumber a p) (tol : Rat) :
    approxEqual (.float .nan) a tol ≠ .ok true := by
  unfold approxEqual
  have e : Cell.eqPy (.float .nan) a = false := by unfold Cell.eqPy; rw [h.asNum]; rfl
  have hn : isNan a = .ok false := by unfold isNan; rw [h.asNum]
  have ha : approxNumbers (.float .nan) a tol = .ok false := by
    unfold approxNumbers; rw [h.asNum]; rfl
  have hm : isNan (.float .nan) = .ok true := rfl
  rw [e]
  simp only [Bool.false_eq_true, if_false]
  rw [hm]
  dsimp only
  rw [if_pos rfl, hn, ha]
  cases h' : a.truthy <;> simp [Cell.truthy]

/-- Which pairs of cells the comparison accepts, unless a text reads as a number. -/
theorem compareCell_iff (ext : Ext) (a b : Cell) (ha : ∀ s, a = .str s → ext.floatOfStr s = none)
    (hb : ∀ s, b = .str s → ext.floatOfStr s = none) :
    compareCell ext a b = .ok () ↔ SameContent a b := by
  rcases toFloat_cases ext ha with ⟨p, hp⟩ | rfl | ⟨h1, h2, h3⟩ <;>
    rcases toFloat_cases ext hb with ⟨q, hq⟩ | rfl | ⟨k1, k2, k3⟩
  · rw [compareCell_numbers ext hp hq]
    refine ⟨fun h => .numbers hp hq h, fun h => ?_⟩
    cases h with
    | numbers ha' hb' h => rw [hp.unique ha', hq.unique hb']; exact h
    | nan => cases hp
    | text => cases hp
    | time => cases hp
    | empty => cases hp
    | emptyBlank => cases hp
    | blankEmpty => cases hp
  · rw [compareCell_close ext (hp.toFloat ext) rfl]
    refine ⟨fun h => absurd h (approxEqual_nan_right hp _), fun h => ?_⟩
    cases h with
    | numbers _ hb' => cases hb'
    | nan => cases hp
  · rw [compareCell_plain ext (.inr k1) (.inr k2), hp.normalize, hp.asNum]
    refine ⟨fun h => by simp at h, fun h => ?_⟩
    cases h with
    | numbers _ hb' => rw [hb'.asNum] at k2; cases k2
    | nan => cases hp
    | text => cases hp
    | time => cases hp
    | empty => cases hp
    | emptyBlank => cases hp
    | blankEmpty => cases hp
  · rw [compareCell_close ext rfl (hq.toFloat ext)]
    refine ⟨fun h => absurd h (approxEqual_nan_left hq _), fun h => ?_⟩
    cases h with
    | numbers ha' _ => cases ha'
    | nan => cases hq
  · exact ⟨fun _ => .nan, fun _ => rfl⟩
  · rw [compareCell_plain ext (.inr k1) (.inr k2)]
    refine ⟨fun h => by simp [normalizeValue, Cell.asNum] at h, fun h => ?_⟩
    cases h with
    | numbers _ hb' => rw [hb'.asNum] at k2; cases k2
    | nan => cases k2
  · rw [compareCell_plain ext (.inl h1) (.inl h2), hq.normalize, hq.asNum]
    refine ⟨fun h => by simp at h, fun h => ?_⟩
    cases h with
    | numbers ha' _ => rw [ha'.asNum] at h2; cases h2
    | nan => cases hq
    | text => cases hq
    | time => cases hq
    | empty => cases hq
    | emptyBlank => cases hq
    | blankEmpty => cases hq
  · rw [compareCell_plain ext (.inl h1) (.inl h2)]
    refine ⟨fun h => by simp [normalizeValue, Cell.asNum] at h, fun h => ?_⟩
    cases h with
    | numbers ha' _ => rw [ha'.asNum] at h2; cases h2
    | nan => cases h2
  · rw [compareCell_plain ext (.inl h1) (.inl h2)]
    refine ⟨fun h => ?_, fun h => ?_⟩
    · obtain ⟨_, _, h⟩ := h
      rcases h3 with rfl | ⟨s, rfl⟩ | ⟨s, rfl⟩ <;> rcases k3 with rfl | ⟨t, rfl⟩ | ⟨t, rfl⟩ <;>
        simp only [normalizeValue, reduceCtorEq, Cell.str.injEq, Cell.dt.injEq] at h
      · exact .empty
      · exact .emptyBlank h.symm
      · exact .blankEmpty h
      · exact .text h
      · rw [h]; exact .time t
    · cases h with
      | numbers ha' _ => rw [ha'.asNum] at h2; cases h2
      | nan => cases h2
      | text h => simp [normalizeValue, Cell.asNum, h]
      | time => exact ⟨rfl, rfl, rfl⟩
      | empty => exact ⟨rfl, rfl, rfl⟩
      | emptyBlank h => simp [normalizeValue, Cell.asNum, h]
      | blankEmpty h => simp [normalizeValue, Cell.asNum, h]

/-! ### Rows, worksheets and workbooks -/

theorem comparePairs_iff (ext : Ext) (l : List (Cell × Cell)) :
    comparePairs ext l = .ok () ↔ ∀ ab ∈ l, compareCell ext ab.1 ab.2 = .ok () := by
  induction l with
  | nil => simp [comparePairs]
  | cons x rest ih =>
    rw [comparePairs.eq_def]
    dsimp only
    cases h : compareCell ext x.1 x.2 with
    | error e => simp [h]
    | ok u => simp [ih, h]

theorem compareRows_iff (ext : Ext) (l : List (List Cell × List Cell)) :
    compareRows ext l = .ok () ↔ ∀ ab ∈ l, comparePairs ext (ab.1.zip ab.2) = .ok () := by
  induction l with
  | nil => simp [compareRows]
  | cons x rest ih =>
    rw [compareRows.eq_def]
    dsimp only
    cases h : comparePairs ext (x.1.zip x.2) with
    | error e => simp [h]
    | ok u => simp [ih, h]

theorem compareSheets_iff (ext : Ext) (l : List (Sheet × Sheet)) :
    compareSheets ext l = .ok () ↔ ∀ ab ∈ l, compareCellsWs ext ab.1 ab.2 = .ok () := by
  induction l with
  | nil => simp [compareSheets]
  | cons x rest ih =>
    rw [compareSheets.eq_def]
    dsimp only
    cases h : compareCellsWs ext x.1 x.2 with
    | error e => simp [h]
    | ok u => simp [ih, h]

/-- Pairs of two zipped lists made by functions of the position. -/
theorem forall_mem_zip_range {α β : Type} (f : Nat → α) (g : Nat → β) (m n : Nat)
    (P : α × β → Prop) :
    (∀ ab ∈ ((List.range m).map f).zip ((List.range n).map g), P ab) ↔
      ∀ i, i < m → i < n → P (f i, g i) := by
  constructor
  · intro h i hm hn
    refine h _ (List.mem_iff_getElem.2 ⟨i, by simp [hm, hn], by simp⟩)
  · intro h ab hab
    obtain ⟨i, hi, rfl⟩ := List.mem_iff_getElem.1 hab
    simp only [List.length_zip, List.length_map, List.length_range, lt_min_iff] at hi
    simpa using h i hi.1 hi.2

/-- The comparison of two worksheets looks at the cells within the size of both. -/
theorem compareCellsWs_iff (ext : Ext) (s t : Sheet) :
    compareCellsWs ext s t = .ok () ↔ ∀ r c : Int, 1 ≤ r → r ≤ s.maxRow → r ≤ t.maxRow →
      1 ≤ c → c ≤ s.maxCol → c ≤ t.maxCol → compareCell ext (s.cells r c) (t.cells r c) = .ok () := by
  unfold compareCellsWs
  rw [compareRows_iff]
  unfold Sheet.rows
  rw [forall_mem_zip_range]
  constructor
  · intro h r c hr hr1 hr2 hc hc1 hc2
    have h := h (r - 1).toNat (by omega) (by omega)
    rw [comparePairs_iff, forall_mem_zip_range] at h
    have h := h (c - 1).toNat (by omega) (by omega)
    have e1 : ((r - 1).toNat : Int) + 1 = r := by omega
    have e2 : ((c - 1).toNat : Int) + 1 = c := by omega
    rw [e1, e2] at h
    exact h
  · intro h i hi hi'
    rw [comparePairs_iff, forall_mem_zip_range]
    intro j hj hj'
    exact h _ _ (by omega) (by omega) (by omega) (by omega) (by omega) (by omega)

/-! ### C80 -/

/-- C80. Two worksheets of the same size none of whose texts reads as a number compare as equal exactly
if all their cells say the same. Missing: worksheets of different sizes (`C80_size_violated`), texts that
read as numbers (`C80_numeral_violated`) and tolerance for negative numbers, which `SameContent` leaves
out (`C80_negative_violated`). -/
theorem C80_worksheets_partial (ext : Ext) {s t : Sheet} (hr : s.maxRow = t.maxRow)
    (hc : s.maxCol = t.maxCol) (ns : NoNumeralTexts ext s) (nt : NoNumeralTexts ext t) :
    compareCellsWs ext s t = .ok () ↔ SameSheet s t := by
  rw [compareCellsWs_iff]
  constructor
  · intro h
    refine ⟨hr, hc, fun r c h1 h2 h3 h4 => ?_⟩
    rw [← compareCell_iff ext _ _ (ns r c) (nt r c)]
    exact h r c h1 h2 (hr ▸ h2) h3 h4 (hc ▸ h4)
  · intro h r c h1 h2 _ h3 h4 _
    rw [compareCell_iff ext _ _ (ns r c) (nt r c)]
    exact h.cells r c h1 h2 h3 h4

/-- C80. Workbooks with the same number of worksheets of the same sizes compare as equal exactly if their
worksheets say the same, one after the other. Missing: as for `C80_worksheets_partial`, and different
numbers of worksheets (`C80_sheets_violated`). -/
theorem C80_workbooks_partial (ext : Ext) {wb1 wb2 : List Sheet}
    (hsize : List.Forall₂ (fun s t : Sheet => s.maxRow = t.maxRow ∧ s.maxCol = t.maxCol) wb1 wb2)
    (h1 : ∀ s ∈ wb1, NoNumeralTexts ext s) (h2 : ∀ s ∈ wb2, NoNumeralTexts ext s) :
    compareCells ext wb1 wb2 = .ok () ↔ List.Forall₂ SameSheet wb1 wb2 := by
  unfold compareCells
  rw [compareSheets_iff]
  induction hsize with
  | nil => simp
  | @cons s t ss tt hst _ ih =>
    rw [List.forall₂_cons, ← ih (fun x hx => h1 x (List.mem_cons_of_mem _ hx))
      (fun x hx => h2 x (List.mem_cons_of_mem _ hx)),
      ← C80_worksheets_partial ext hst.1 hst.2 (h1 s List.mem_cons_self) (h2 t List.mem_cons_self)]
    simp

/-- Two worksheets that say the same: `ext0` reads no text as a number. -/
example : compareCells Sample.ext0
    [Sample.rows [[.str c!" Title ", .none], [.int 5, Sample.day 2001 1 1]]]
    [Sample.rows [[.str c!"Title", .str c!" "], [.float (.fin 5), Sample.day 2001 1 1]]] = .ok () := by
  decide +kernel

example : NoNumeralTexts Sample.ext0 (Sample.rows [[.str c!" Title ", .none], [.int 5, Sample.day 2001 1 1]]) :=
  fun _ _ _ _ => rfl

/-- C80 is false of the code: rows and columns that only one worksheet has are not looked at. -/
theorem C80_size_violated (ext : Ext) (s : Sheet) (hr : 1 ≤ s.maxRow) (hc : 1 ≤ s.maxCol)
    (same : ∀ r c, 1 ≤ r → r ≤ s.maxRow → 1 ≤ c → c ≤ s.maxCol → ∀ x, s.cells r c ≠ .str x) :
    ∃ t : Sheet, t.maxRow = s.maxRow + 1 ∧ t.cells t.maxRow 1 = .int 7 ∧
      compareCellsWs ext s t = .ok () ∧ compareCellsWs ext t s = .ok () := by
  have hself : ∀ c : Cell, (∀ x, c ≠ .str x) → compareCell ext c c = .ok () := by
    intro c h
    rw [compareCell_iff ext _ _ (fun x hx => absurd hx (h x)) (fun x hx => absurd hx (h x))]
    cases c with
    | none => exact .empty
    | str x => exact absurd rfl (h x)
    | dt t => exact .time t
    | int i => exact .numbers (.int i) (.int i) (.inl rfl)
    | bool b => cases b; exacts [.numbers .false .false (.inl rfl), .numbers .true .true (.inl rfl)]
    | float x => cases x; exacts [.nan, .numbers (.float _) (.float _) (.inl rfl)]
  refine ⟨s.set (s.maxRow + 1) 1 (.int 7), ?_, ?_, ?_, ?_⟩
  · show max s.maxRow (s.maxRow + 1) = s.maxRow + 1
    omega
  · have e : (s.set (s.maxRow + 1) 1 (.int 7)).maxRow = s.maxRow + 1 := by
      show max s.maxRow (s.maxRow + 1) = s.maxRow + 1
      omega
    rw [e]
    simp [Sheet.set]
  · rw [compareCellsWs_iff]
    intro r c h1 h2 _ h3 h4 _
    have e : (s.set (s.maxRow + 1) 1 (.int 7)).cells r c = s.cells r c := by
      simp only [Sheet.set]
      rw [if_neg (by omega)]
    rw [e]
    exact hself _ (same r c h1 h2 h3 h4)
  · rw [compareCellsWs_iff]
    intro r c h1 _ h2 h3 _ h4
    have e : (s.set (s.maxRow + 1) 1 (.int 7)).cells r c = s.cells r c := by
      simp only [Sheet.set]
      rw [if_neg (by omega)]
    rw [e]
    exact hself _ (same r c h1 h2 h3 h4)

/-- C80 is false of the code: worksheets that only one workbook has are not looked at. -/
theorem C80_sheets_violated (ext : Ext) (wb : List Sheet) : compareCells ext wb [] = .ok () ∧
    compareCells ext [] wb = .ok () := by
  cases wb <;> exact ⟨rfl, rfl⟩

/-- C80 is false of the code: texts that read as numbers must be the same to the last blank, and a
number beside the text of it raises. -/
theorem C80_numeral_violated (ext : Ext) (h : ext.floatOfStr c!"12" = some (.fin 12))
    (h' : ext.floatOfStr c!"12 " = some (.fin 12)) :
    compareCell ext (.str c!"12") (.str c!"12 ") = .error .assertionError ∧
      compareCell ext (.str c!"12") (.int 12) = .error .typeError := by
  constructor
  · unfold compareCell
    simp only [Cell.toFloat, h, h']
    rfl
  · unfold compareCell
    simp only [Cell.toFloat, h]
    rfl

/-- C80 is false of the code: of negative numbers only equal ones are accepted. -/
theorem C80_negative_violated (ext : Ext) {p q : Rat} (hp : p < 0) (h : p ≠ q) :
    compareCell ext (.float (.fin p)) (.float (.fin q)) ≠ .ok () := by
  rw [Ne, compareCell_numbers ext (.float p) (.float q)]
  rintro (k | ⟨k, _⟩)
  · exact h k
  · exact absurd (lt_trans hp k) (lt_irrefl _)

/-! ### C81 -/

/-- C81. Two ranges that `date_range` made, for the frequencies in use, compare as equal exactly if they
are the same range and not empty. -/
theorem C81_period_ranges (ext : Ext) {a b a' b' : Cell} {f f' : Str} {p q : PRange}
    (hp : dateRange ext a b f = .ok p) (hq : dateRange ext a' b' f' = .ok q)
    (hv : ∀ t ∈ p.index, ValidTime t) :
    comparePeriodRanges p q = true ↔ p = q ∧ p.index ≠ [] := by
  unfold comparePeriodRanges
  constructor
  · intro h
    split at h
    · cases h
    next hf =>
      split at h
      · next x y hx hy =>
        split at h
        · cases h
        next hxy =>
          split at h
          · next l m hl hm =>
            have hlm : l = m := by simpa using h
            have hf : p.freqstr = q.freqstr := not_not.1 hf
            have hxy : x = y := not_not.1 hxy
            have k1 : rangeKey p = .ok (p.freqstr, x, l) := by unfold rangeKey; rw [hx, hl]
            have k2 : rangeKey q = .ok (p.freqstr, x, l) := by
              unfold rangeKey; rw [hy, hm, hf, hxy, hlm]
            refine ⟨generated_unique ⟨_, _, _, hp⟩ ⟨_, _, _, hq⟩ k1 k2
              (hv x (List.mem_of_mem_head? hx)), fun e => ?_⟩
            rw [e] at hx
            cases hx
          · cases h
      · cases h
  · rintro ⟨rfl, h⟩
    rw [if_neg (by simp)]
    cases e : p.index with
    | nil => exact absurd e h
    | cons x xs =>
      have hl : (x :: xs).getLast? = some ((x :: xs).getLast (by simp)) :=
        List.getLast?_eq_some_getLast (by simp)
      simp only [List.head?_cons, hl]
      simp

example : dateRange Sample.ext0 (Sample.day 2001 1 1) (Sample.day 2001 3 1) c!"MS" =
    .ok ⟨c!"MS", [⟨2001, 1, 1, 0⟩, ⟨2001, 2, 1, 0⟩, ⟨2001, 3, 1, 0⟩]⟩ := by
  decide +kernel

/-- An empty range is not even equal to itself. -/
theorem C81_empty (p q : PRange) (h : p.index = []) : comparePeriodRanges p q = false := by
  unfold comparePeriodRanges
  rw [h]
  split <;> rfl

/-! ### C82 -/

theorem takeWhile_append_dot {letters base : Str} (h : '.' ∉ letters) :
    ((base ++ '.' :: letters).reverse.takeWhile (· ≠ '.')).reverse = letters := by
  rw [List.reverse_append, List.reverse_cons, List.append_assoc]
  rw [List.takeWhile_append_of_pos (by
    intro c hc
    simp only [List.mem_reverse] at hc
    simpa using fun e : c = '.' => h (e ▸ hc))]
  simp

theorem fileExtension_of {path ext : Str} (h : EndsWithExtension path ext) :
    fileExtension path = some ext := by
  obtain ⟨base, letters, rfl, hl, rfl⟩ := h
  unfold fileExtension
  rw [if_pos (by simp), takeWhile_append_dot hl]

theorem fileExtension_spec {path ext : Str} (h : fileExtension path = some ext) :
    EndsWithExtension path ext := by
  unfold fileExtension at h
  split at h
  next hd =>
    injection h with h
    obtain ⟨base, letters, rfl, hl⟩ : ∃ base letters, path = base ++ '.' :: letters ∧ '.' ∉ letters := by
      clear h
      induction path with
      | nil => cases hd
      | cons c cs ih =>
        by_cases k : '.' ∈ cs
        · obtain ⟨base, letters, rfl, hl⟩ := ih k
          exact ⟨c :: base, letters, rfl, hl⟩
        · have : c = '.' := by
            rcases List.mem_cons.1 hd with h | h
            · exact h.symm
            · exact absurd h k
          exact ⟨[], cs, by rw [this]; rfl, k⟩
    rw [takeWhile_append_dot hl] at h
    exact ⟨base, letters, h.symm, hl, by rw [← h]⟩
  · cases h

/-- No supported extension is named. -/
theorem parsePath_search {isFile isDir : Str → Bool} {path : Str}
    (h : ∀ e ∈ [c!".xlsx", c!".csv", c!".json"], ¬EndsWithExtension path e) :
    parsePath isFile isDir path = findStored isFile isDir path supportedExtensions := by
  unfold parsePath
  split
  next e he =>
    rw [if_neg]
    intro k
    exact h e k (fileExtension_spec he)
  next => rfl

/-- C82. A path that names a supported extension is taken as it is. -/
theorem C82_named (isFile isDir : Str → Bool) {path e : Str} (h : EndsWithExtension path e)
    (he : e ∈ [c!".xlsx", c!".csv", c!".json"]) : parsePath isFile isDir path = some (path, e) := by
  unfold parsePath
  rw [fileExtension_of h]
  dsimp only
  rw [if_pos (show e ∈ supportedExtensions from he)]

/-- C82. Otherwise the file is the first that exists of those with the path and a supported extension.
Missing: paths that are also directories (`C82_directory_violated`). -/
theorem C82_found_partial (isFile isDir : Str → Bool) {path e : Str} {before after : List Str}
    (hp : ∀ e ∈ [c!".xlsx", c!".csv", c!".json"], ¬EndsWithExtension path e)
    (hd : isDir path = false) (hs : [c!".xlsx", c!".csv", c!".json"] = before ++ e :: after)
    (hb : ∀ d ∈ before, isFile (path ++ d) = false) (he : isFile (path ++ e) = true) :
    parsePath isFile isDir path = some (path ++ e, e) := by
  rw [parsePath_search hp, show supportedExtensions = before ++ e :: after from hs]
  clear hs
  induction before with
  | nil => rw [List.nil_append, findStored, if_pos he]
  | cons d ds ih =>
    rw [List.cons_append, findStored, if_neg (by simp [hb d List.mem_cons_self]), if_neg (by simp [hd])]
    exact ih fun x hx => hb x (List.mem_cons_of_mem _ hx)

example : parsePath (fun p => p = c!"dir.x/case.csv" ∨ p = c!"dir.x/case.json") (fun _ => false)
    c!"dir.x/case" = some (c!"dir.x/case.csv", c!".csv") := by
  decide +kernel

/-- C82. Without such a file it is reported. -/
theorem C82_not_found (isFile isDir : Str → Bool) {path : Str}
    (hp : ∀ e ∈ [c!".xlsx", c!".csv", c!".json"], ¬EndsWithExtension path e)
    (hd : isDir path = false) (hf : ∀ e ∈ [c!".xlsx", c!".csv", c!".json"], isFile (path ++ e) = false) :
    parsePath isFile isDir path = none := by
  rw [parsePath_search hp]
  have h1 := hf c!".xlsx" (by simp)
  have h2 := hf c!".csv" (by simp)
  have h3 := hf c!".json" (by simp)
  simp [findStored, supportedExtensions, h1, h2, h3, hd]

/-- C82 is false of the code: a directory of that name is always taken for an `.xlsx` file, whatever is in
it and whatever files are beside it. -/
theorem C82_directory_violated (isFile isDir : Str → Bool) {path : Str}
    (hp : ∀ e ∈ [c!".xlsx", c!".csv", c!".json"], ¬EndsWithExtension path e)
    (hd : isDir path = true) (hx : isFile (path ++ c!".xlsx") = false) :
    parsePath isFile isDir path = some (path, c!".xlsx") := by
  rw [parsePath_search hp]
  simp [findStored, supportedExtensions, hx, hd]

example : parsePath (fun p => p = c!"case.csv" ∨ p = c!"case/casea.csv") (fun p => p = c!"case")
    c!"case" = some (c!"case", c!".xlsx") := by
  decide +kernel

end Xls
