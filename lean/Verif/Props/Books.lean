/-
Properties C69 to C72: sheet names, loading by extension, conversion of old workbooks, package directory.
-/
import Verif.Spec.Books
import Verif.Spec.Samples
import Mathlib.Data.List.Induction

set_option autoImplicit false

namespace Xls

open Spec

/-! ### C69 -/

theorem find_firstWith {names : List Str} {q : Str → Bool} {P : Str → Prop} (hq : ∀ m, q m = true ↔ P m)
    {n : Str} : names.find? q = some n ↔ FirstWith names P n := by
  rw [List.find?_eq_some_iff_append]
  unfold FirstWith
  constructor
  · rintro ⟨h, as, bs, h1, h2⟩
    exact ⟨as, bs, h1, (hq n).1 h, fun m hm hP => by have := h2 m hm; rw [(hq m).2 hP] at this; cases this⟩
  · rintro ⟨as, bs, h1, h2, h3⟩
    refine ⟨(hq n).2 h2, as, bs, h1, fun m hm => ?_⟩
    cases hb : q m with
    | false => rfl
    | true => exact absurd ((hq m).1 hb) (h3 m hm)

theorem resolves_sanitize (ext : Ext) (name : Str) (names : List Str) :
    Resolves ext name names (sanitizeName ext name names) := by
  unfold sanitizeName
  split
  next h => exact .exact h
  next h =>
    have hb : ∀ m : Str, decide (strip name = strip m) = true ↔ strip m = strip name := by
      intro m; rw [decide_eq_true_eq]; exact eq_comm
    have ha : ∀ m : Str, decide (strip (ext.unidecode name) = strip (ext.unidecode m)) = true ↔
        strip (ext.unidecode m) = strip (ext.unidecode name) := by
      intro m; rw [decide_eq_true_eq]; exact eq_comm
    split
    next n hn => exact .blanks n h ((find_firstWith hb).1 hn)
    next hn =>
      rw [List.find?_eq_none] at hn
      have hn' : ∀ m ∈ names, strip m ≠ strip name := fun m hm he => hn m hm ((hb m).2 he)
      split
      next n hn2 => exact .accents n h hn' ((find_firstWith ha).1 hn2)
      next hn2 =>
        rw [List.find?_eq_none] at hn2
        exact .unknown h hn' fun m hm he => hn2 m hm ((ha m).2 he)

theorem firstWith_unique {names : List Str} {P : Str → Prop} {a b : Str} (ha : FirstWith names P a)
    (hb : FirstWith names P b) : a = b := by
  classical
  have hq : ∀ m : Str, decide (P m) = true ↔ P m := fun m => decide_eq_true_iff
  have h1 := (find_firstWith hq).2 ha
  have h2 := (find_firstWith hq).2 hb
  rw [h1] at h2
  injection h2

theorem FirstWith.holds {names : List Str} {P : Str → Prop} {a : Str} (ha : FirstWith names P a) :
    a ∈ names ∧ P a := by
  obtain ⟨as, bs, rfl, h, _⟩ := ha
  exact ⟨by simp, h⟩

/-- C69. The name that is used is the one the request resolves to, and no other. -/
theorem C69_resolution (ext : Ext) (name : Str) (names : List Str) (n : Str) :
    sanitizeName ext name names = n ↔ Resolves ext name names n := by
  constructor
  · rintro rfl; exact resolves_sanitize ext name names
  · intro h
    have h' := resolves_sanitize ext name names
    generalize sanitizeName ext name names = m at h'
    cases h with
    | exact h1 =>
      cases h' with
      | exact => rfl
      | blanks _ h2 => exact absurd h1 h2
      | accents _ h2 => exact absurd h1 h2
      | unknown h2 => exact absurd h1 h2
    | blanks _ h1 h2 =>
      cases h' with
      | exact h3 => exact absurd h3 h1
      | blanks _ _ h3 => exact firstWith_unique h3 h2
      | accents _ _ h3 => exact absurd (FirstWith.holds h2).2 (h3 _ (FirstWith.holds h2).1)
      | unknown _ h3 => exact absurd (FirstWith.holds h2).2 (h3 _ (FirstWith.holds h2).1)
    | accents _ h1 h2 h4 =>
      cases h' with
      | exact h3 => exact absurd h3 h1
      | blanks _ _ h3 => exact absurd (FirstWith.holds h3).2 (h2 _ (FirstWith.holds h3).1)
      | accents _ _ _ h3 => exact firstWith_unique h3 h4
      | unknown _ _ h3 => exact absurd (FirstWith.holds h4).2 (h3 _ (FirstWith.holds h4).1)
    | unknown h1 h2 h4 =>
      cases h' with
      | exact h3 => rfl
      | blanks _ _ h3 => exact absurd (FirstWith.holds h3).2 (h2 _ (FirstWith.holds h3).1)
      | accents _ _ _ h3 => exact absurd (FirstWith.holds h3).2 (h4 _ (FirstWith.holds h3).1)
      | unknown => rfl

/-- C69. The result is an existing sheet or the request itself. -/
theorem C69_existing_or_request (ext : Ext) (name : Str) (names : List Str) :
    sanitizeName ext name names ∈ names ∨ sanitizeName ext name names = name := by
  have h := resolves_sanitize ext name names
  generalize sanitizeName ext name names = m at h
  cases h with
  | exact h => exact .inr rfl
  | blanks _ _ h => exact .inl (FirstWith.holds h).1
  | accents _ _ _ h => exact .inl (FirstWith.holds h).1
  | unknown => exact .inr rfl

/-- C69. Without a name the first sheet is used. -/
theorem C69_default (ext : Ext) (n : Str) (names : List Str) : chooseName ext [] (n :: names) = .ok n := rfl

example : sanitizeName Sample.ext0 c!"Datos" [c!"datos", c!" Datos ", c!"Datos "] = c!" Datos " :=
  (C69_resolution _ _ _ _).2 (.blanks _ (by decide)
    ⟨[c!"datos"], [c!"Datos "], rfl, by decide, by decide⟩)

/-! ### C70 -/

theorem lastChars_eq {n : Nat} {path suffix : Str} (h : suffix.length = n) :
    lastChars n path = suffix ↔ ∃ stem, path = stem ++ suffix := by
  unfold lastChars
  constructor
  · intro h1
    exact ⟨path.take (path.length - n), by rw [← h1, List.take_append_drop]⟩
  · rintro ⟨stem, rfl⟩
    rw [List.length_append, h, Nat.add_sub_cancel, List.drop_left]

/-- C70. A path that ends in `.xlsx` is loaded as such. -/
theorem C70_xlsx (path : Str) : loaderOf path = .ok .xlsx ↔ ∃ stem, path = stem ++ c!".xlsx" := by
  rw [← lastChars_eq (n := 5) rfl]
  unfold loaderOf
  by_cases h : lastChars 5 path = c!".xlsx"
  · simp [h]
  · rw [if_neg h]
    constructor
    · intro h1; split at h1 <;> cases h1
    · intro h1; exact absurd h1 h

/-- C70. A path that ends in `.xls` is loaded as an old workbook. -/
theorem C70_xls (path : Str) : loaderOf path = .ok .xls ↔ ∃ stem, path = stem ++ c!".xls" := by
  rw [← lastChars_eq (n := 4) rfl]
  unfold loaderOf
  by_cases h : lastChars 5 path = c!".xlsx"
  · rw [if_pos h]
    have : lastChars 4 path ≠ c!".xls" := by
      intro h1
      obtain ⟨a, ha⟩ := (lastChars_eq (n := 5) rfl).1 h
      obtain ⟨b, hb⟩ := (lastChars_eq (n := 4) rfl).1 h1
      have h2 : path.getLast? = some 'x' := by rw [ha, List.getLast?_append]; rfl
      have h3 : path.getLast? = some 's' := by rw [hb, List.getLast?_append]; rfl
      rw [h2] at h3
      cases h3
    exact ⟨(fun h => by cases h), (fun h => absurd h this)⟩
  · rw [if_neg h]
    by_cases h1 : lastChars 4 path = c!".xls"
    · simp [h1]
    · rw [if_neg h1]
      exact ⟨(fun h => by cases h), (fun h => absurd h h1)⟩

/-- C70. Any other path is refused. -/
theorem C70_other (path : Str) (h1 : ¬ ∃ stem, path = stem ++ c!".xlsx")
    (h2 : ¬ ∃ stem, path = stem ++ c!".xls") : loaderOf path = .error .valueError := by
  rw [← C70_xlsx] at h1
  rw [← C70_xls] at h2
  unfold loaderOf at *
  split
  next h => rw [if_pos h] at h1; exact absurd rfl h1
  next h =>
    rw [if_neg h] at h2
    split
    next h' => rw [if_pos h'] at h2; exact absurd rfl h2
    next => rfl

example : loaderOf c!"data.v2.xlsx" = .ok .xlsx := (C70_xlsx _).2 ⟨c!"data.v2", rfl⟩
example : loaderOf c!"DATA.XLSX" = .error .valueError := by decide

/-! ### C71 -/

theorem sizeLoop_ok (old : OldSheet) (h : old.nrows * old.ncols ≠ 0) (fuel : Nat) :
    sizeLoop old (fuel + 1) 0 0 = some (old.nrows, old.ncols) := by
  rw [sizeLoop.eq_def]
  dsimp only
  rw [if_pos (by simp)]
  cases fuel <;> rw [sizeLoop.eq_def] <;> dsimp only <;> rw [if_neg h]

theorem sizeLoop_forever (old : OldSheet) (h : old.nrows * old.ncols = 0) :
    ∀ (fuel a b : Nat), a * b = 0 → sizeLoop old fuel a b = none
  | 0, a, b, hab => by rw [sizeLoop.eq_def]; dsimp only; rw [if_pos hab]
  | fuel + 1, a, b, hab => by
    rw [sizeLoop.eq_def]
    dsimp only
    rw [if_pos hab]
    exact sizeLoop_forever old h fuel _ _ h

theorem bookSet_cells (s : Sheet) (r c : Int) (v : Cell) (r' c' : Int) :
    (s.set r c v).cells r' c' = if r' = r ∧ c' = c then v else s.cells r' c' := rfl

theorem copyRow_cells (old : OldSheet) (row : Nat) : ∀ (cols : List Nat) (s : Sheet) (r c : Int),
    (copyRow old row cols s).cells r c =
      if r = row + 1 ∧ ∃ j ∈ cols, c = (j : Int) + 1 then old.value row (c - 1).toNat else s.cells r c
  | [], s, r, c => by simp [copyRow]
  | j :: cols, s, r, c => by
    rw [copyRow, copyRow_cells old row cols, bookSet_cells]
    by_cases hr : r = row + 1
    · by_cases h1 : ∃ k ∈ cols, c = (k : Int) + 1
      · rw [if_pos ⟨hr, h1⟩, if_pos ⟨hr, by
          obtain ⟨k, hk, hc⟩ := h1; exact ⟨k, List.mem_cons_of_mem _ hk, hc⟩⟩]
      · rw [if_neg (fun h => h1 h.2)]
        by_cases h2 : c = (j : Int) + 1
        · rw [if_pos ⟨hr, h2⟩, if_pos ⟨hr, j, by simp, h2⟩, h2]
          congr 1
          omega
        · rw [if_neg (fun h => h2 h.2), if_neg]
          rintro ⟨_, k, hk, hc⟩
          rcases List.mem_cons.1 hk with rfl | hk
          · exact h2 hc
          · exact h1 ⟨k, hk, hc⟩
    · rw [if_neg (fun h => hr h.1), if_neg (fun h => hr h.1), if_neg (fun h => hr h.1)]

theorem copyRow_marks (old : OldSheet) (row : Nat) : ∀ (n : Nat) (s : Sheet), 1 ≤ s.maxCol →
    (copyRow old row (List.range n) s).maxRow = (if n = 0 then s.maxRow else max s.maxRow (row + 1)) ∧
    (copyRow old row (List.range n) s).maxCol = max s.maxCol n ∧
    (copyRow old row (List.range n) s).title = s.title := by
  have happ : ∀ (l1 l2 : List Nat) (s : Sheet),
      copyRow old row (l1 ++ l2) s = copyRow old row l2 (copyRow old row l1 s) := by
    intro l1
    induction l1 with
    | nil => intro l2 s; rfl
    | cons a l1 ih => intro l2 s; rw [List.cons_append, copyRow, copyRow, ih]
  intro n
  induction n with
  | zero =>
    intro s h
    refine ⟨rfl, ?_, rfl⟩
    show s.maxCol = _
    omega
  | succ n ih =>
    intro s h
    obtain ⟨h1, h2, h3⟩ := ih s h
    rw [List.range_succ, happ]
    refine ⟨?_, ?_, ?_⟩
    · show max (copyRow old row (List.range n) s).maxRow ((row : Int) + 1) = _
      rw [h1]
      by_cases h0 : n = 0
      · simp [h0]
      · rw [if_neg h0, if_neg (by omega)]; omega
    · show max (copyRow old row (List.range n) s).maxCol ((n : Int) + 1) = _
      rw [h2]; push_cast; omega
    · show (copyRow old row (List.range n) s).title = _
      exact h3

theorem copyRows_append (old : OldSheet) (ncols : Nat) : ∀ (l1 l2 : List Nat) (s : Sheet),
    copyRows old ncols (l1 ++ l2) s = copyRows old ncols l2 (copyRows old ncols l1 s)
  | [], _, _ => rfl
  | a :: l1, l2, s => by rw [List.cons_append, copyRows, copyRows, copyRows_append]

theorem copyRows_spec (old : OldSheet) (ncols : Nat) (hc : ncols ≠ 0) (title : Str) : ∀ n : Nat,
    (∀ r c : Int, (copyRows old ncols (List.range n) (Sheet.empty title)).cells r c =
      if 1 ≤ r ∧ r ≤ n ∧ 1 ≤ c ∧ c ≤ ncols then old.value (r - 1).toNat (c - 1).toNat else .none) ∧
    (copyRows old ncols (List.range n) (Sheet.empty title)).maxRow = max 1 n ∧
    (copyRows old ncols (List.range n) (Sheet.empty title)).maxCol = (if n = 0 then 1 else (ncols : Int)) ∧
    (copyRows old ncols (List.range n) (Sheet.empty title)).title = title
  | 0 => by
    refine ⟨?_, rfl, rfl, rfl⟩
    intro r c
    rw [if_neg (by omega)]
    rfl
  | n + 1 => by
    obtain ⟨h1, h2, h3, h4⟩ := copyRows_spec old ncols hc title n
    rw [List.range_succ, copyRows_append]
    generalize copyRows old ncols (List.range n) (Sheet.empty title) = s at *
    rw [copyRows, copyRows]
    have hm1 : 1 ≤ s.maxCol := by rw [h3]; split <;> omega
    obtain ⟨m1, m2, m3⟩ := copyRow_marks old n ncols s hm1
    refine ⟨?_, ?_, ?_, ?_⟩
    · intro r c
      rw [copyRow_cells, h1]
      have hex : (∃ j ∈ List.range ncols, c = (j : Int) + 1) ↔ 1 ≤ c ∧ c ≤ ncols := by
        constructor
        · rintro ⟨j, hj, rfl⟩; rw [List.mem_range] at hj; omega
        · rintro ⟨a, b⟩; exact ⟨(c - 1).toNat, by rw [List.mem_range]; omega, by omega⟩
      simp only [hex]
      by_cases hr : r = n + 1
      · by_cases hcc : 1 ≤ c ∧ c ≤ ncols
        · rw [if_pos ⟨hr, hcc⟩, if_pos (by push_cast; omega)]
          congr 1
          omega
        · rw [if_neg (fun h => hcc h.2), if_neg (fun h => hcc h.2.2), if_neg (fun h => hcc h.2.2)]
      · rw [if_neg (fun h => hr h.1)]
        by_cases hin : 1 ≤ r ∧ r ≤ n ∧ 1 ≤ c ∧ c ≤ ncols
        · rw [if_pos hin, if_pos (by push_cast; omega)]
        · rw [if_neg hin, if_neg (by push_cast; omega)]
    · rw [m1, if_neg hc, h2]; omega
    · rw [m2, h3, if_neg (show ¬ n + 1 = 0 by omega)]
      split <;> omega
    · rw [m3, h4]

/-- C71. Without empty sheets the conversion ends and gives every sheet with its title and each value at
its place. Missing: empty sheets (`C71_empty_sheet_violated`). -/
theorem C71_every_cell_partial (olds : List OldSheet) (h : ∀ old ∈ olds, old.nrows * old.ncols ≠ 0)
    (fuel : Nat) : ∃ ss, convertSheets (fuel + 1) olds = some ss ∧ List.Forall₂ Converted olds ss := by
  induction olds with
  | nil => exact ⟨[], rfl, .nil⟩
  | cons old olds ih =>
    obtain ⟨ss, h1, h2⟩ := ih fun o ho => h o (List.mem_cons_of_mem _ ho)
    have h0 := h old (by simp)
    have hr : old.nrows ≠ 0 := by intro h; rw [h] at h0; simp at h0
    have hc : old.ncols ≠ 0 := by intro h; rw [h] at h0; simp at h0
    unfold convertSheets
    rw [sizeLoop_ok old h0, h1]
    refine ⟨_, rfl, .cons ?_ h2⟩
    obtain ⟨c1, c2, c3, c4⟩ := copyRows_spec old old.ncols hc old.name old.nrows
    refine ⟨c4, ?_, ?_, ?_, ?_⟩
    · intro r c hr' hc'
      rw [c1, if_pos (by omega)]
      congr 1 <;> omega
    · intro r c hn
      rw [c1, if_neg hn]
    · rw [c2]; omega
    · rw [c3, if_neg hr]

/-- C71, violated: with an empty sheet the conversion never ends. -/
theorem C71_empty_sheet_violated (olds : List OldSheet) (old : OldSheet) (hmem : old ∈ olds)
    (h : old.nrows * old.ncols = 0) (fuel : Nat) : convertSheets fuel olds = none := by
  induction olds with
  | nil => cases hmem
  | cons o olds ih =>
    unfold convertSheets
    rcases List.mem_cons.1 hmem with rfl | hm
    · rw [sizeLoop_forever old h fuel 0 0 (by simp)]
    · rw [ih hm]
      cases sizeLoop o fuel 0 0 <;> rfl

/-- A sheet of three rows and two columns of numbers. -/
def Sample.old : OldSheet where
  name := c!"Hoja1"
  nrows := 3
  ncols := 2
  value := fun r c => .int (10 * r + c)

example : ∃ s, convertSheets 1 [Sample.old] = some [s] ∧ s.cells 3 2 = .int 21 := by
  obtain ⟨ss, h1, h2⟩ := C71_every_cell_partial [Sample.old] (by decide) 0
  cases h2 with
  | cons h h2 =>
    cases h2
    exact ⟨_, h1, h.values 2 1 (by decide) (by decide)⟩

example (fuel : Nat) : convertSheets fuel [Sample.old, { Sample.old with nrows := 0 }] = none :=
  C71_empty_sheet_violated _ { Sample.old with nrows := 0 } (by simp) rfl fuel

/-! ### C72 -/

theorem pathOf_append (as bs : List Str) : pathOf (as ++ bs) = pathOf as ++ pathOf bs := by
  unfold pathOf; rw [List.flatMap_append]

theorem pathOf_single (c : Str) : pathOf [c] = '/' :: c := by simp [pathOf]

theorem baseName_pathOf {cs : List Str} {c : Str} (hc : '/' ∉ c) : baseName (pathOf (cs ++ [c])) = c := by
  unfold baseName
  rw [pathOf_append, pathOf_single, List.reverse_append, List.reverse_cons, List.append_assoc,
    List.takeWhile_append_of_pos]
  · simp
  · intro x hx
    rw [List.mem_reverse] at hx
    rw [decide_eq_true_eq]
    rintro rfl
    exact hc hx

theorem head_pathOf {cs : List Str} {c : Str} (hc : '/' ∉ c) :
    ((pathOf (cs ++ [c])).reverse.dropWhile (· ≠ '/')).reverse = pathOf cs ++ ['/'] := by
  rw [pathOf_append, pathOf_single, List.reverse_append, List.reverse_cons, List.append_assoc,
    List.dropWhile_append_of_pos]
  · simp
  · intro x hx
    rw [List.mem_reverse] at hx
    rw [decide_eq_true_eq]
    rintro rfl
    exact hc hx

theorem pathHead_pathOf {cs : List Str} {c : Str} (hcs : ∀ d ∈ cs, FileName d) (hc : '/' ∉ c)
    (hne : cs ≠ []) : pathHead (pathOf (cs ++ [c])) = pathOf cs := by
  unfold pathHead
  dsimp only
  rw [head_pathOf hc]
  obtain ⟨ds, d, rfl⟩ : ∃ ds d, cs = ds ++ [d] := by
    rcases List.eq_nil_or_concat' cs with h | ⟨ds, d, h⟩
    · exact absurd h hne
    · exact ⟨ds, d, h⟩
  obtain ⟨hd1, hd2⟩ := hcs d (by simp)
  obtain ⟨x, xs, rfl⟩ : ∃ x xs, d = x :: xs := by
    cases d with
    | nil => exact absurd rfl hd1
    | cons x xs => exact ⟨x, xs, rfl⟩
  have hx : x ≠ '/' := by rintro rfl; exact hd2 (by simp)
  rw [if_neg]
  · rw [List.reverse_append, List.reverse_cons, List.reverse_nil, List.nil_append,
      List.singleton_append, List.dropWhile_cons_of_pos (by simp), pathOf_append, pathOf_single,
      List.reverse_append]
    have : (('/' :: x :: xs).reverse ++ (pathOf ds).reverse).dropWhile (· = '/') =
        ('/' :: x :: xs).reverse ++ (pathOf ds).reverse := by
      rcases List.eq_nil_or_concat' (x :: xs) with h | ⟨ys, y, h⟩
      · cases h
      · rw [h, List.reverse_cons, List.reverse_append]
        have hy : y ≠ '/' := by
          rintro rfl
          exact hd2 (by rw [h]; simp)
        simp [hy]
    rw [this]
    simp
  · rw [List.all_eq_true]
    intro h
    have := h x (by rw [pathOf_append, pathOf_single]; simp)
    rw [decide_eq_true_eq] at this
    exact hx this

theorem isAbs_pathOf {c : Str} {cs : List Str} : isAbs (pathOf (cs ++ [c])) = true := by
  cases cs <;> rfl

theorem append_mid (pre : List Str) (n : Str) (mid : List Str) (l : Str) :
    pre ++ n :: mid ++ [l] = (pre ++ n :: mid) ++ [l] := rfl

/-- C72. The innermost directory named as the package, among those that contain the path, is found.
Missing: paths that are in no such directory (`C72_outside_violated`). -/
theorem C72_innermost_partial (name : Str) (sysPath : List Str) (pre : List Str) (last : Str) :
    ∀ (mid : List Str), (∀ d ∈ pre ++ name :: mid, FileName d) → FileName last → name ∉ mid →
    ∀ fuel, mid.length < fuel →
    packageDir name sysPath fuel (pathOf ((pre ++ name :: mid) ++ [last])) =
      some (.ok (pathOf (pre ++ [name]))) := by
  intro mid
  induction mid using List.reverseRecOn generalizing last with
  | nil =>
    intro hf hl _ fuel hfuel
    obtain ⟨fuel, rfl⟩ : ∃ f, fuel = f + 1 := ⟨fuel - 1, by omega⟩
    rw [packageDir, if_pos isAbs_pathOf, pathHead_pathOf hf hl.2 (by simp),
      if_pos (baseName_pathOf (hf name (by simp)).2)]
  | append_singleton mid m ih =>
    intro hf hl hn fuel hfuel
    obtain ⟨fuel, rfl⟩ : ∃ f, fuel = f + 1 := ⟨fuel - 1, by omega⟩
    rw [List.length_append, List.length_singleton] at hfuel
    have he : pre ++ name :: (mid ++ [m]) = (pre ++ name :: mid) ++ [m] := by simp
    rw [packageDir, if_pos isAbs_pathOf, pathHead_pathOf hf hl.2 (by simp), he,
      baseName_pathOf (hf m (by simp)).2, if_neg]
    · exact ih m (fun d hd => hf d (by rw [he, List.mem_append]; exact .inl hd)) (hf m (by simp))
        (fun h => hn (by simp [h])) fuel (by omega)
    · rintro rfl
      exact hn (by simp)

theorem packageDir_root (name : Str) (hname : name ≠ []) (sysPath : List Str) :
    ∀ fuel, packageDir name sysPath fuel c!"/" = none
  | 0 => rfl
  | fuel + 1 => by
    rw [packageDir, if_pos (show isAbs c!"/" = true from rfl)]
    have h1 : pathHead c!"/" = c!"/" := by decide
    have h2 : baseName c!"/" = [] := by decide
    rw [h1, h2, if_neg (fun h => hname h.symm)]
    exact packageDir_root name hname sysPath fuel

/-- C72, violated: for an absolute path in no directory of that name the search never ends. -/
theorem C72_outside_violated (name : Str) (hname : name ≠ []) (sysPath : List Str) (last : Str) :
    ∀ (dirs : List Str), (∀ d ∈ dirs, FileName d) → FileName last → name ∉ dirs → ∀ fuel,
    packageDir name sysPath fuel (pathOf (dirs ++ [last])) = none := by
  intro dirs
  induction dirs using List.reverseRecOn generalizing last with
  | nil =>
    intro _ hl _ fuel
    cases fuel with
    | zero => rfl
    | succ fuel =>
      have h1 : pathHead (pathOf ([] ++ [last])) = c!"/" := by
        unfold pathHead
        dsimp only
        rw [head_pathOf hl.2]
        decide
      have h2 : baseName c!"/" = [] := by decide
      rw [packageDir, if_pos isAbs_pathOf, h1, h2, if_neg (fun h => hname h.symm)]
      exact packageDir_root name hname sysPath fuel
  | append_singleton dirs m ih =>
    intro hf hl hn fuel
    cases fuel with
    | zero => rfl
    | succ fuel =>
      rw [packageDir, if_pos isAbs_pathOf, pathHead_pathOf hf hl.2 (by simp),
        baseName_pathOf (hf m (by simp)).2, if_neg]
      · exact ih m (fun d hd => hf d (by simp [hd])) (hf m (by simp)) (fun h => hn (by simp [h])) fuel
      · rintro rfl
        exact hn (by simp)

/-- C72. For a path that is not absolute the answer is the first entry of the search path with that name,
and an error if there is none. -/
theorem C72_relative (name : Str) (sysPath : List Str) (path : Str) (h : path.head? ≠ some '/')
    (fuel : Nat) (r : Except Err Str) : packageDir name sysPath (fuel + 1) path = some r ↔
      (∃ p, r = .ok p ∧ FirstWith sysPath (fun q => baseName q = name) p) ∨
      (r = .error .packageDirNotFound ∧ ∀ p ∈ sysPath, baseName p ≠ name) := by
  rw [packageDir, if_neg (by unfold isAbs; rw [decide_eq_true_eq]; exact h)]
  have hq : ∀ m : Str, decide (baseName m = name) = true ↔ baseName m = name := fun m => decide_eq_true_iff
  split
  next p hp =>
    rw [find_firstWith hq] at hp
    constructor
    · intro h; injection h with h; exact .inl ⟨p, h.symm, hp⟩
    · rintro (⟨q, rfl, hq'⟩ | ⟨_, hnone⟩)
      · rw [firstWith_unique hp hq']
      · exact absurd (FirstWith.holds hp).2 (hnone _ (FirstWith.holds hp).1)
  next hp =>
    rw [List.find?_eq_none] at hp
    constructor
    · intro h; injection h with h; exact .inr ⟨h.symm, fun m hm he => hp m hm ((hq m).2 he)⟩
    · rintro (⟨q, rfl, hq'⟩ | ⟨rfl, _⟩)
      · exact absurd ((hq q).2 (FirstWith.holds hq').2) (hp q (FirstWith.holds hq').1)
      · rfl

example : packageDir c!"xlseries" [] 9 c!"/src/xlseries/xlseries/utils/a.py" =
    some (.ok c!"/src/xlseries/xlseries") :=
  C72_innermost_partial c!"xlseries" [] [c!"src", c!"xlseries"] c!"a.py" [c!"utils"]
    (by unfold FileName; decide) (by unfold FileName; decide) (by decide) 9 (by decide)

example (fuel : Nat) : packageDir c!"xlseries" [] fuel c!"/home/x.py" = none :=
  C72_outside_violated c!"xlseries" (by decide) [] c!"x.py" [c!"home"]
    (by unfold FileName; decide) (by unfold FileName; decide) (by decide) fuel

end Xls
