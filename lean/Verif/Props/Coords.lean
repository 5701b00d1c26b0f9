/-
C64-C66, C86: column letters, consecutive cells, scopes, the common row or column.
-/
import Verif.Lemmas.Runs
import Verif.Lemmas.Spelling

set_option autoImplicit false

namespace Xls
open Spec

/-! ### C64: column letters and numbers correspond one to one -/

/-- C64. The letters of a column number, read back, give the number. -/
theorem C64_number_letters_number (n : Nat) (hn : 1 ≤ n) :
    colLetter n ≠ [] ∧ Capitals (colLetter n) ∧ wordNumber (colLetter n) = n ∧
      colIndex (colLetter n) = n := by
  have hcap : Capitals (colLetter n) := fun c hc =>
    (isUpperLetter_iff c).1 (isUpperLetter_colLetter n c hc)
  refine ⟨colLetter_ne_nil hn, hcap, ?_, colIndex_colLetter n⟩
  rw [← colIndex_eq_wordNumber hcap, colIndex_colLetter]

/-- C64. The number of a column word, written back in letters, gives the word. -/
theorem C64_letters_number_letters (w : Str) (hw : Capitals w) :
    colIndex w = wordNumber w ∧ colLetter (colIndex w) = w :=
  ⟨colIndex_eq_wordNumber hw, colLetter_colIndex fun c hc => (isUpperLetter_iff c).2 (hw c hc)⟩

example : colLetter 703 = c!"AAA" ∧ Capitals c!"XFD" ∧ colIndex c!"XFD" = 16384 := by
  refine ⟨rfl, ?_, rfl⟩
  unfold Capitals; decide

/-- C64. A written coordinate is read back as the same row and column. -/
theorem C64_coordinate (r c : Nat) (hr : 1 ≤ r) (hc : 1 ≤ c) :
    coordOf (coordStr r c) = .ok ((r : Int), (c : Int)) := coordOf_coordStr hr hc

example : coordStr 120 28 = c!"AB120" := rfl

/-- C64. Exactly the texts that spell the cell, in capital or small letters, with or without `$`, are read as its
coordinate. -/
theorem C64_spelled (s : Str) (rc : Int × Int) :
    coordOf s = .ok rc ↔ ∃ r c : Nat, rc = ((r : Int), (c : Int)) ∧ Spelled s r c := by
  unfold coordOf
  constructor
  · intro h
    split at h
    next r c hp =>
      cases h
      exact ⟨r, c, rfl, (parseCoord_iff s r c).1 hp⟩
    · cases h
  · rintro ⟨r, c, rfl, h⟩
    rw [(parseCoord_iff s r c).2 h]

example : Spelled c!"$aB$012" 12 28 :=
  ⟨['$'], c!"aB", ['$'], c!"012", c!"AB", rfl, .inr rfl, .inr rfl, by decide, by unfold Capitals; decide,
    .cons (.inr rfl) (.cons (.inl rfl) .nil), rfl, by decide, by decide, rfl, by decide⟩

/-- C64. What is raised for other texts: a text with anything but letters, digits and `$` in it raises
`ValueError`, letters alone (up to three of them) name a whole column and raise `AttributeError`, and the empty
text raises `IndexError`. -/
theorem C64_not_a_cell (s : Str) :
    (∀ x ∈ s, isLetter x = false → isDigit x = false → x ≠ '$' → coordOf s = .error .valueError) ∧
    (s ≠ [] → s.length ≤ 3 → (∀ x ∈ s, isLetter x = true) → coordOf s = .error .attributeError) ∧
    (s = [] → coordOf s = .error .indexError) := by
  refine ⟨fun x hx hl hd h4 => ?_, fun hne hlen hl => ?_, fun h => by rw [h]; rfl⟩
  · have hux : upperChar x = x := by
      unfold upperChar
      rw [if_neg]
      intro h
      have h' : isLetter x = true := by
        simp only [isLetter, Bool.or_eq_true, Bool.and_eq_true, decide_eq_true_eq]
        omega
      rw [h'] at hl
      cases hl
    have hup : isUpperLetter x = false := by
      simp only [isLetter, Bool.or_eq_false_iff] at hl
      exact hl.1
    have notAll : ¬ (dropDollar ((dropDollar (upper s)).dropWhile isUpperLetter)).all isDigit = true := by
      intro hall
      obtain ⟨d1, hd1, e1⟩ := dropDollar_cases (upper s)
      obtain ⟨d2, hd2, e2⟩ := dropDollar_cases ((dropDollar (upper s)).dropWhile isUpperLetter)
      have e3 := List.takeWhile_append_dropWhile (p := isUpperLetter) (l := dropDollar (upper s))
      have hmem : x ∈ upper s := by
        have := List.mem_map_of_mem (f := upperChar) hx
        rw [hux] at this
        exact this
      rw [e1, ← e3, e2] at hmem
      have dollar : ∀ {d : Str}, (d = [] ∨ d = ['$']) → x ∉ d := by
        rintro d (rfl | rfl) h
        · cases h
        · exact h4 (List.mem_singleton.1 h)
      rcases List.mem_append.1 hmem with h | h
      · exact dollar hd1 h
      · rcases List.mem_append.1 h with h | h
        · rw [List.all_eq_true.1 List.all_takeWhile x h] at hup
          cases hup
        · rcases List.mem_append.1 h with h | h
          · exact dollar hd2 h
          · rw [List.all_eq_true.1 hall x h] at hd
            cases hd
    unfold coordOf parseCoord coordError
    dsimp only
    rw [if_neg (fun h => notAll h.2.2.1)]
    dsimp only
    rw [if_neg (fun h => notAll h.2)]
  · have hup : ∀ x ∈ upper s, isUpperLetter x = true := by
      intro x hx
      unfold upper at hx
      obtain ⟨y, hy, rfl⟩ := List.mem_map.1 hx
      have := hl y hy
      simp only [isLetter, Bool.or_eq_true, Bool.and_eq_true, decide_eq_true_eq] at this
      rw [isUpperLetter_iff]
      rcases upperChar_cases (x := y) rfl with h | h
      · rw [← h.1]
        omega
      · exact h.2
    have k1 : dropDollar (upper s) = upper s := dropDollar_of_plain fun x hx => .inl (hup x hx)
    obtain ⟨k2, k3⟩ : (upper s).takeWhile isUpperLetter = upper s ∧ (upper s).dropWhile isUpperLetter = [] := by
      have := takeWhile_append_stop (p := isUpperLetter) (b := []) hup (fun x hx => by cases hx)
      simpa using this
    have k4 : (upper s).length = s.length := List.length_map _
    have k5 : upper s ≠ [] := by
      intro h
      rw [h] at k4
      exact hne (List.length_eq_zero_iff.1 k4.symm)
    unfold coordOf parseCoord coordError
    dsimp only
    rw [k1, k2, k3, if_neg (fun h => h.2.1 rfl)]
    dsimp only
    rw [if_pos ⟨by omega, rfl⟩, if_neg (fun h => k5 h.1)]

example : coordOf c!"A-1" = .error .valueError ∧ coordOf c!"bc" = .error .attributeError ∧
    coordOf c!"A0" = .error .attributeError := by decide

/-! ### C65: consecutive cells -/

/-- C65, violated: a second cell diagonally below the first one is accepted although the cells are
no run. -/
theorem C65_diagonal_violated :
    consecutiveCells (names [(1, 1), (2, 2)]) = .ok true ∧
      ¬ AlongRow [(1, 1), (2, 2)] ∧ ¬ AlongColumn [(1, 1), (2, 2)] := by
  refine ⟨rfl, ?_, ?_⟩
  · rw [alongRow_cons]; decide
  · rw [alongColumn_cons]; decide

/-- C65, the part that holds: every run is accepted; and when the second cell shares the row or
the column of the first one, only runs are. Missing: lists whose second cell shares neither (see
`C65_exactly`). -/
theorem C65_consecutive_partial (ps : List Pos) (hp : Positive ps) :
    (AlongRow ps ∨ AlongColumn ps → consecutiveCells (names ps) = .ok true) ∧
    ((∀ a b rest, ps = a :: b :: rest → b.1 = a.1 ∨ b.2 = a.2) →
      consecutiveCells (names ps) = .ok true → AlongRow ps ∨ AlongColumn ps) ∧
    ∃ b, consecutiveCells (names ps) = .ok b := by
  refine ⟨?_, ?_, consecutive_total hp⟩
  · intro h
    cases ps with
    | nil => rfl
    | cons p ps =>
      have key : ps.dropWhile (askew p) = ps := by
        cases ps with
        | nil => rfl
        | cons q qs =>
          have : askew p q = false := by
            rcases h with h | h
            · rw [alongRow_cons, List.length_cons, rowFrom_succ] at h
              simp only [List.cons.injEq] at h
              simp [askew, h.1]
            · rw [alongColumn_cons, List.length_cons, colFrom_succ] at h
              simp only [List.cons.injEq] at h
              simp [askew, h.1]
          simp [this]
      rw [consecutive_iff hp, key]
      exact h
  · intro hs h
    cases ps with
    | nil => exact Or.inl ⟨0, 0, rfl⟩
    | cons p ps =>
      have key : ps.dropWhile (askew p) = ps := by
        cases ps with
        | nil => rfl
        | cons q qs =>
          have : askew p q = false := by
            rcases hs p q qs rfl with h | h <;> simp [askew, h]
          simp [this]
      rw [consecutive_iff hp, key] at h
      exact h

/-- C65: what exactly is accepted: the cells that share neither row nor column with the first one
and precede the first cell that does are ignored; the others must be a run. -/
theorem C65_exactly (p : Pos) (skipped rest : List Pos) (hp : Positive (p :: skipped ++ rest))
    (hs : ∀ q ∈ skipped, q.1 ≠ p.1 ∧ q.2 ≠ p.2)
    (hr : ∀ q rest', rest = q :: rest' → q.1 = p.1 ∨ q.2 = p.2) :
    consecutiveCells (names (p :: skipped ++ rest)) = .ok true ↔
      AlongRow (p :: rest) ∨ AlongColumn (p :: rest) := by
  have key : (skipped ++ rest).dropWhile (askew p) = rest := by
    have h1 : ∀ q ∈ skipped, askew p q = true := fun q hq => by simp [askew, hs q hq]
    rw [List.dropWhile_append_of_pos h1]
    cases rest with
    | nil => rfl
    | cons q qs =>
      have : askew p q = false := by
        rcases hr q qs rfl with h | h <;> simp [askew, h]
      simp [this]
  rw [List.cons_append] at hp ⊢
  rw [consecutive_iff hp, key]

example : Positive [(3, 2), (3, 3), (3, 4)] ∧ AlongRow [(3, 2), (3, 3), (3, 4)] ∧
    consecutiveCells (names [(3, 2), (3, 3), (3, 4)]) = .ok true ∧
    consecutiveCells (names [(3, 2), (3, 3), (4, 3)]) = .ok false :=
  ⟨by unfold Positive; decide, ⟨3, 2, rfl⟩, rfl, rfl⟩

/-! ### C66: scopes -/

/-- C66. Below a horizontal group of cells: the scope is everything in their columns that is not
above them. -/
theorem C66_below (ps : List Pos) (r c : Nat) (hp : Positive ps) (hr : 1 ≤ r) (hc : 1 ≤ c)
    (hl : 2 ≤ ps.length) (row : Nat) (h : ∀ p ∈ ps, p.1 = row) :
    coordInScope (.str (coordStr r c)) (names ps) =
      .ok (decide (row ≤ r ∧ ∃ p ∈ ps, p.2 = c)) := by
  cases ps with
  | nil => simp at hl
  | cons p ps =>
    unfold coordInScope
    have h1 : ¬ (names (p :: ps)).length < 2 := by simpa [names] using hl
    rw [if_neg h1]
    simp only [cellsOf_names hp]
    have h2 : ((p :: ps).map fun p => ((p.1 : Int), (p.2 : Int))).all
        (fun q => q.1 == (p.1 : Int)) = true := by
      rw [List.all_eq_true]
      intro q hq
      simp only [List.mem_map] at hq
      obtain ⟨x, hx, rfl⟩ := hq
      simp [h x hx, h p (by simp)]
    show (if _ then _ else _) = _
    rw [if_pos h2, cellOf_coordStr hr hc]
    show Except.ok _ = Except.ok _
    congr 1
    rw [Bool.eq_iff_iff, decide_eq_true_iff]
    simp only [Bool.and_eq_true, decide_eq_true_iff, List.any_eq_true, List.mem_map, beq_iff_eq]
    refine and_congr ?_ ?_
    · rw [h p (by simp)]; omega
    · constructor
      · rintro ⟨q, ⟨x, hx, rfl⟩, hq⟩
        refine ⟨x, hx, ?_⟩
        simpa [colText, colText_inj] using hq
      · rintro ⟨x, hx, rfl⟩
        exact ⟨_, ⟨x, hx, rfl⟩, rfl⟩

/-- What `coord_in_scope` computes right of a vertical group of cells: the columns are compared by
their letters, as words. -/
theorem scope_right (ps : List Pos) (r c : Nat) (hp : Positive ps) (hr : 1 ≤ r) (hc : 1 ≤ c)
    (col : Nat) (h : ∀ p ∈ ps, p.2 = col) (hrow : ¬ OneRow ps) :
    coordInScope (.str (coordStr r c)) (names ps) =
      .ok (strLe (colLetter col) (colLetter c) && decide (∃ p ∈ ps, p.1 = r)) := by
  cases ps with
  | nil => exact absurd ⟨0, by simp⟩ hrow
  | cons p ps =>
    unfold coordInScope
    have h1 : ¬ (names (p :: ps)).length < 2 := by
      intro hlt
      have : ps = [] := by
        cases ps with
        | nil => rfl
        | cons q qs => simp [names] at hlt; omega
      subst this
      exact hrow ⟨p.1, by simp⟩
    rw [if_neg h1]
    simp only [cellsOf_names hp]
    have h2 : ¬ ((p :: ps).map fun p => ((p.1 : Int), (p.2 : Int))).all
        (fun q => q.1 == (p.1 : Int)) = true := by
      intro hall
      rw [List.all_eq_true] at hall
      refine hrow ⟨p.1, fun q hq => ?_⟩
      have := hall _ (List.mem_map_of_mem hq)
      simpa using this
    have h3 : ((p :: ps).map fun p => ((p.1 : Int), (p.2 : Int))).all
        (fun q => q.2 == (p.2 : Int)) = true := by
      rw [List.all_eq_true]
      intro q hq
      simp only [List.mem_map] at hq
      obtain ⟨x, hx, rfl⟩ := hq
      simp [h x hx, h p (by simp)]
    show (if _ then _ else _) = _
    rw [if_neg h2, if_pos h3, cellOf_coordStr hr hc]
    show Except.ok _ = Except.ok _
    congr 1
    have hcol : p.2 = col := h p (by simp)
    rw [hcol]
    have h4 : ((p :: ps).map fun p => ((p.1 : Int), (p.2 : Int))).any (fun q => q.1 == (r : Int))
        = decide (∃ q ∈ p :: ps, q.1 = r) := by
      rw [Bool.eq_iff_iff, decide_eq_true_iff]
      simp only [List.any_eq_true, List.mem_map, beq_iff_eq]
      constructor
      · rintro ⟨q, ⟨x, hx, rfl⟩, hq⟩
        exact ⟨x, hx, by simpa using hq⟩
      · rintro ⟨x, hx, rfl⟩
        exact ⟨_, ⟨x, hx, rfl⟩, rfl⟩
    rw [h4]
    rfl

/-- C66, the part that holds right of a vertical group: for columns with equally many letters (for
instance both up to Z) the scope is everything in their rows that is not left of them. Missing:
columns with different numbers of letters (`C66_beyond_z_violated`). -/
theorem C66_right_partial (ps : List Pos) (r c : Nat) (hp : Positive ps) (hr : 1 ≤ r) (hc : 1 ≤ c)
    (col : Nat) (h : ∀ p ∈ ps, p.2 = col) (hrow : ¬ OneRow ps)
    (hl : (colLetter col).length = (colLetter c).length) :
    coordInScope (.str (coordStr r c)) (names ps) =
      .ok (decide (col ≤ c ∧ ∃ p ∈ ps, p.1 = r)) := by
  rw [scope_right ps r c hp hr hc col h hrow]
  congr 1
  rw [Bool.eq_iff_iff, Bool.and_eq_true, decide_eq_true_iff, decide_eq_true_iff,
    strLe_same_length (fun x hx => (isUpperLetter_iff x).1 (isUpperLetter_colLetter col x hx))
      (fun x hx => (isUpperLetter_iff x).1 (isUpperLetter_colLetter c x hx)) hl]
  rw [← colIndex_eq_wordNumber (w := colLetter col)
      (fun x hx => (isUpperLetter_iff x).1 (isUpperLetter_colLetter col x hx)),
    ← colIndex_eq_wordNumber (w := colLetter c)
      (fun x hx => (isUpperLetter_iff x).1 (isUpperLetter_colLetter c x hx)),
    colIndex_colLetter, colIndex_colLetter]

/-- C66, violated: the claim of `C66_right_partial` without its last hypothesis is false: AA1 is to
the right of B1:B2 but is not found in its scope. -/
theorem C66_beyond_z_violated :
    ¬ ∀ (ps : List Pos) (r c col : Nat), Positive ps → 1 ≤ r → 1 ≤ c → (∀ p ∈ ps, p.2 = col) →
      ¬ OneRow ps →
      coordInScope (.str (coordStr r c)) (names ps) =
        .ok (decide (col ≤ c ∧ ∃ p ∈ ps, p.1 = r)) := by
  intro h
  have h1 := h [(1, 2), (2, 2)] 1 27 2 (by unfold Positive; decide) (by decide) (by decide)
    (by decide) (by
      rintro ⟨r, hr⟩
      have h1 := hr (1, 2) (by simp)
      have h2 := hr (2, 2) (by simp)
      omega)
  have h2 : coordInScope (.str (coordStr 1 27)) (names [(1, 2), (2, 2)]) = .ok false := rfl
  rw [h2] at h1
  simp at h1

/-- C66. A group that is neither in one row nor in one column is refused; so are groups of fewer
than two cells. -/
theorem C66_no_group (coord : PVal) (ps : List Pos) (hp : Positive ps) :
    (ps.length < 2 → coordInScope coord (names ps) = .error .assertionError) ∧
    (¬ OneRow ps → ¬ OneColumn ps → coordInScope coord (names ps) = .error .exception) := by
  constructor
  · intro hl
    unfold coordInScope
    rw [if_pos (by simpa [names] using hl)]
    rfl
  · intro h1 h2
    cases ps with
    | nil => exact absurd ⟨0, by simp⟩ h1
    | cons p ps =>
      have hlen : ¬ (names (p :: ps)).length < 2 := by
        intro hlt
        have : ps = [] := by
          cases ps with
          | nil => rfl
          | cons q qs => simp [names] at hlt; omega
        subst this
        exact h1 ⟨p.1, by simp⟩
      unfold coordInScope
      rw [if_neg hlen]
      simp only [cellsOf_names hp]
      have h3 : ¬ ((p :: ps).map fun p => ((p.1 : Int), (p.2 : Int))).all
          (fun q => q.1 == (p.1 : Int)) = true := by
        intro hall
        rw [List.all_eq_true] at hall
        exact h1 ⟨p.1, fun q hq => by simpa using hall _ (List.mem_map_of_mem hq)⟩
      have h4 : ¬ ((p :: ps).map fun p => ((p.1 : Int), (p.2 : Int))).all
          (fun q => q.2 == (p.2 : Int)) = true := by
        intro hall
        rw [List.all_eq_true] at hall
        exact h2 ⟨p.2, fun q hq => by simpa using hall _ (List.mem_map_of_mem hq)⟩
      show (if _ then _ else _) = _
      rw [if_neg h3, if_neg h4]
      rfl

example : Positive [(1, 2), (1, 3), (1, 4)] ∧ (∀ p ∈ [(1, 2), (1, 3), (1, 4)], p.1 = 1) ∧
    coordInScope (.str (coordStr 2 3)) (names [(1, 2), (1, 3), (1, 4)]) = .ok true ∧
    coordInScope (.str (coordStr 2 5)) (names [(1, 2), (1, 3), (1, 4)]) = .ok false :=
  ⟨by unfold Positive; decide, by decide, rfl, rfl⟩

example : ¬ OneRow [(4, 2), (5, 2)] ∧ (colLetter 2).length = (colLetter 26).length ∧
    coordInScope (.str (coordStr 5 26)) (names [(4, 2), (5, 2)]) = .ok true := by
  refine ⟨?_, rfl, rfl⟩
  rintro ⟨r, h⟩
  have h1 := h (4, 2) (by simp)
  have h2 := h (5, 2) (by simp)
  omega

/-! ### C86: the common row or column -/

/-- C86. `common_row_or_column` of at least two cells is the number of their row if they share one,
otherwise the number of their column if they share one, otherwise an error; fewer than two cells are
refused. -/
theorem C86_common (ps : List Pos) (hp : Positive ps) :
    (ps.length < 2 → commonRowOrColumn (names ps) = .error .assertionError) ∧
    (2 ≤ ps.length → ∀ row : Nat, (∀ p ∈ ps, p.1 = row) → commonRowOrColumn (names ps) = .ok (row : Int)) ∧
    (¬ OneRow ps → ∀ col : Nat, (∀ p ∈ ps, p.2 = col) → commonRowOrColumn (names ps) = .ok (col : Int)) ∧
    (¬ OneRow ps → ¬ OneColumn ps → commonRowOrColumn (names ps) = .error .exception) := by
  have hred : ∀ (p : Pos) (qs : List Pos), Positive (p :: qs) → ¬ (names (p :: qs)).length < 2 →
      commonRowOrColumn (names (p :: qs)) =
        if (∀ q ∈ p :: qs, q.1 = p.1) then .ok (p.1 : Int)
        else if (∀ q ∈ p :: qs, q.2 = p.2) then .ok (p.2 : Int) else .error .exception := by
    intro p qs hp hl
    unfold commonRowOrColumn
    rw [if_neg hl]
    simp only [cellsOf_names hp]
    have h1 : (((p :: qs).map fun p => ((p.1 : Int), (p.2 : Int))).all (fun q => q.1 == (p.1 : Int)) = true) ↔
        ∀ q ∈ p :: qs, q.1 = p.1 := by
      rw [List.all_map, List.all_eq_true]
      simp
    have h2 : (((p :: qs).map fun p => ((p.1 : Int), (p.2 : Int))).all (fun q => q.2 == (p.2 : Int)) = true) ↔
        ∀ q ∈ p :: qs, q.2 = p.2 := by
      rw [List.all_map, List.all_eq_true]
      simp
    show (if _ then _ else if _ then _ else _) = _
    rw [if_congr h1 rfl (if_congr h2 rfl rfl)]
    rfl
  have hlong : ∀ {qs : List Pos}, ¬ OneRow qs → 2 ≤ qs.length := by
    intro qs h
    match qs, h with
    | [], h => exact absurd ⟨0, by simp⟩ h
    | [p], h => exact absurd ⟨p.1, by simp⟩ h
    | _ :: _ :: _, _ => simp
  cases ps with
  | nil =>
    refine ⟨fun _ => rfl, fun h => (by simp at h), fun h => absurd ⟨0, by simp⟩ h,
      fun h => absurd ⟨0, by simp⟩ h⟩
  | cons p qs =>
    refine ⟨fun h => ?_, fun h row hr => ?_, fun h col hc => ?_, fun h1 h2 => ?_⟩
    · unfold commonRowOrColumn
      rw [if_pos (by simpa [names] using h)]
      rfl
    · rw [hred p qs hp (by simpa [names] using h), if_pos fun q hq => by rw [hr q hq, hr p (by simp)],
        hr p (by simp)]
    · have hl := hlong h
      rw [hred p qs hp (by simpa [names] using hl), if_neg fun h' => h ⟨p.1, h'⟩,
        if_pos fun q hq => by rw [hc q hq, hc p (by simp)], hc p (by simp)]
    · have hl := hlong h1
      rw [hred p qs hp (by simpa [names] using hl), if_neg fun h' => h1 ⟨p.1, h'⟩,
        if_neg fun h' => h2 ⟨p.2, h'⟩]

example : Positive [(1, 28), (7, 28)] ∧ ¬ OneRow [(1, 28), (7, 28)] ∧
    commonRowOrColumn (names [(1, 28), (7, 28)]) = .ok 28 := by
  have h : ¬ OneRow [(1, 28), (7, 28)] := by
    rintro ⟨r, hr⟩
    have h1 := hr (1, 28) (by simp)
    have h2 := hr (7, 28) (by simp)
    omega
  have hp : Positive [(1, 28), (7, 28)] := by unfold Positive; decide
  exact ⟨hp, h, (C86_common _ hp).2.2.1 h 28 (by decide)⟩

end Xls
