/-
Lemmas about copies and attempts.
-/
import Verif.Spec.Scraper

set_option autoImplicit false

namespace Xls

open Spec

/-! ### Copies -/

theorem copyCells_cells (s : Sheet) (row : Nat) : ∀ (cols : List Nat) (t : Sheet) (r c : Int),
    (copyCells s row cols t).cells r c =
      if r = row + 1 ∧ ∃ j ∈ cols, c = (j : Int) + 1 then s.cells r c else t.cells r c
  | [], t, r, c => by simp [copyCells]
  | j :: cols, t, r, c => by
    rw [copyCells, copyCells_cells s row cols]
    show (if _ then _ else if r = row + 1 ∧ c = j + 1 then s.cells (row + 1) (j + 1) else t.cells r c) = _
    by_cases hr : r = row + 1
    · by_cases h1 : ∃ k ∈ cols, c = (k : Int) + 1
      · rw [if_pos ⟨hr, h1⟩, if_pos ⟨hr, by
          obtain ⟨k, hk, hc⟩ := h1; exact ⟨k, List.mem_cons_of_mem _ hk, hc⟩⟩]
      · rw [if_neg (fun h => h1 h.2)]
        by_cases h2 : c = (j : Int) + 1
        · rw [if_pos ⟨hr, h2⟩, if_pos ⟨hr, j, by simp, h2⟩, h2, hr]
        · rw [if_neg (fun h => h2 h.2), if_neg]
          rintro ⟨_, k, hk, hc⟩
          rcases List.mem_cons.1 hk with rfl | hk
          · exact h2 hc
          · exact h1 ⟨k, hk, hc⟩
    · rw [if_neg (fun h => hr h.1), if_neg (fun h => hr h.1), if_neg (fun h => hr h.1)]

theorem copyCells_append (s : Sheet) (row : Nat) : ∀ (l1 l2 : List Nat) (t : Sheet),
    copyCells s row (l1 ++ l2) t = copyCells s row l2 (copyCells s row l1 t)
  | [], _, _ => rfl
  | a :: l1, l2, t => by rw [List.cons_append, copyCells, copyCells, copyCells_append]

theorem copyCells_marks (s : Sheet) (row : Nat) : ∀ (n : Nat) (t : Sheet), 1 ≤ t.maxCol →
    (copyCells s row (List.range n) t).maxRow = (if n = 0 then t.maxRow else max t.maxRow (row + 1)) ∧
    (copyCells s row (List.range n) t).maxCol = max t.maxCol n ∧
    (copyCells s row (List.range n) t).title = t.title
  | 0, t, h => by
    refine ⟨rfl, ?_, rfl⟩
    show t.maxCol = _
    omega
  | n + 1, t, h => by
    obtain ⟨h1, h2, h3⟩ := copyCells_marks s row n t h
    rw [List.range_succ, copyCells_append]
    refine ⟨?_, ?_, ?_⟩
    · show max (copyCells s row (List.range n) t).maxRow ((row : Int) + 1) = _
      rw [h1]
      by_cases h0 : n = 0
      · simp [h0]
      · rw [if_neg h0, if_neg (by omega)]; omega
    · show max (copyCells s row (List.range n) t).maxCol ((n : Int) + 1) = _
      rw [h2]; omega
    · show (copyCells s row (List.range n) t).title = _
      exact h3

theorem copyAllRows_append (s : Sheet) (ncols : Nat) : ∀ (l1 l2 : List Nat) (t : Sheet),
    copyAllRows s ncols (l1 ++ l2) t = copyAllRows s ncols l2 (copyAllRows s ncols l1 t)
  | [], _, _ => rfl
  | a :: l1, l2, t => by rw [List.cons_append, copyAllRows, copyAllRows, copyAllRows_append]

theorem copyAllRows_spec (s : Sheet) (ncols : Nat) (hc : ncols ≠ 0) (title : Str) : ∀ n : Nat,
    (∀ r c : Int, (copyAllRows s ncols (List.range n) (Sheet.empty title)).cells r c =
      if 1 ≤ r ∧ r ≤ n ∧ 1 ≤ c ∧ c ≤ ncols then s.cells r c else .none) ∧
    (copyAllRows s ncols (List.range n) (Sheet.empty title)).maxRow = max 1 n ∧
    (copyAllRows s ncols (List.range n) (Sheet.empty title)).maxCol = (if n = 0 then 1 else (ncols : Int)) ∧
    (copyAllRows s ncols (List.range n) (Sheet.empty title)).title = title
  | 0 => by
    refine ⟨?_, rfl, rfl, rfl⟩
    intro r c
    rw [if_neg (by omega)]
    rfl
  | n + 1 => by
    obtain ⟨h1, h2, h3, h4⟩ := copyAllRows_spec s ncols hc title n
    rw [List.range_succ, copyAllRows_append]
    generalize copyAllRows s ncols (List.range n) (Sheet.empty title) = t at *
    rw [copyAllRows, copyAllRows]
    have hm1 : 1 ≤ t.maxCol := by rw [h3]; split <;> omega
    obtain ⟨m1, m2, m3⟩ := copyCells_marks s n ncols t hm1
    refine ⟨?_, ?_, ?_, ?_⟩
    · intro r c
      rw [copyCells_cells, h1]
      have hex : (∃ j ∈ List.range ncols, c = (j : Int) + 1) ↔ 1 ≤ c ∧ c ≤ ncols := by
        constructor
        · rintro ⟨j, hj, rfl⟩; rw [List.mem_range] at hj; omega
        · rintro ⟨a, b⟩; exact ⟨(c - 1).toNat, by rw [List.mem_range]; omega, by omega⟩
      simp only [hex]
      by_cases hr : r = n + 1
      · by_cases hcc : 1 ≤ c ∧ c ≤ ncols
        · rw [if_pos ⟨hr, hcc⟩, if_pos (by push_cast; omega)]
        · rw [if_neg (fun h => hcc h.2), if_neg (fun h => hcc h.2.2), if_neg (fun h => hcc h.2.2)]
      · rw [if_neg (fun h => hr h.1)]
        by_cases hin : 1 ≤ r ∧ r ≤ n ∧ 1 ≤ c ∧ c ≤ ncols
        · rw [if_pos hin, if_pos (by push_cast; omega)]
        · rw [if_neg hin, if_neg (by push_cast; omega)]
    · rw [m1, if_neg hc, h2]; omega
    · rw [m2, h3, if_neg (show ¬ n + 1 = 0 by omega)]
      split <;> omega
    · rw [m3, h4]

theorem copySheet_eq {s : Sheet} (h : WellFormed s) : copySheet s = s := by
  have hr := h.rows
  have hc := h.cols
  obtain ⟨c1, c2, c3, c4⟩ := copyAllRows_spec s s.maxCol.toNat (by omega) s.title s.maxRow.toNat
  rw [if_neg (by omega)] at c3
  unfold copySheet
  generalize copyAllRows s s.maxCol.toNat (List.range s.maxRow.toNat) (Sheet.empty s.title) = t at *
  have hcells : t.cells = s.cells := by
    funext r c
    rw [c1]
    split
    · rfl
    next hn => exact (h.outside r c (by omega)).symm
  have h2 : t.maxRow = s.maxRow := by omega
  have h3 : t.maxCol = s.maxCol := by omega
  cases t; cases s
  simp only at hcells h2 h3 c4
  subst hcells h2 h3 c4
  rfl

/-! ### Memory -/

theorem newParamsAll_spec : ∀ (ps : List Params) (w : World),
    (w.newParamsAll ps).1 = List.range' w.nextParams ps.length ∧
    (w.newParamsAll ps).2.sheets = w.sheets ∧ (w.newParamsAll ps).2.nextSheet = w.nextSheet ∧
    (w.newParamsAll ps).2.nextParams = w.nextParams + ps.length ∧
    (∀ r < w.nextParams, (w.newParamsAll ps).2.params r = w.params r) ∧
    ((w.newParamsAll ps).1.map (w.newParamsAll ps).2.params = ps)
  | [], w => ⟨rfl, rfl, rfl, rfl, fun _ _ => rfl, rfl⟩
  | p :: ps, w => by
    obtain ⟨h1, h2, h3, h4, h5, h6⟩ := newParamsAll_spec ps (w.newParams p).2
    have e : w.newParamsAll (p :: ps) =
        (w.nextParams :: ((w.newParams p).2.newParamsAll ps).1, ((w.newParams p).2.newParamsAll ps).2) := rfl
    rw [e]
    dsimp only
    have hn : (w.newParams p).2.nextParams = w.nextParams + 1 := rfl
    rw [hn] at h1 h4 h5
    refine ⟨?_, h2, h3, ?_, ?_, ?_⟩
    · rw [h1, List.length_cons, List.range'_succ]
    · rw [h4, List.length_cons]; omega
    · intro r hr
      rw [h5 r (by omega)]
      show (if r = w.nextParams then p else w.params r) = _
      rw [if_neg (by omega)]
    · rw [List.map_cons, h6, h5 _ (by omega)]
      show (if w.nextParams = w.nextParams then p else _) :: ps = _
      rw [if_pos rfl]

theorem givenAs_iff (fs : List Frame) (d : Dfs) : GivenAs fs d ↔ unwrap fs = d := by
  unfold GivenAs
  match fs with
  | [] => simp [unwrap, eq_comm]
  | [f] => simp [unwrap, eq_comm]
  | _ :: _ :: _ => simp [unwrap, eq_comm]

/-- What the loop over attempts leaves alone. -/
theorem attemptLoop_frame (ext : Ext) (safe : Bool) (ws : Nat) : ∀ (prs : List Nat) (w : World),
    SheetsKept w (attemptLoop ext safe ws prs w).2 ∧
    w.nextSheet ≤ (attemptLoop ext safe ws prs w).2.nextSheet ∧
    (attemptLoop ext safe ws prs w).2.nextParams = w.nextParams ∧
    ∀ r, r ∉ prs → (attemptLoop ext safe ws prs w).2.params r = w.params r
  | [], w => ⟨fun _ _ => rfl, Nat.le_refl _, rfl, fun _ _ => rfl⟩
  | pr :: prs, w => by
    unfold attemptLoop
    dsimp only [World.newSheet]
    rcases hrun : runOn ext w.nextSheet pr _ with ⟨r, w2⟩
    have hw2 : (∀ q, q ≠ w.nextSheet → w2.sheets q = w.sheets q) ∧ w2.nextSheet = w.nextSheet + 1 ∧
        w2.nextParams = w.nextParams ∧ ∀ q, q ≠ pr → w2.params q = w.params q := by
      unfold runOn at hrun
      rcases hs : scrape ext _ _ with ⟨r', p', s'⟩
      rw [hs] at hrun
      cases hrun
      refine ⟨?_, rfl, rfl, ?_⟩
      · intro q hq
        show (if q = w.nextSheet then s' else if q = w.nextSheet then _ else w.sheets q) = _
        rw [if_neg hq, if_neg hq]
      · intro q hq
        show (if q = pr then p' else w.params q) = _
        rw [if_neg hq]
    obtain ⟨a1, a2, a3, a4⟩ := hw2
    obtain ⟨i1, i2, i3, i4⟩ := attemptLoop_frame ext safe ws prs w2
    have hrec : SheetsKept w (attemptLoop ext safe ws prs w2).2 ∧
        w.nextSheet ≤ (attemptLoop ext safe ws prs w2).2.nextSheet ∧
        (attemptLoop ext safe ws prs w2).2.nextParams = w.nextParams ∧
        ∀ r, r ∉ pr :: prs → (attemptLoop ext safe ws prs w2).2.params r = w.params r := by
      refine ⟨?_, by omega, by omega, ?_⟩
      · intro q hq
        rw [i1 q (by omega), a1 q (by omega)]
      · intro q hq
        rw [List.mem_cons, not_or] at hq
        rw [i4 q hq.2, a4 q hq.1]
    cases r with
    | error e => exact hrec
    | ok fs =>
      dsimp only
      cases safe with
      | true => exact hrec
      | false =>
        refine ⟨fun q hq => a1 q (by omega), ?_, a3, ?_⟩
        · show w.nextSheet ≤ w2.nextSheet
          omega
        · intro q hq
          rw [List.mem_cons, not_or] at hq
          exact a4 q hq.1

/-- One round of the loop. -/
theorem attemptLoop_step {ext : Ext} {safe : Bool} {ws pr : Nat} {prs : List Nat} {w : World}
    (hwf : WellFormed (w.sheets ws)) (hws : ws < w.nextSheet) :
    ∃ w2 : World, w2.sheets ws = w.sheets ws ∧ ws < w2.nextSheet ∧
      w2.params pr = (scrape ext (w.params pr) (w.sheets ws)).2.1 ∧
      (∀ q, q ≠ pr → w2.params q = w.params q) ∧
      attemptLoop ext safe ws (pr :: prs) w =
        (match (scrape ext (w.params pr) (w.sheets ws)).1 with
          | .error _ => attemptLoop ext safe ws prs w2
          | .ok fs =>
            if safe then
              ((unwrap fs, pr) :: (attemptLoop ext safe ws prs w2).1, (attemptLoop ext safe ws prs w2).2)
            else ([(unwrap fs, pr)], w2)) := by
  rcases hs : scrape ext (w.params pr) (w.sheets ws) with ⟨r, p', s'⟩
  refine ⟨{ w with
    sheets := fun q => if q = w.nextSheet then s' else if q = w.nextSheet then w.sheets ws else w.sheets q
    nextSheet := w.nextSheet + 1
    params := fun q => if q = pr then p' else w.params q }, ?_, ?_, ?_, ?_, ?_⟩
  · show (if ws = w.nextSheet then s' else if ws = w.nextSheet then _ else w.sheets ws) = _
    rw [if_neg (by omega), if_neg (by omega)]
  · show ws < w.nextSheet + 1
    omega
  · show (if pr = pr then p' else _) = _
    rw [if_pos rfl]
  · intro q hq
    show (if q = pr then p' else w.params q) = _
    rw [if_neg hq]
  · rw [attemptLoop]
    dsimp only [World.newSheet]
    rw [copySheet_eq hwf]
    unfold runOn
    dsimp only
    rw [if_pos rfl, hs]
    cases r with
    | error e => rfl
    | ok fs => rfl

end Xls
