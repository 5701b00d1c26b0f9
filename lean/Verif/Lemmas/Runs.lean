/-
Runs of cells and rectangles.
-/
import Verif.Lemmas.Coords

set_option autoImplicit false

namespace Xls
open Spec

/-- `n` cells of one row from column `c`. -/
def rowFrom (r c n : Nat) : List Pos := (List.range n).map fun i => (r, c + i)

/-- `n` cells of one column from row `r`. -/
def colFrom (r c n : Nat) : List Pos := (List.range n).map fun i => (r + i, c)

theorem rowFrom_succ (r c n : Nat) : rowFrom r c (n + 1) = (r, c) :: rowFrom r (c + 1) n := by
  simp only [rowFrom, List.range_succ_eq_map, List.map_cons, List.map_map]
  congr 1
  apply List.map_congr_left
  intro i _
  simp; omega

theorem colFrom_succ (r c n : Nat) : colFrom r c (n + 1) = (r, c) :: colFrom (r + 1) c n := by
  simp only [colFrom, List.range_succ_eq_map, List.map_cons, List.map_map]
  congr 1
  apply List.map_congr_left
  intro i _
  simp; omega

theorem consecutiveFrom_cons {st : RunState} {p : Pos} {ps : List Pos} (hp : 1 ≤ p.1 ∧ 1 ≤ p.2) :
    consecutiveFrom st (names (p :: ps)) =
      match st.step p.1 p.2 with
      | none => .ok false
      | some st' => consecutiveFrom st' (names ps) := by
  show consecutiveFrom st (.str (coordStr p.1 p.2) :: names ps) = _
  rw [consecutiveFrom, cellOf_coordStr hp.1 hp.2]
  rfl

theorem consecutive_row {ps : List Pos} (h : Positive ps) (r c : Nat) :
    consecutiveFrom ⟨r, c, some .vertical⟩ (names ps) =
      .ok (decide (ps = rowFrom r (c + 1) ps.length)) := by
  induction ps generalizing c with
  | nil => simp [names, consecutiveFrom, rowFrom]
  | cons p ps ih =>
    have hp := h p (by simp)
    have hps : Positive ps := fun q hq => h q (by simp [hq])
    obtain ⟨a, b⟩ := p
    rw [consecutiveFrom_cons hp, List.length_cons, rowFrom_succ]
    simp only [RunState.step]
    by_cases h1 : a = r
    · subst h1
      by_cases h2 : b = c + 1
      · subst h2
        have := ih hps (c + 1)
        simp only [Nat.cast_add, Nat.cast_one] at this ⊢
        simp [this]
      · have h3 : (c : Int) + 1 ≠ (b : Int) := by omega
        simp [h2, h3]
    · have h3 : (a : Int) ≠ (r : Int) := by omega
      simp [h1, h3]

theorem consecutive_col {ps : List Pos} (h : Positive ps) (r c : Nat) :
    consecutiveFrom ⟨r, c, some .horizontal⟩ (names ps) =
      .ok (decide (ps = colFrom (r + 1) c ps.length)) := by
  induction ps generalizing r with
  | nil => simp [names, consecutiveFrom, colFrom]
  | cons p ps ih =>
    have hp := h p (by simp)
    have hps : Positive ps := fun q hq => h q (by simp [hq])
    obtain ⟨a, b⟩ := p
    rw [consecutiveFrom_cons hp, List.length_cons, colFrom_succ]
    simp only [RunState.step]
    by_cases h1 : b = c
    · subst h1
      by_cases h2 : a = r + 1
      · subst h2
        have := ih hps (r + 1)
        simp only [Nat.cast_add, Nat.cast_one] at this ⊢
        simp [this]
      · have h3 : (r : Int) + 1 ≠ (a : Int) := by omega
        simp [h2, h3]
    · have h3 : (b : Int) ≠ (c : Int) := by omega
      simp [h1, h3]

/-- Neither in the same row nor in the same column. -/
def askew (p q : Pos) : Bool := q.1 ≠ p.1 && q.2 ≠ p.2

theorem consecutive_start {ps : List Pos} (h : Positive ps) (r c : Nat) :
    consecutiveFrom ⟨r, c, none⟩ (names ps) =
      .ok (decide (ps.dropWhile (askew (r, c)) =
          rowFrom r (c + 1) (ps.dropWhile (askew (r, c))).length ∨
        ps.dropWhile (askew (r, c)) =
          colFrom (r + 1) c (ps.dropWhile (askew (r, c))).length)) := by
  induction ps with
  | nil => simp [names, consecutiveFrom, colFrom, rowFrom]
  | cons p ps ih =>
    have hp := h p (by simp)
    have hps : Positive ps := fun q hq => h q (by simp [hq])
    obtain ⟨a, b⟩ := p
    rw [consecutiveFrom_cons hp]
    simp only [RunState.step]
    by_cases h1 : a = r
    · have hs : askew (r, c) (a, b) = false := by simp [askew, h1]
      rw [List.dropWhile_cons, hs]
      simp only [Bool.false_eq_true, if_false, List.length_cons, rowFrom_succ, colFrom_succ]
      subst h1
      by_cases h2 : b = c + 1
      · subst h2
        have := consecutive_row hps a (c + 1)
        simp only [Nat.cast_add, Nat.cast_one] at this ⊢
        simp [this]
      · have h3 : (c : Int) + 1 ≠ (b : Int) := by omega
        simp [h2, h3]
    · have h3 : (a : Int) ≠ (r : Int) := by omega
      by_cases h2 : b = c
      · have hs : askew (r, c) (a, b) = false := by simp [askew, h2]
        rw [List.dropWhile_cons, hs]
        simp only [Bool.false_eq_true, if_false, List.length_cons, rowFrom_succ, colFrom_succ]
        subst h2
        by_cases h4 : a = r + 1
        · subst h4
          have := consecutive_col hps (r + 1) b
          simp only [Nat.cast_add, Nat.cast_one] at this ⊢
          simp [this]
        · have h5 : (r : Int) + 1 ≠ (a : Int) := by omega
          simp [h1, h4, h3, h5]
      · have hs : askew (r, c) (a, b) = true := by simp [askew, h2, h1]
        have h4 : (b : Int) ≠ (c : Int) := by omega
        rw [List.dropWhile_cons, hs]
        simp only [h3, h4, if_false, if_true]
        exact ih hps

theorem consecutiveCells_names {p : Pos} {ps : List Pos} (h : Positive (p :: ps)) :
    consecutiveCells (names (p :: ps)) = consecutiveFrom ⟨p.1, p.2, none⟩ (names ps) := by
  have hp := h p (by simp)
  show consecutiveCells (.str (coordStr p.1 p.2) :: names ps) = _
  rw [consecutiveCells, cellOf_coordStr hp.1 hp.2]

theorem alongRow_cons (p : Pos) (ps : List Pos) :
    AlongRow (p :: ps) ↔ ps = rowFrom p.1 (p.2 + 1) ps.length := by
  constructor
  · rintro ⟨r, c, h⟩
    have h' : p :: ps = rowFrom r c (ps.length + 1) := h
    rw [rowFrom_succ] at h'
    simp only [List.cons.injEq] at h'
    obtain ⟨h1, h2⟩ := h'
    rw [h1]; exact h2
  · intro h
    refine ⟨p.1, p.2, ?_⟩
    show p :: ps = rowFrom p.1 p.2 (ps.length + 1)
    rw [rowFrom_succ, ← h]

theorem alongColumn_cons (p : Pos) (ps : List Pos) :
    AlongColumn (p :: ps) ↔ ps = colFrom (p.1 + 1) p.2 ps.length := by
  constructor
  · rintro ⟨r, c, h⟩
    have h' : p :: ps = colFrom r c (ps.length + 1) := h
    rw [colFrom_succ] at h'
    simp only [List.cons.injEq] at h'
    obtain ⟨h1, h2⟩ := h'
    rw [h1]; exact h2
  · intro h
    refine ⟨p.1, p.2, ?_⟩
    show p :: ps = colFrom p.1 p.2 (ps.length + 1)
    rw [colFrom_succ, ← h]

theorem consecutive_iff {p : Pos} {ps : List Pos} (h : Positive (p :: ps)) :
    consecutiveCells (names (p :: ps)) = .ok true ↔
      AlongRow (p :: ps.dropWhile (askew p)) ∨ AlongColumn (p :: ps.dropWhile (askew p)) := by
  rw [consecutiveCells_names h, consecutive_start fun q hq => h q (by simp [hq]),
    alongRow_cons, alongColumn_cons]
  simp

theorem consecutive_total {ps : List Pos} (h : Positive ps) :
    ∃ b, consecutiveCells (names ps) = .ok b := by
  cases ps with
  | nil => exact ⟨true, rfl⟩
  | cons p ps =>
    rw [consecutiveCells_names h, consecutive_start fun q hq => h q (by simp [hq])]
    exact ⟨_, rfl⟩

/-! ### Rectangles -/

/-- The positions of a rectangle in reading order. -/
def rectPositions (a b : Pos) : List Pos :=
  (List.range' a.1 (b.1 + 1 - a.1)).flatMap fun r =>
    (List.range' a.2 (b.2 + 1 - a.2)).map fun c => (r, c)

theorem rectCoords_eq (a b : Pos) :
    rectCoords a.1 a.2 b.1 b.2 = (rectPositions a b).map fun p => coordStr p.1 p.2 := by
  simp only [rectCoords, rectPositions, List.map_flatMap, List.map_map]
  rfl

theorem isRectangle_rectPositions (a b : Pos) : IsRectangle a b (rectPositions a b) where
  cells := by
    rintro ⟨r, c⟩
    simp only [rectPositions, List.mem_flatMap, List.mem_map, List.mem_range'_1, Prod.mk.injEq]
    constructor
    · rintro ⟨r', h1, c', h2, rfl, rfl⟩
      omega
    · rintro ⟨h1, h2⟩
      exact ⟨r, by omega, c, by omega, rfl, rfl⟩
  order := by
    unfold rectPositions
    rw [List.flatMap_def, List.pairwise_flatten]
    constructor
    · intro l hl
      simp only [List.mem_map] at hl
      obtain ⟨r, _, rfl⟩ := hl
      rw [List.pairwise_map]
      exact List.Pairwise.imp (fun h => Or.inr ⟨rfl, h⟩) List.pairwise_lt_range'
    · rw [List.pairwise_map]
      refine List.Pairwise.imp (fun {r r'} h => ?_) List.pairwise_lt_range'
      intro x hx y hy
      simp only [List.mem_map] at hx hy
      obtain ⟨_, _, rfl⟩ := hx
      obtain ⟨_, _, rfl⟩ := hy
      exact Or.inl h

end Xls
