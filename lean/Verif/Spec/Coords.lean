/-
Specification of cell coordinates, rectangles and runs of cells.
-/
import Verif.Model.PyVal
import Mathlib.Data.List.Forall2

set_option autoImplicit false

namespace Xls.Spec

/-- The number a word of capital letters stands for as a column: `A` = 1, ..., `Z` = 26,
`AA` = 27, ... (each letter counts 26 times more than the one to its right). -/
def wordNumber : List Char → Nat
  | [] => 0
  | c :: cs => (c.toNat - 'A'.toNat + 1) * 26 ^ cs.length + wordNumber cs

/-- A word of capital letters. -/
def Capitals (w : List Char) : Prop := ∀ c ∈ w, 'A'.toNat ≤ c.toNat ∧ c.toNat ≤ 'Z'.toNat

/-- A word written in capital or small letters, or both: each letter is that of the capital word or the small one
for it. -/
def InCase (w W : List Char) : Prop := List.Forall₂ (fun x X => x = X ∨ x.toNat = X.toNat + 32) w W

/-- The text names the cell in a row and a column: a column word in capital or small letters and a row number in
decimal digits, at least 1, each with a `$` in front or not. -/
def Spelled (s : List Char) (row col : Nat) : Prop :=
  ∃ d₁ w d₂ ds W, s = d₁ ++ w ++ d₂ ++ ds ∧ (d₁ = [] ∨ d₁ = ['$']) ∧ (d₂ = [] ∨ d₂ = ['$']) ∧
    W ≠ [] ∧ Capitals W ∧ InCase w W ∧ wordNumber W = col ∧
    ds ≠ [] ∧ (∀ y ∈ ds, '0'.toNat ≤ y.toNat ∧ y.toNat ≤ '9'.toNat) ∧
    ds.foldl (fun a y => a * 10 + (y.toNat - '0'.toNat)) 0 = row ∧ 1 ≤ row

/-- A position: row and column, both at least 1. -/
abbrev Pos := Nat × Nat

/-- Rows and columns start at 1. -/
def Positive (ps : List Pos) : Prop := ∀ p ∈ ps, 1 ≤ p.1 ∧ 1 ≤ p.2

/-- The coordinates of some positions, as a user writes them. -/
def names (ps : List Pos) : List PVal := ps.map fun p => .str (coordStr p.1 p.2)

/-- A left-to-right run of cells in one row. -/
def AlongRow (ps : List Pos) : Prop := ∃ r c, ps = (List.range ps.length).map fun i => (r, c + i)

/-- A top-to-bottom run of cells in one column. -/
def AlongColumn (ps : List Pos) : Prop := ∃ r c, ps = (List.range ps.length).map fun i => (r + i, c)

/-- All cells lie in one row. -/
def OneRow (ps : List Pos) : Prop := ∃ r, ∀ p ∈ ps, p.1 = r

/-- All cells lie in one column. -/
def OneColumn (ps : List Pos) : Prop := ∃ c, ∀ p ∈ ps, p.2 = c

/-- Reading order: row by row, each row from left to right. -/
def Before (p q : Pos) : Prop := p.1 < q.1 ∨ (p.1 = q.1 ∧ p.2 < q.2)

/-- The list of the cells of the rectangle between two corners, each once, in reading order. -/
structure IsRectangle (a b : Pos) (ps : List Pos) : Prop where
  cells : ∀ p : Pos, p ∈ ps ↔ (a.1 ≤ p.1 ∧ p.1 ≤ b.1) ∧ (a.2 ≤ p.2 ∧ p.2 ≤ b.2)
  order : ps.Pairwise Before

end Xls.Spec
