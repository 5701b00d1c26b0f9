/-
Functions on cell coordinates of `xlseries/utils/xl_methods.py`.
-/
import Verif.Model.PyVal
import Mathlib.Data.List.Dedup

set_option autoImplicit false

namespace Xls

/-- `ws[coord]` for an arbitrary Python value (only (row, column) of the cell are used): a string
that is a coordinate gives the cell; an integer gives a whole row, which has no `.row`
(`AttributeError`); `True` becomes the text "True", no coordinate; other values are not accepted by the regular expression (`TypeError`). -/
def cellOf : PVal → Except Err (Int × Int)
  | .str s => coordOf s
  | .int _ => .error .attributeError
  | .bool _ => .error .valueError
  | _ => .error .typeError

/-- (row, column) of each coordinate: the list comprehensions `[ws[coord].row for coord in ...]`. -/
def cellsOf : List PVal → Except Err (List (Int × Int))
  | [] => .ok []
  | v :: vs => do
    let p ← cellOf v
    let ps ← cellsOf vs
    return p :: ps

/-- `len(set(xs))`. -/
def setLen (xs : List Int) : Nat := xs.dedup.length

/-- `str` comparison `a <= b` (by code point). -/
def strLe : Str → Str → Bool
  | [], _ => true
  | _ :: _, [] => false
  | a :: as, b :: bs => if a = b then strLe as bs else decide (a.toNat < b.toNat)

/-- `xlseries/utils/xl_methods.py:20-45` (`common_row_or_column`). -/
def commonRowOrColumn (coords : List PVal) : Except Err Int := do
  if coords.length < 2 then throw .assertionError
  let cs ← cellsOf coords
  match cs with
  | [] => throw .assertionError
  | (row, col) :: _ =>
    if cs.all (fun p => p.1 == row) then return row
    else if cs.all (fun p => p.2 == col) then return col
    else throw .exception

/-- `cell.column` (openpyxl 2.5: the letters). -/
def colText (c : Int) : Str := colLetter c.toNat

/-- `xlseries/utils/xl_methods.py:48-81` (`coord_in_scope`). Columns are letter strings in openpyxl
2.5.0, so `>=` on line 73 compares strings. The second `all` re-reads the same coordinates as the
first, so reading them once is the same. -/
def coordInScope (coord : PVal) (coords : List PVal) : Except Err Bool := do
  if coords.length < 2 then throw .assertionError
  let cs ← cellsOf coords
  match cs with
  | [] => throw .assertionError
  | (row, col) :: _ =>
    if cs.all (fun p => p.1 == row) then
      let p ← cellOf coord
      return decide (row ≤ p.1) && cs.any (fun q => colText q.2 == colText p.2)
    else if cs.all (fun p => p.2 == col) then
      let p ← cellOf coord
      return strLe (colText col) (colText p.2) && cs.any (fun q => q.1 == p.1)
    else throw .exception

/-- State of the loop of `consecutive_cells`: the position reached and the direction, once known
(`Align.vertical` = the cells run along a row, as in the source). -/
structure RunState where
  row : Int
  col : Int
  dir : Option Align

/-- One iteration, `xlseries/utils/xl_methods.py:107-141`, once the first cell is known; `none` is
`return False`. -/
def RunState.step (st : RunState) (r c : Int) : Option RunState :=
  match st.dir with
  | none =>
    if r = st.row then
      if st.col + 1 = c then some { st with col := st.col + 1, dir := some .vertical } else none
    else if c = st.col then
      if st.row + 1 = r then some { st with row := st.row + 1, dir := some .horizontal } else none
    else some st
  | some .vertical =>
    if r ≠ st.row then none
    else if st.col + 1 ≠ c then none
    else some { st with col := st.col + 1 }
  | some _ =>
    if c ≠ st.col then none
    else if st.row + 1 ≠ r then none
    else some { st with row := st.row + 1 }

/-- The loop `for cell in cell_list`, after the first cell. -/
def consecutiveFrom : RunState → List PVal → Except Err Bool
  | _, [] => .ok true
  | st, v :: vs =>
    match cellOf v with
    | .error e => .error e
    | .ok (r, c) =>
      match st.step r c with
      | none => .ok false
      | some st' => consecutiveFrom st' vs

/-- `xlseries/utils/xl_methods.py:84-143` (`consecutive_cells`). -/
def consecutiveCells : List PVal → Except Err Bool
  | [] => .ok true
  | v :: vs =>
    match cellOf v with
    | .error e => .error e
    | .ok (r, c) => consecutiveFrom ⟨r, c, none⟩ vs

/-- Coordinates of `ws["X:Y"]`, row by row (openpyxl `iter_rows` over the rectangle; nothing when
the end precedes the start). -/
def rectCoords (r0 c0 r1 c1 : Nat) : List Str :=
  (List.range' r0 (r1 + 1 - r0)).flatMap fun r =>
    (List.range' c0 (c1 + 1 - c0)).map fun c => coordStr r c

/-- `xlseries/utils/xl_methods.py:232-258` (`xl_coordinates_range`), with an end (the empty string
counts as no end). Simplification: both ends are cell coordinates; whole rows or columns (`A:C`)
raise. -/
def coordRange (start stop : Str) : Except Err (List Str) :=
  if stop = [] then .ok [start]
  else match parseCoord start, parseCoord stop with
    | some (r0, c0), some (r1, c1) => .ok (rectCoords r0 c0 r1 c1)
    | _, _ => .error .valueError

end Xls
