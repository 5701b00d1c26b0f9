/-
Comparison of workbooks cell by cell and of period ranges, and the search for a stored data frame
(`xlseries/utils/xl_methods.py`, `xlseries/utils/data_frame.py`).
-/
import Verif.Model.Compare

set_option autoImplicit false

namespace Xls

/-! ### Workbooks -/

/-- `float(value)`; `none` = `TypeError` or `ValueError`. -/
def Cell.toFloat (ext : Ext) : Cell → Option Num
  | .str s => ext.floatOfStr s
  | c => c.asNum

/-- `normalize_value`, `xlseries/utils/xl_methods.py:298-311`: dates have no time zone here. -/
def normalizeValue : Cell → Cell
  | .str s => .str (strip s)
  | .none => .str []
  | c => c

/-- The body of the loops of `compare_cells_ws`, `xlseries/utils/xl_methods.py:276-293`: nothing or an
error. After the `except` the two values are floats only if `float` accepted both, so that the two tests
of their type are one. -/
def compareCell (ext : Ext) (a b : Cell) : Except Err Unit :=
  match a.toFloat ext, b.toFloat ext with
  | some _, some _ =>
    match approxEqual a b (1 / 100000) with
    | .error e => .error e
    | .ok true => .ok ()
    | .ok false => .error .assertionError
  | _, _ => if (normalizeValue a).eqPy (normalizeValue b) then .ok () else .error .assertionError

/-- The loop over the pairs of cells of two rows. -/
def comparePairs (ext : Ext) : List (Cell × Cell) → Except Err Unit
  | [] => .ok ()
  | (a, b) :: rest =>
    match compareCell ext a b with
    | .error e => .error e
    | .ok () => comparePairs ext rest

/-- The loop over the pairs of rows. -/
def compareRows (ext : Ext) : List (List Cell × List Cell) → Except Err Unit
  | [] => .ok ()
  | (a, b) :: rest =>
    match comparePairs ext (a.zip b) with
    | .error e => .error e
    | .ok () => compareRows ext rest

/-- `ws.rows` of openpyxl: the values of the cells from A1 to the last row and column. Simplification: a
worksheet none of whose cells was ever used has the one blank cell A1 here, and no row in openpyxl. -/
def Sheet.rows (s : Sheet) : List (List Cell) :=
  (List.range s.maxRow.toNat).map fun (r : Nat) =>
    (List.range s.maxCol.toNat).map fun (c : Nat) => s.cells ((r : Int) + 1) ((c : Int) + 1)

/-- `compare_cells_ws`, `xlseries/utils/xl_methods.py:270-295`: it returns `True` or raises. -/
def compareCellsWs (ext : Ext) (s t : Sheet) : Except Err Unit := compareRows ext (s.rows.zip t.rows)

/-- The loop of `compare_cells`. -/
def compareSheets (ext : Ext) : List (Sheet × Sheet) → Except Err Unit
  | [] => .ok ()
  | (s, t) :: rest =>
    match compareCellsWs ext s t with
    | .error e => .error e
    | .ok () => compareSheets ext rest

/-- `compare_cells`, `xlseries/utils/xl_methods.py:261-267`: it returns `True` or raises. The arguments are
the worksheets of the two workbooks. -/
def compareCells (ext : Ext) (wb1 wb2 : List Sheet) : Except Err Unit := compareSheets ext (wb1.zip wb2)

/-! ### Period ranges -/

/-- `compare_period_ranges`, `xlseries/utils/data_frame.py:325-347`: every exception, also that of
`pr[0]` for an empty range, becomes `False`. -/
def comparePeriodRanges (p q : PRange) : Bool :=
  if p.freqstr ≠ q.freqstr then false
  else
    match p.index.head?, q.index.head? with
    | some a, some b =>
      if a ≠ b then false
      else
        match p.index.getLast?, q.index.getLast? with
        | some y, some z => y = z
        | _, _ => false
    | _, _ => false

/-! ### Stored data frames -/

/-- `_get_file_name_extension`, `xlseries/utils/data_frame.py:157-162`: from the last dot on. -/
def fileExtension (path : Str) : Option Str :=
  if '.' ∈ path then some ('.' :: (path.reverse.takeWhile (· ≠ '.')).reverse) else none

/-- `supported_extensions`, `xlseries/utils/data_frame.py:166`. -/
def supportedExtensions : List Str := [c!".xlsx", c!".csv", c!".json"]

/-- The loop of `_parse_path_and_extension`, `xlseries/utils/data_frame.py:172-181`; `none` = it ended
without `break`. -/
def findStored (isFile isDir : Str → Bool) (path : Str) : List Str → Option (Str × Str)
  | [] => none
  | ext :: rest =>
    if isFile (path ++ ext) then some (path ++ ext, ext)
    else if isDir path then some (path, ext)
    else findStored isFile isDir path rest

/-- `_parse_path_and_extension`, `xlseries/utils/data_frame.py:165-186`; `none` = it raises
`NoSerializedDataFrameFound`. `isFile` and `isDir` are `os.path.isfile` and `os.path.isdir`. -/
def parsePath (isFile isDir : Str → Bool) (path : Str) : Option (Str × Str) :=
  match fileExtension path with
  | some ext =>
    if ext ∈ supportedExtensions then some (path, ext)
    else findStored isFile isDir path supportedExtensions
  | none => findStored isFile isDir path supportedExtensions

end Xls
