/-
Workbooks: loading, converting and naming (`xlseries/xlseries.py`, `xlseries/utils/xl_methods.py`) and the
search for a package directory (`xlseries/utils/path_finders.py`).
-/
import Verif.Model.Frames

set_option autoImplicit false

namespace Xls

/-! ### Names of sheets -/

/-- `_sanitize_ws_name`, `xlseries/xlseries.py:137-157`, for a request that is a string (so `str` does
nothing). -/
def sanitizeName (ext : Ext) (name : Str) (names : List Str) : Str :=
  if name ∈ names then name
  else
    match names.find? fun n => strip name = strip n with
    | some n => n
    | none =>
      match names.find? fun n => strip (ext.unidecode name) = strip (ext.unidecode n) with
      | some n => n
      | none => name

/-- The sheet that is scraped, `xlseries/xlseries.py:110-123`: the first one unless a name is given.
`ws_names[0]` of a workbook without sheets is an `IndexError`. -/
def chooseName (ext : Ext) (name : Str) (names : List Str) : Except Err Str :=
  if name = [] then
    match names with
    | [] => .error .indexError
    | n :: _ => .ok n
  else .ok (sanitizeName ext name names)

/-! ### Loading -/

/-- How a file is opened. -/
inductive Loader
  | xlsx
  | xls
  deriving DecidableEq

/-- `s[-n:]`: the last `n` characters, or all if there are fewer. -/
def lastChars (n : Nat) (s : Str) : Str := s.drop (s.length - n)

/-- `_load_wb`, `xlseries/xlseries.py:52-67`: which of the two functions opens the file. -/
def loaderOf (path : Str) : Except Err Loader :=
  if lastChars 5 path = c!".xlsx" then .ok .xlsx
  else if lastChars 4 path = c!".xls" then .ok .xls
  else .error .valueError

/-! ### Converting an old workbook -/

/-- A sheet as `xlrd` reads it; positions start at 0. -/
structure OldSheet where
  name : Str
  nrows : Nat
  ncols : Nat
  value : Nat → Nat → Cell

/-- An empty openpyxl worksheet. -/
def Sheet.empty (title : Str) : Sheet where
  title := title
  cells := fun _ _ => .none
  maxRow := 1
  maxCol := 1

/-- The `while` loop of `open_xls_as_xlsx`, `xlseries/utils/xl_methods.py:165-170`, run for at most
`fuel` rounds; the arguments are `nrows` and `ncols`. `none` = still running. -/
def sizeLoop (old : OldSheet) : Nat → Nat → Nat → Option (Nat × Nat)
  | 0, nrows, ncols => if nrows * ncols = 0 then none else some (nrows, ncols)
  | fuel + 1, nrows, ncols =>
    if nrows * ncols = 0 then sizeLoop old fuel old.nrows old.ncols else some (nrows, ncols)

/-- The inner `for` loop of 174-177, over columns. -/
def copyRow (old : OldSheet) (row : Nat) : List Nat → Sheet → Sheet
  | [], s => s
  | col :: cols, s => copyRow old row cols (s.set (row + 1) (col + 1) (old.value row col))

/-- The outer `for` loop of 174-177, over rows. -/
def copyRows (old : OldSheet) (ncols : Nat) : List Nat → Sheet → Sheet
  | [], s => s
  | row :: rows, s => copyRows old ncols rows (copyRow old row (List.range ncols) s)

/-- `open_xls_as_xlsx`, `xlseries/utils/xl_methods.py:146-180`, for the sheets `xlrd` read, with at most
`fuel` rounds of the `while` loop for each; `none` = still running. Simplification: `create_sheet` uses
the given title (the titles of a workbook are distinct). Assigning a value to a cell keeps it as it is. -/
def convertSheets (fuel : Nat) : List OldSheet → Option (List Sheet)
  | [] => some []
  | old :: rest =>
    match sizeLoop old fuel 0 0 with
    | none => none
    | some (nrows, ncols) =>
      match convertSheets fuel rest with
      | none => none
      | some ss => some (copyRows old ncols (List.range nrows) (Sheet.empty old.name) :: ss)

/-! ### Package directory -/

/-- POSIX `os.path.split(path)[0]`: everything before the last slash, without slashes at its end unless
it consists of slashes. -/
def pathHead (path : Str) : Str :=
  let head := (path.reverse.dropWhile (· ≠ '/')).reverse
  if head.all (· = '/') then head else (head.reverse.dropWhile (· = '/')).reverse

/-- POSIX `os.path.basename(path)`: what follows the last slash. -/
def baseName (path : Str) : Str := (path.reverse.takeWhile (· ≠ '/')).reverse

/-- POSIX `os.path.isabs(path)`. -/
def isAbs (path : Str) : Bool := path.head? = some '/'

/-- `get_package_dir`, `xlseries/utils/path_finders.py:151-175`, with at most `fuel` nested calls; `none` =
still running. `sysPath` is `sys.path`. -/
def packageDir (name : Str) (sysPath : List Str) : Nat → Str → Option (Except Err Str)
  | 0, _ => none
  | fuel + 1, path =>
    if isAbs path then
      if baseName (pathHead path) = name then some (.ok (pathHead path))
      else packageDir name sysPath fuel (pathHead path)
    else
      match sysPath.find? fun p => baseName p = name with
      | some p => some (.ok p)
      | none => some (.error .packageDirNotFound)

end Xls
