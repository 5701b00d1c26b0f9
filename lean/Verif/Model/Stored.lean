/-
Data frames stored in files: `xlseries/utils/data_frame.py:27-227`.
-/
import Verif.Model.Books
import Verif.Model.CompareCells

set_option autoImplicit false

namespace Xls

/-- The files as the code sees them: `os.path.isfile`, `os.path.isdir`, the number of sheets `load_workbook`
finds, the files of a directory with an ending (`glob.glob`), what `pandas` reads from a file (for a workbook,
from one of its sheets; only the dates, the columns and the values matter; dates that come as texts are taken
for the dates they say). -/
structure Files where
  isFile : Str → Bool
  isDir : Str → Bool
  sheets : Str → Except Err Nat
  glob : Str → Str → List Str
  read : Str → Nat → Except Err Frame

/-! ### Paths -/

/-- `_parse_path_and_extension` (`parsePath`), `data_frame.py:165-186`, with its exception. -/
def storedPath (fs : Files) (path : Str) : Except Err (Str × Str) :=
  match parsePath fs.isFile fs.isDir path with
  | some r => .ok r
  | none => .error .noSerializedDataFrameFound

/-- `s[:-n]`: all but the last `n` characters. -/
def dropLastChars (n : Nat) (s : Str) : Str := s.take (s.length - n)

/-! ### Dates -/

/-- `t1 - t0` of two `arrow` times in microseconds. -/
def elapsed (t0 t1 : Time) : Int :=
  ((toOrdinal t1 : Int) - (toOrdinal t0 : Int)) * 86400000000 + ((t1.us : Int) - (t0.us : Int))

/-- A `timedelta` of `us` microseconds divided by an integer: rounded half to even. -/
def divTimedelta (us : Int) (n : Nat) : Int :=
  let q := us / n
  let r := us % n
  if (n : Int) < 2 * r ∨ (2 * r = n ∧ q % 2 = 1) then q + 1 else q

/-- The second half of `get_data_frame`, `data_frame.py:134-154`: the dates are replaced by those of
`pandas.date_range`. The result of `use_period_range=False` is the same here: `to_datetime` of a
`DatetimeIndex` is the index itself. `pd.DataFrame` raises `ValueError` if the shapes do not fit. -/
def rebuildFrame (ext : Ext) (f : Frame) : Except Err Frame :=
  match f.index.head?, f.index.getLast? with
  | some a, some z =>
    let avSeconds : Rat := (divTimedelta (elapsed a z) f.index.length : Rat) / 1000000
    match inferFreq (.float (.fin avSeconds)) with
    | .error e => .error e
    | .ok freq =>
      match dateRange ext (.dt a) (.dt z) freq with
      | .error e => .error e
      | .ok pr =>
        if f.data.all fun d => d.length = pr.index.length then
          .ok ⟨pr.freqstr, pr.index, f.columns, f.data⟩
        else .error .valueError
  | _, _ => .error .indexError

/-! ### Loading -/

/-- `get_data_frame`, `data_frame.py:76-154`. Python 3 has no `string.lowercase`. -/
def loadFrame (ext : Ext) (fs : Files) (path : Str) (index : Nat) : Except Err Frame :=
  match storedPath fs path with
  | .error e => .error e
  | .ok (path, kind) =>
    let file : Except Err Frame :=
      if kind = c!".xlsx" then fs.read path index
      else if kind = c!".csv" then
        if fs.isDir path then .error .attributeError else fs.read path 0
      else
        if fs.isDir path then .error .attributeError
        else if fs.isFile path = false ∧ fs.isDir (dropLastChars 5 path) = true then .error .attributeError
        else fs.read path 0
    match file with
    | .error e => .error e
    | .ok f => rebuildFrame ext f

/-- `[get_data_frame(file, index) for ...]`. -/
def loadEach (ext : Ext) (fs : Files) : List (Str × Nat) → Except Err (List Frame)
  | [] => .ok []
  | (path, index) :: rest =>
    match loadFrame ext fs path index with
    | .error e => .error e
    | .ok f =>
      match loadEach ext fs rest with
      | .error e => .error e
      | .ok fs' => .ok (f :: fs')

/-- `get_data_frames`, `data_frame.py:27-73`. -/
def loadFrames (ext : Ext) (fs : Files) (path : Str) : Except Err (List Frame) :=
  match storedPath fs path with
  | .error e => .error e
  | .ok (path, kind) =>
    if kind = c!".xlsx" then
      match fs.sheets path with
      | .error e => .error e
      | .ok n => loadEach ext fs ((List.range n).map fun i => (path, i))
    else
      if fs.isFile path then loadEach ext fs [(path, 0)]
      else if fs.isDir (replaceStr kind [] path) then
        loadEach ext fs ((fs.glob (replaceStr kind [] path) kind).map fun file => (file, 0))
      else .ok []

/-! ### Converting -/

/-- What `dfs_to_json_and_csv` leaves behind: the working directory, the directories made and the files
written, all seen from the directory of the workbooks. -/
structure Disk where
  cwd : Str
  made : List Str
  written : List (Str × Frame)
  deriving DecidableEq

/-- The loop of `dfs_to_json_and_csv`, `data_frame.py:206-225`, over the workbooks. For more than one data
frame `string.lowercase` raises as soon as the first one is to be written. -/
def convertLoop (ext : Ext) (fs : Files) : List Str → Disk → Except Err Unit × Disk
  | [], d => (.ok (), d)
  | book :: rest, d =>
    match loadFrames ext fs book with
    | .error e => (.error e, d)
    | .ok [f] =>
      let base := dropLastChars 5 book
      convertLoop ext fs rest
        { d with written := d.written ++ [(base ++ c!".json", f), (base ++ c!".csv", f)] }
    | .ok dfs =>
      let base := dropLastChars 5 book
      let d := if fs.isDir base then d else { d with made := d.made ++ [base] }
      if dfs = [] then convertLoop ext fs rest d else (.error .attributeError, d)

/-- `dfs_to_json_and_csv`, `data_frame.py:189-227`; `dir` is the directory it changes to (`base_dir`, or the
directory of that name in the package, 200-202); `books` the workbooks there. The working directory is only
restored at the end. -/
def convertAll (ext : Ext) (fs : Files) (cwd dir : Str) (books : List Str) : Except Err Unit × Disk :=
  match convertLoop ext fs books ⟨dir, [], []⟩ with
  | (.error e, d) => (.error e, d)
  | (.ok (), d) => (.ok (), { d with cwd := cwd })

end Xls
