/-
The scraper and the entry point: `xlseries/strategies/strategies.py:47-175`,
`xlseries/xlseries.py:70-135` and the copies of `xlseries/utils/xl_methods.py:183-229`.

Worksheets and `Parameters` objects are changed in place by the code, so here they live in a memory and are
passed by reference.
-/
import Verif.Model.Attempts
import Verif.Model.Books
import Verif.Model.Compare

set_option autoImplicit false

namespace Xls

/-! ### Memory -/

/-- The worksheets and `Parameters` objects that exist. Those with a reference from `nextSheet`
(`nextParams`) on have not been created yet. -/
structure World where
  sheets : Nat → Sheet
  nextSheet : Nat
  params : Nat → Params
  nextParams : Nat

namespace World

/-- A new worksheet. -/
def newSheet (w : World) (s : Sheet) : Nat × World :=
  (w.nextSheet, { w with
    sheets := fun r => if r = w.nextSheet then s else w.sheets r
    nextSheet := w.nextSheet + 1 })

/-- A new `Parameters` object. -/
def newParams (w : World) (p : Params) : Nat × World :=
  (w.nextParams, { w with
    params := fun r => if r = w.nextParams then p else w.params r
    nextParams := w.nextParams + 1 })

/-- Several new `Parameters` objects. -/
def newParamsAll : List Params → World → List Nat × World
  | [], w => ([], w)
  | p :: ps, w =>
    let (r, w) := w.newParams p
    let (rs, w) := newParamsAll ps w
    (r :: rs, w)

/-- A worksheet and a `Parameters` object after something was done to them. -/
def update (w : World) (ws pr : Nat) (s : Sheet) (p : Params) : World :=
  { w with
    sheets := fun r => if r = ws then s else w.sheets r
    params := fun r => if r = pr then p else w.params r }

end World

/-! ### Copies -/

/-- The inner loop of `make_ws_copy`, `xl_methods.py:224-227`: the cells of one row. The coordinate that is
put together there is that of the cell. Simplification: assigning a value to a cell and reading it back
gives the same value. -/
def copyCells (s : Sheet) (row : Nat) : List Nat → Sheet → Sheet
  | [], t => t
  | col :: cols, t => copyCells s row cols (t.set (row + 1) (col + 1) (s.cells (row + 1) (col + 1)))

/-- The outer loop of `make_ws_copy`, `xl_methods.py:224-227`: rows. -/
def copyAllRows (s : Sheet) (ncols : Nat) : List Nat → Sheet → Sheet
  | [], t => t
  | row :: rows, t => copyAllRows s ncols rows (copyCells s row (List.range ncols) t)

/-- `make_ws_copy`, `xl_methods.py:208-229`. Simplification: `create_sheet` takes the title as it is. -/
def copySheet (s : Sheet) : Sheet :=
  copyAllRows s s.maxCol.toNat (List.range s.maxRow.toNat) (Sheet.empty s.title)

/-- `make_wb_copy`, `xl_methods.py:183-205`. A workbook is the list of its worksheets. -/
def copyBook : List Nat → World → List Nat × World
  | [], w => ([], w)
  | r :: rs, w =>
    let (r', w) := w.newSheet (copySheet (w.sheets r))
    let (rs', w) := copyBook rs w
    (r' :: rs', w)

/-! ### Attempts -/

/-- What one attempt gives: one data frame or a list of them. -/
inductive Dfs
  | one (f : Frame)
  | many (fs : List Frame)
  deriving DecidableEq

/-- A list with one element is replaced by the element, `strategies.py:124-126` and
`xlseries.py:132-135`. -/
def unwrap : List Frame → Dfs
  | [f] => .one f
  | fs => .many fs

/-- Cleaning and extraction on objects in memory, `strategies.py:104-109` and 117-122. -/
def runOn (ext : Ext) (ws pr : Nat) (w : World) : Except Err (List Frame) × World :=
  match scrape ext (w.params pr) (w.sheets ws) with
  | (r, p, s) => (r, w.update ws pr s p)

/-- The loop over attempts, `strategies.py:113-138`: the results and their parameters. -/
def attemptLoop (ext : Ext) (safe : Bool) (ws : Nat) : List Nat → World → List (Dfs × Nat) × World
  | [], w => ([], w)
  | pr :: prs, w =>
    let (temp, w) := w.newSheet (copySheet (w.sheets ws))
    match runOn ext temp pr w with
    | (.error _, w) => attemptLoop ext safe ws prs w
    | (.ok fs, w) =>
      if safe then
        let (rs, w) := attemptLoop ext safe ws prs w
        ((unwrap fs, pr) :: rs, w)
      else ([(unwrap fs, pr)], w)

/-- What iterating over a result gives: the column names of a data frame, or data frames. -/
inductive Item
  | name (s : Str)
  | frame (f : Frame)
  deriving DecidableEq

/-- `for item in res[0]`. -/
def Dfs.items : Dfs → List Item
  | .one f => f.columns.map .name
  | .many fs => fs.map .frame

/-- `compare_data_frames(df_a, df_b)`, `xlseries/utils/data_frame.py:230-271`: both must be data frames. -/
def compareItems : Item → Item → Except Err Unit
  | .frame f, .frame g => compareFrames f g
  | _, _ => .error .assertionError

/-- `strategies.py:146-151`: no pair is reported as different by an `AssertionError`. -/
def pairsEqual : List (Item × Item) → Except Err Bool
  | [] => .ok true
  | (a, b) :: rest =>
    match compareItems a b with
    | .ok () => pairsEqual rest
    | .error .assertionError =>
      match pairsEqual rest with
      | .error e => .error e
      | .ok _ => .ok false
    | .error e => .error e

/-- `strategies.py:145-153`: is the result equal to one of those kept so far? -/
def isRepeatedIn (d : Dfs) : List (Dfs × Nat) → Except Err Bool
  | [] => .ok false
  | u :: us =>
    match pairsEqual (d.items.zip u.1.items) with
    | .error e => .error e
    | .ok true => .ok true
    | .ok false => isRepeatedIn d us

/-- `strategies.py:140-157`. -/
def removeDuplicates : List (Dfs × Nat) → List (Dfs × Nat) → Except Err (List (Dfs × Nat))
  | unique, [] => .ok unique
  | unique, r :: rs =>
    match isRepeatedIn r.1 unique with
    | .error e => .error e
    | .ok true => removeDuplicates unique rs
    | .ok false => removeDuplicates (unique ++ [r]) rs

/-- What is returned: the result of one set of parameters, or several. -/
inductive Answer
  | dfs (d : Dfs)
  | several (ds : List Dfs)
  deriving DecidableEq

/-- `strategies.py:159-175`; `last` is the last attempt that was made. -/
def answerOf (last : Option Nat) : List (Dfs × Nat) → Except Err (Answer × Nat)
  | [] => .error (if last.isSome then .exception else .nameError)
  | [(d, pr)] => .ok (.dfs d, pr)
  | results =>
    match last with
    | some pr => .ok (.several (results.map Prod.fst), pr)
    | none => .error .nameError

/-- `_get_data_frames`, `strategies.py:93-175`. Lists with one data frame are unwrapped here in all cases;
the code leaves that to `XlSeries.get_data_frames` if there is only one attempt. -/
def scraperFrames (ext : Ext) (ws pr : Nat) (safe : Bool) (w : World) :
    Except Err (Answer × Nat) × World :=
  match discoverParameters (w.params pr) with
  | .error e => (.error e, w)
  | .ok .same =>
    match runOn ext ws pr w with
    | (.error e, w) => (.error e, w)
    | (.ok fs, w) => (.ok (.dfs (unwrap fs), pr), w)
  | .ok (.new ps) =>
    match w.newParamsAll ps with
    | ([pr], w) =>
      match runOn ext ws pr w with
      | (.error e, w) => (.error e, w)
      | (.ok fs, w) => (.ok (.dfs (unwrap fs), pr), w)
    | (prs, w) =>
      match attemptLoop ext safe ws prs w with
      | (results, w) =>
        match removeDuplicates [] results with
        | .error e => (.error e, w)
        | .ok unique => (answerOf prs.getLast? unique, w)

/-! ### Entry point -/

/-- What the caller passes as parameters: a `Parameters` object or anything else. -/
inductive Given
  | object (pr : Nat)
  | other (x : PInput)

/-- `strategies.py:56-59`: a `Parameters` object is used as it is; from anything else (deep-copied first,
`parameters.py:166`) a new one is made. -/
def givenParams : Given → World → Except Err Nat × World
  | .object pr, w => (.ok pr, w)
  | .other x, w =>
    match Params.new x with
    | .error e => (.error e, w)
    | .ok p =>
      match w.newParams p with
      | (pr, w) => (.ok pr, w)

/-- `wb[name]`: the first sheet with the title. -/
def sheetNamed (wb : List Nat) (name : Str) (w : World) : Except Err Nat :=
  match wb.find? fun r => (w.sheets r).title = name with
  | some r => .ok r
  | none => .error .keyError

/-- `XlSeries.get_data_frames`, `xlseries/xlseries.py:70-135`: the answer, the name of the sheet and the
parameters recorded for it. `wb` are the sheets of the caller's workbook. -/
def getDataFrames (ext : Ext) (wb : List Nat) (given : Given) (name : Str) (safe preserve : Bool)
    (w : World) : Except Err (Answer × Str × Nat) × World :=
  match if preserve then copyBook wb w else (wb, w) with
  | (wb, w) =>
    match chooseName ext name (wb.map fun r => (w.sheets r).title) with
    | .error e => (.error e, w)
    | .ok name =>
      match sheetNamed wb name w with
      | .error e => (.error e, w)
      | .ok ws =>
        match givenParams given w with
        | (.error e, w) => (.error e, w)
        | (.ok pr, w) =>
          match scraperFrames ext ws pr safe w with
          | (.error e, w) => (.error e, w)
          | (.ok (a, pr), w) => (.ok (a, name, pr), w)

end Xls
