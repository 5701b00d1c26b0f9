/-
Extraction of the name and the values of one series, `xlseries/strategies/get/data.py`.

The functions here are pure in the values of the worksheet. What looking cells up does to the
high-water marks of the worksheet (`Sheet.touch`) is given apart, by `seriesReads`.
-/
import Verif.Model.TimeIndex
import Verif.Model.PyVal

set_option autoImplicit false

namespace Xls

/-! ### Python operations on cell values -/

/-- `v == m` for a cell value and a parameter value. -/
def cellEq : Cell → PVal → Bool
  | .none, m => m.isNone
  | .bool b, m => PVal.pyEq (.bool b) m
  | .int i, m => PVal.pyEq (.int i) m
  | .float x, m => PVal.pyEq (.float x) m
  | .str s, m => PVal.pyEq (.str s) m
  | .dt _, _ => false

/-- `sub in s` for two strings. -/
def containsStr (sub : Str) : Str → Bool
  | [] => sub.isEmpty
  | c :: cs => (stripPrefix? sub (c :: cs)).isSome || containsStr sub cs

/-- `v in m` for a cell value and a parameter value: `TypeError` if `m` is not a container or is a
string and `v` is not. -/
def cellIn (v : Cell) : PVal → Except Err Bool
  | .list ms => .ok (ms.any (cellEq v))
  | .dict kvs => .ok (kvs.any fun kv => cellEq v (.str kv.1))
  | .str s => match v with
    | .str t => .ok (containsStr t s)
    | _ => .error .typeError
  | _ => .error .typeError

/-- `float(v)`. Simplification: no overflow for large integers. -/
def floatOf (ext : Ext) : Cell → Except Err Num
  | .none => .error .typeError
  | .bool b => .ok (.fin (if b then 1 else 0))
  | .int i => .ok (.fin i)
  | .float x => .ok x
  | .str s => match ext.floatOfStr s with
    | some x => .ok x
    | none => .error .valueError
  | .dt _ => .error .typeError

/-- `value.strip()` if the value is a string, `data.py:315-316`. -/
def stripCell : Cell → Cell
  | .str s => .str (strip s)
  | v => v

/-! ### One value -/

/-- `BaseContinuous._handle_new_value`, `data.py:308-331`; `none` is Python's `None`. -/
def handleContinuous (ext : Ext) (sp : SParams) (v : Cell) : Except Err (Option Num) :=
  if sp.blankRows = true ∧ v = .none then .ok none
  else if sp.missings = true then
    match cellIn (stripCell v) sp.missingValue with
    | .error e => .error e
    | .ok true => .ok (some .nan)
    | .ok false =>
      match floatOf ext (stripCell v) with
      | .ok x => .ok (some x)
      | .error _ => .error .exception
  else
    match floatOf ext v with
    | .ok x => .ok (some x)
    | .error e => .error e

/-- A string of blanks only becomes `None`, `data.py:371-373`. -/
def blankToNone : Cell → Cell
  | .str s => if strip s = [] then .none else .str s
  | v => v

/-- `float(value)` if `_valid_value(value)`, `data.py:185-196`. -/
def validFloat (ext : Ext) (v : Cell) : Option Num :=
  match floatOf ext v with
  | .ok x => some x
  | .error _ => none

/-- `BaseNonContinuous._handle_new_value`, `data.py:368-391`. -/
def handleNonContinuous (ext : Ext) (sp : SParams) (v : Cell) : Except Err (Option Num) :=
  if sp.missings = true then
    match cellIn (blankToNone v) sp.missingValue with
    | .error e => .error e
    | .ok true => .ok (some .nan)
    | .ok false => .ok (validFloat ext (blankToNone v))
  else .ok (validFloat ext (blankToNone v))

/-- `_handle_new_value` of the strategy that accepts the series. -/
def handleValue (ext : Ext) (sp : SParams) (v : Cell) : Except Err (Option Num) :=
  if sp.continuity = true then handleContinuous ext sp v else handleNonContinuous ext sp v

/-- The time header of `BaseNonContinuous._value_to_be_added`, `data.py:350-353`. A single coordinate
with `time_multicolumn` gives its first character, for which `ws[...]` is a whole column without the
attribute asked for; a list without `time_multicolumn` is no coordinate. -/
def nonContHeader (sp : SParams) : Except Err (Int × Int) :=
  match sp.timeMulticolumn, sp.timeHeader with
  | true, .multi [] => .error .indexError
  | true, .multi (c :: _) => coordOf c
  | true, .single _ => .error .attributeError
  | false, .single c => coordOf c
  | false, .multi _ => .error .typeError

/-- `_value_to_be_added` of the strategy that accepts the series, `data.py:302-305` and 342-365. -/
def toBeAdded (sp : SParams) (s : Sheet) (v : Option Num) (i : Int) : Except Err Bool :=
  if sp.continuity = true then .ok v.isSome
  else
    match nonContHeader sp with
    | .error e => .error e
    | .ok (hr, hc) =>
      let rc := axisCell sp.alignment hr hc (i + sp.timeAlignment)
      match s.read rc.1 rc.2 with
      | .error e => .error e
      | .ok t => .ok (v.isSome && t.isDt)

/-! ### All values -/

/-- `values_dict[k].append(x)` with the key created at the end if it is new, `data.py:121-123`. -/
def dealTo : List (Str × List Num) → Str → Num → List (Str × List Num)
  | [], k, x => [(k, [x])]
  | (k', xs) :: m, k, x => if k' = k then (k', xs ++ [x]) :: m else (k', xs) :: dealTo m k x

/-- `_get_frequency` of the strategy that accepts the series, `data.py:250-252` and 264-267. -/
def getFrequency (frequency last : Str) : Except Err (Str × Str) :=
  if frequency.length = 1 then .ok (frequency, last)
  else
    match nextFrequency frequency last with
    | .error e => .error e
    | .ok (c, last') => .ok ([c], last')

/-- The loop of `_get_values`, `data.py:107-123`; any exception of `_handle_new_value` becomes a plain
`Exception`. The state is `values_dict` and `self.last_frequency`. -/
def valuesLoop (ext : Ext) (sp : SParams) (s : Sheet) (hr hc : Int) :
    List Int → List (Str × List Num) → Str → Except Err (List (Str × List Num))
  | [], m, _ => .ok m
  | i :: is, m, last =>
    let rc := axisCell sp.alignment hr hc i
    match s.read rc.1 rc.2 with
    | .error e => .error e
    | .ok v =>
      match handleValue ext sp v with
      | .error _ => .error .exception
      | .ok nv =>
        match toBeAdded sp s nv i with
        | .error e => .error e
        | .ok add =>
          match add, nv with
          | true, some x =>
            match getFrequency sp.frequency last with
            | .error e => .error e
            | .ok (f, last') => valuesLoop ext sp s hr hc is (dealTo m f x) last'
          | _, _ => valuesLoop ext sp s hr hc is m last

/-- `arrow.get(value)` for a cell value. -/
def arrowGet (ext : Ext) : Cell → Except Err Time
  | .none => .ok ext.now
  | .dt t => .ok t
  | v => match ext.arrowOfCell v with
    | some t => .ok t
    | none => .error .exception

/-- `n * usPerDay + us`, written so that Lean does not unroll the product for unknown `us`. -/
def dayTicks (n : Nat) : Nat → Nat
  | 0 => n * usPerDay
  | us + 1 => dayTicks n us + 1

/-- An order-preserving number for a date-time, used only as fuel for `fillGap`. -/
def ticks (t : Time) : Nat := dayTicks ((t.year * 12 + t.month) * 31 + t.day) t.us

/-- The inner loop of `_fill_implicit_missings`, `data.py:240-243`: how many NaN are appended and the
expected time after them. The first argument is fuel; `fillValues` supplies enough because every
step increases `ticks`. -/
def fillGap (freq : Str) (obs : Time) : Nat → Time → Except Err (Nat × Time)
  | 0, exp => .ok (0, exp)
  | fuel + 1, exp =>
    if exp < obs then
      match incrementTime exp 1 freq with
      | .error e => .error e
      | .ok exp' =>
        match fillGap freq obs fuel exp' with
        | .error e => .error e
        | .ok (n, t) => .ok (n + 1, t)
    else .ok (0, exp)

/-- One round of the loop of `_fill_implicit_missings`, `data.py:236-246`: the number of NaN put before
the value and the next expected time. -/
def fillOne (ext : Ext) (freq : Str) (c : Cell) (exp : Option Time) :
    Except Err (Nat × Time) :=
  match arrowGet ext c with
  | .error e => .error e
  | .ok obs =>
    match fillGap freq obs (ticks obs - ticks (exp.getD obs)) (exp.getD obs) with
    | .error e => .error e
    | .ok (n, t) =>
      match incrementTime t 1 freq with
      | .error e => .error e
      | .ok t' => .ok (n, t')

/-- The loop of `_fill_implicit_missings`, `data.py:233-248`. -/
def fillValues (ext : Ext) (freq : Str) :
    List (Cell × Num) → Option Time → Except Err (List Num)
  | [], _ => .ok []
  | (c, x) :: rest, exp =>
    match fillOne ext freq c exp with
    | .error e => .error e
    | .ok (n, t) =>
      match fillValues ext freq rest (some t) with
      | .error e => .error e
      | .ok xs => .ok (List.replicate n .nan ++ x :: xs)

/-- Cells of the time index read along with the values, `data.py:160-183`. -/
def timeCells (sp : SParams) (s : Sheet) (hr hc : Int) (is : List Int) : List Cell :=
  is.map fun i => let rc := axisCell sp.alignment hr hc i; s.cells rc.1 rc.2

/-- `_get_values`, `data.py:99-141`. The time index iterator of the filling step is only used when
there are values, i.e. when all positions are proper ones. -/
def getValues (ext : Ext) (sp : SParams) (s : Sheet) : Except Err (List (List Num)) :=
  if sp.alignment = .other then .error .exception
  else
    match coordOf sp.headerCoord with
    | .error e => .error e
    | .ok (hr, hc) =>
      match sp.dataEnds with
      | none => .error .typeError
      | some e =>
        match valuesLoop ext sp s hr hc (intRange sp.dataStarts (e + 1)) [] [] with
        | .error e => .error e
        | .ok m =>
          if sp.missings = true then
            match cellIn (.str c!"Implicit") sp.missingValue with
            | .error e => .error e
            | .ok implicit =>
              if implicit = true ∧ sp.frequency.length = 1 then
                match m with
                | [] => .error .indexError
                | (_, xs) :: _ =>
                  match timeHeaderCell sp.timeHeader with
                  | .error e => .error e
                  | .ok (tr, tc) =>
                    match fillValues ext sp.frequency
                        ((timeCells sp s tr tc (intRange sp.dataStarts (e + 1))).zip xs) none with
                    | .error e => .error e
                    | .ok ys => .ok [ys]
              else .ok (m.map Prod.snd)
          else .ok (m.map Prod.snd)

/-! ### Name -/

/-- `ws[coord].value`. -/
def cellAt (s : Sheet) (coord : Str) : Except Err Cell :=
  match coordOf coord with
  | .error e => .error e
  | .ok (r, c) => .ok (s.cells r c)

/-- The parts of a composed header, `data.py:87-88`: `unidecode` takes only strings. -/
def composedParts (ext : Ext) (s : Sheet) : List Str → Except Err (List Str)
  | [] => .ok []
  | coord :: cs =>
    match cellAt s coord with
    | .error e => .error e
    | .ok (.str t) =>
      match composedParts ext s cs with
      | .error e => .error e
      | .ok ps => .ok (strip (ext.unidecode t) :: ps)
    | .ok _ => .error .attributeError

/-- `_get_name`, `data.py:56-97`. -/
def getName (ext : Ext) (sp : SParams) (s : Sheet) : Except Err Str :=
  match sp.seriesName with
  | some (c :: cs) => .ok (c :: cs)
  | _ =>
    match cellAt s sp.headerCoord with
    | .error e => .error e
    | .ok v =>
      match composedParts ext s (sp.composedHeaders.getD []) with
      | .error e => .error e
      | .ok parts =>
        let name := joinWith c!" " (parts ++ [strip (ext.unidecode (cellStr ext v))])
        .ok (joinWith c!" - " ((sp.context.getD []).map strip ++ [name]))

/-- `BaseGetDataStrategy._get_data`, `data.py:45-54`: one pair of a name and values per frequency. -/
def getSeries (ext : Ext) (sp : SParams) (s : Sheet) : Except Err (List (Str × List Num)) :=
  match getName ext sp s with
  | .error e => .error e
  | .ok name =>
    match getValues ext sp s with
    | .error e => .error e
    | .ok vss => .ok (vss.map fun vs => (name, vs))

/-! ### Cells looked up -/

/-- The cell of a coordinate, if it is one. -/
def coordCell (coord : Str) : List (Int × Int) :=
  match coordOf coord with
  | .ok rc => [rc]
  | .error _ => []

/-- The cells looked up by `getSeries` when it raises nothing, in an order that does not matter. -/
def seriesReads (ext : Ext) (sp : SParams) (s : Sheet) : List (Int × Int) :=
  let is := intRange sp.dataStarts (sp.dataEnds.getD 0 + 1)
  let name := match sp.seriesName with
    | some (_ :: _) => []
    | _ => coordCell sp.headerCoord ++ (sp.composedHeaders.getD []).flatMap coordCell
  let data := match coordOf sp.headerCoord with
    | .ok (hr, hc) => (hr, hc) :: is.map (axisCell sp.alignment hr hc)
    | .error _ => []
  let times := match sp.continuity, nonContHeader sp with
    | false, .ok (hr, hc) =>
      (hr, hc) :: is.map fun i => axisCell sp.alignment hr hc (i + sp.timeAlignment)
    | _, _ => []
  let filled := match sp.missings, cellIn (.str c!"Implicit") sp.missingValue,
      sp.frequency.length == 1, timeHeaderCell sp.timeHeader with
    | true, .ok true, true, .ok (hr, hc) =>
      let n := match coordOf sp.headerCoord with
        | .ok (dr, dc) => match valuesLoop ext sp s dr dc is [] [] with
          | .ok ((_, xs) :: _) => xs.length
          | _ => 0
        | .error _ => 0
      (hr, hc) :: (is.take (n + 1)).map (axisCell sp.alignment hr hc)
    | _, _, _, _ => []
  name ++ data ++ times ++ filled

/-- Looking cells up one after the other. -/
def Sheet.touchAll (s : Sheet) (rcs : List (Int × Int)) : Sheet :=
  rcs.foldl (fun s rc => s.touch rc.1 rc.2) s

end Xls
