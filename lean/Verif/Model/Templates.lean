/-
The templates of parameters, `xlseries/xlseries.py:156-174` and
`xlseries/strategies/discover/parameters.py:428-437`.
-/
import Verif.Model.Params

set_option autoImplicit false

namespace Xls

/-- The lists that the class `Parameters` holds and that templates and defaults refer to:
`CRITICAL["headers_coord"]` (`parameters.py:89`) and `DEFAULT_VALUES["missing_value"]` (105-108). The other values
of `CRITICAL` and `DEFAULT_VALUES` cannot be changed in place. -/
structure ClassLists where
  headers : List PVal
  markers : List PVal

/-- What they hold when the module is loaded. -/
def ClassLists.initial : ClassLists :=
  ⟨[.str c!"B1", .str c!"C1", .str c!"E1-G1"],
   [.none, .str c!"-", .str c!"...", .str c!".", .str c!"/", .str c!"///", .str [],
    .str c!"s.d.", .str c!"s/d", .str c!"n,d,", .str c!"s.d", .str c!" "]⟩

/-- A value in a template: one of its own, or one of the lists of the class (the same object). -/
inductive Slot
  | own (v : PVal)
  | classHeaders
  | classMarkers

/-- A template dictionary, in insertion order. -/
abbrev Template := List (Key × Slot)

/-- `get_critical_params_template`, `parameters.py:428-432`; `XlSeries.critical_params_template`,
`xlseries.py:156-163`. A new dictionary with the same values. -/
def criticalTemplate : Template :=
  [(.known .timeHeaderCoord, .own (.str c!"A1")), (.known .headersCoord, .classHeaders),
   (.known .dataStarts, .own (.int 2)), (.known .frequency, .own (.str c!"M"))]

/-- `get_complete_params_template`, `parameters.py:434-437`; `XlSeries.complete_params_template`,
`xlseries.py:165-172`. -/
def completeTemplate : Template :=
  criticalTemplate ++
  [(.known .timeAlignment, .own (.int 0)), (.known .alignment, .own (.str c!"vertical")),
   (.known .continuity, .own (.bool true)), (.known .blankRows, .own (.bool false)),
   (.known .missings, .own (.bool false)), (.known .timeComposed, .own (.bool false)),
   (.known .timeMulticolumn, .own (.bool false)), (.known .missingValue, .classMarkers),
   (.known .dataEnds, .own .none), (.known .seriesNames, .own .none),
   (.known .composedHeadersCoord, .own .none), (.known .context, .own .none)]

/-- The value seen in a template. -/
def Slot.value (σ : ClassLists) : Slot → PVal
  | .own v => v
  | .classHeaders => .list σ.headers
  | .classMarkers => .list σ.markers

/-- The template as the dictionary it is at the moment. -/
def Template.dict (σ : ClassLists) (t : Template) : PDict := t.map fun kv => (kv.1, kv.2.value σ)

/-- What a user does with a template: `t[k] = v`, or `t[k].append(v)`. Other changes in place of a list have the
same reach as `append`. -/
inductive Edit
  | assign (k : Key) (v : PVal)
  | append (k : Key) (v : PVal)

/-- `t[k] = v`: in place, or appended. -/
def Template.assign (t : Template) (k : Key) (v : PVal) : Template :=
  match t with
  | [] => [(k, .own v)]
  | (k', s) :: rest => if k' = k then (k, .own v) :: rest else (k', s) :: Template.assign rest k v

/-- `t[k]`. -/
def Template.slot? (t : Template) (k : Key) : Option Slot :=
  match t with
  | [] => none
  | (k', s) :: rest => if k' = k then some s else Template.slot? rest k

/-- One change of a template: the lists of the class and the template after it. Only lists have `append`. -/
def Edit.apply (σ : ClassLists) (t : Template) : Edit → Except Err (ClassLists × Template)
  | .assign k v => .ok (σ, t.assign k v)
  | .append k v =>
    match t.slot? k with
    | none => .error .keyError
    | some .classHeaders => .ok ({ σ with headers := σ.headers ++ [v] }, t)
    | some .classMarkers => .ok ({ σ with markers := σ.markers ++ [v] }, t)
    | some (.own (.list vs)) => .ok (σ, t.assign k (.list (vs ++ [v])))
    | some (.own _) => .error .attributeError

/-- Changes one after the other. -/
def applyEdits (σ : ClassLists) (t : Template) : List Edit → Except Err (ClassLists × Template)
  | [] => .ok (σ, t)
  | e :: es =>
    match e.apply σ t with
    | .error err => .error err
    | .ok (σ', t') => applyEdits σ' t' es

/-- `d[n] = v` if the value is absent or `None`, `parameters.py:550-555`. -/
def PDict.supply (d : PDict) (n : Name) (v : PVal) : PDict := if d.absent n then d.put (.known n) v else d

/-- `Parameters(d)` when the lists of the class are `σ`, `parameters.py:541-557`: a `missing_value` that is
absent or `None` is taken from the class. Simplification: the defaults are put into the dictionary before the
build instead of in its third step (no step before looks at them, and they are valid). -/
def Params.newIn (σ : ClassLists) (d : PDict) : Except Err Params :=
  if d = [] then .ok Params.empty
  else Params.ofDict ((d.supply .timeAlignment (.int 0)).supply .missingValue (.list σ.markers))

end Xls
