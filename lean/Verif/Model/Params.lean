/-
`xlseries/strategies/discover/parameters.py`: the class `Parameters`.
-/
import Verif.Model.Coords

set_option autoImplicit false

namespace Xls

/-! ### Names, valid values, defaults -/

/-- The parameter names, in the order of `VALID_VALUES`/`__init__`
(`xlseries/strategies/discover/parameters.py:60-84`, 138-163). -/
inductive Name
  | alignment | seriesNames | headersCoord | composedHeadersCoord | context
  | dataStarts | dataEnds | continuity | blankRows | missings | missingValue
  | timeAlignment | timeMulticolumn | timeHeaderCoord | timeComposed | frequency
  deriving DecidableEq, Repr

/-- All names, in the order in which `__init__` creates the attributes (138-163); iterating over a
`Parameters` object (310-312) goes in this order. -/
def Name.all : List Name :=
  [.alignment, .seriesNames, .headersCoord, .composedHeadersCoord, .context,
   .dataStarts, .dataEnds, .continuity, .blankRows, .missings, .missingValue,
   .timeAlignment, .timeMulticolumn, .timeHeaderCoord, .timeComposed, .frequency]

/-- An entry of a `VALID_VALUES` list: a type or a literal value. -/
inductive Valid
  | tStr | tList | tDict | tInt
  | val (v : PVal)

/-- `VALID_VALUES`, `xlseries/strategies/discover/parameters.py:60-84` (repeated entries once). -/
def validValues : Name → List Valid
  | .alignment => [.val (.str c!"vertical"), .val (.str c!"horizontal")]
  | .seriesNames => [.tStr, .val .none]
  | .headersCoord => [.tStr]
  | .composedHeadersCoord => [.tList, .tStr, .val .none]
  | .context => [.tDict, .tList, .tStr, .val .none]
  | .dataStarts => [.tInt]
  | .dataEnds => [.tInt, .val .none]
  | .continuity => [.val (.bool true), .val (.bool false)]
  | .blankRows => [.val (.bool true), .val (.bool false)]
  | .missings => [.val (.bool true), .val (.bool false)]
  | .missingValue => []
  | .timeAlignment => [.val (.int (-1)), .val (.int 0), .val (.int 1)]
  | .timeMulticolumn => [.val (.bool true), .val (.bool false)]
  | .timeHeaderCoord => [.tStr, .tList]
  | .timeComposed => [.val (.bool true), .val (.bool false)]
  | .frequency => [.val (.str c!"A"), .val (.str c!"S"), .val (.str c!"Q"), .val (.str c!"M"),
      .val (.str c!"W"), .val (.str c!"D")]

/-- `None in valid_values`. -/
def hasNone (vs : List Valid) : Bool :=
  vs.any fun v => match v with
    | .val .none => true
    | _ => false

/-- `CRITICAL`, 87-92: the names only, in checking order. -/
def critical : List Name := [.timeHeaderCoord, .headersCoord, .dataStarts, .frequency]

/-- The default list of missing value markers, 105-108. -/
def defaultMissingValue : PVal :=
  .list [.none, .str c!"-", .str c!"...", .str c!".", .str c!"/", .str c!"///", .str [],
    .str c!"s.d.", .str c!"s/d", .str c!"n,d,", .str c!"s.d", .str c!" "]

/-- `DEFAULT_VALUES`, 96-113; critical parameters have none. -/
def defaultValue : Name → Option PVal
  | .timeAlignment => some (.int 0)
  | .alignment => some (.str c!"vertical")
  | .continuity => some (.bool true)
  | .blankRows => some (.bool false)
  | .missings => some (.bool false)
  | .timeComposed => some (.bool false)
  | .timeMulticolumn => some (.bool false)
  | .missingValue => some defaultMissingValue
  | .dataEnds => some .none
  | .seriesNames => some .none
  | .composedHeadersCoord => some .none
  | .context => some .none
  | _ => none

/-- `LIKELINESS_ORDER`, 116-118. -/
def likelinessOrder : List Name :=
  [.timeAlignment, .alignment, .continuity, .blankRows, .missings, .timeComposed,
   .timeMulticolumn]

/-- `OPTIONAL`, 124-125. -/
def optionalNames : List Name := [.seriesNames, .dataEnds, .composedHeadersCoord, .context]

/-- `USE_DEFAULT`, 128. -/
def useDefault : List Name := [.timeAlignment, .missingValue]

/-- `FREQ_TRANSLATION.get(s, s)`, 133-137. -/
def freqTranslate (s : Str) : Str :=
  if s = c!"Y" then c!"A"
  else if s = c!"YQQQQ" then c!"AQQQQ"
  else if s = c!"QQQQY" then c!"QQQQA"
  else s

/-! ### Dictionaries -/

/-- A key of the user's dictionary: a parameter name or any other string. -/
inductive Key
  | known (n : Name)
  | unknown (s : Str)
  deriving DecidableEq

/-- A parameters dictionary in insertion order (distinct keys). -/
abbrev PDict := List (Key × PVal)

namespace PDict

/-- `d.get(key)`; `none` = key absent. -/
def get? (d : PDict) (n : Name) : Option PVal :=
  match d with
  | [] => none
  | (k, v) :: rest => if k = .known n then some v else get? rest n

/-- `d[key] = value`: in place, or appended. -/
def put (d : PDict) (k : Key) (v : PVal) : PDict :=
  match d with
  | [] => [(k, v)]
  | (k', v') :: rest => if k' = k then (k, v) :: rest else (k', v') :: put rest k v

/-- `d[key]`. -/
def get (d : PDict) (n : Name) : Except Err PVal :=
  match d.get? n with
  | some v => .ok v
  | none => .error .keyError

end PDict

/-! ### Build step 1: critical parameters, frequency -/

/-- `xlseries/strategies/discover/parameters.py:459-469` (`_check_has_critical`). -/
def checkHasCritical (d : PDict) : List Name → Except Err Unit
  | [] => .ok ()
  | n :: ns =>
    match d.get? n with
    | none => .error .criticalParameterMissing
    | some v =>
      if v.isNone && !hasNone (validValues n) then .error .criticalParameterMissing
      else checkHasCritical d ns

/-- One frequency code, lines 208-218: upper case and translated; only strings have `.upper()`. -/
def curateOne : PVal → Except Err PVal
  | .str s => .ok (.str (freqTranslate (upper s)))
  | _ => .error .attributeError

/-- The list comprehension of 208-212. -/
def curateAll : List PVal → Except Err (List PVal)
  | [] => .ok []
  | v :: vs => do
    let v' ← curateOne v
    let vs' ← curateAll vs
    return v' :: vs'

/-- `xlseries/strategies/discover/parameters.py:207-218`. -/
def curateFreq : PVal → Except Err PVal
  | .list vs => do
    let vs' ← curateAll vs
    return .list vs'
  | v => curateOne v

/-! ### Build step 2: validation -/

/-- One test of `_valid_param_value`, 530-536: `isinstance` for a type (a bool is an `int`), `==`
otherwise. -/
def Valid.accepts : Valid → PVal → Bool
  | .tStr, .str _ => true
  | .tList, .list _ => true
  | .tDict, .dict _ => true
  | .tInt, .int _ => true
  | .tInt, .bool _ => true
  | .val w, v => v.pyEq w
  | _, _ => false

/-- `xlseries/strategies/discover/parameters.py:522-538` (`_valid_param_value`). -/
def validParamValue (v : PVal) (vs : List Valid) : Bool :=
  vs.isEmpty || vs.any fun w => w.accepts v

/-- The valid frequency characters (83). -/
def freqChars : List Char := ['A', 'S', 'Q', 'M', 'W', 'D']

/-- `xlseries/strategies/discover/parameters.py:513-520` (`_valid_freq`). After the curation the
value is always a string. -/
def validFreq : PVal → Except Err Bool
  | .str s => .ok (s.all fun c => freqChars.contains c)
  | _ => .error .typeError

/-- The body of the loop over the values of one parameter, 487-511. `whole` is `param_value`. -/
def validateValue (k : Key) (whole v : PVal) : Except Err Unit :=
  match k with
  | .known .frequency =>
    match validFreq v with
    | .error e => .error e
    | .ok b => if b then .ok () else .error .invalidParameter
  | .known .context =>
    match whole with
    | .dict kvs =>
      if kvs.all (fun kv => validParamValue kv.2 (validValues .context)) then .ok ()
      else .error .invalidParameter
    | _ => .error .invalidParameter
  | .known n =>
    if validParamValue v (validValues n) then .ok () else .error .invalidParameter
  | .unknown _ => .error .keyError

/-- The loop `for value in iter_param_values` (487). -/
def validateValues (k : Key) (whole : PVal) : List PVal → Except Err Unit
  | [] => .ok ()
  | v :: vs =>
    match validateValue k whole v with
    | .error e => .error e
    | .ok () => validateValues k whole vs

/-- One parameter, 476-511. -/
def validateParam (k : Key) : PVal → Except Err Unit
  | .none => .ok ()
  | .list vs => validateValues k (.list vs) vs
  | v => validateValues k v [v]

/-- `xlseries/strategies/discover/parameters.py:472-511` (`_validate_parameters`). -/
def validateParams : PDict → Except Err Unit
  | [] => .ok ()
  | (k, v) :: rest =>
    match validateParam k v with
    | .error e => .error e
    | .ok () => validateParams rest

/-! ### Build step 3: defaults -/

/-- `d.get(n) is None`. -/
def PDict.absent (d : PDict) (n : Name) : Bool :=
  match d.get? n with
  | none => true
  | some v => v.isNone

/-- `xlseries/strategies/discover/parameters.py:541-557` (`_missings_to_default`): none of the
`USE_DEFAULT` parameters accepts `None` explicitly. -/
def missingsToDefault (d : PDict) : PDict :=
  useDefault.foldl (init := d) fun acc n =>
    if d.absent n && !hasNone (validValues n) then
      match defaultValue n with
      | some v => acc.put (.known n) v
      | none => acc
    else acc

/-! ### Build step 4: header ranges -/

/-- `zip(*ranges)`. -/
def zipAll : List (List Str) → List (List Str)
  | [] => []
  | [r] => r.map fun x => [x]
  | r :: rs => List.zipWith (fun x xs => x :: xs) r (zipAll rs)

/-- The ranges of 588-592. Simplification: they are evaluated eagerly. -/
def coordRanges : List (Str × Str) → Except Err (List (List Str))
  | [] => .ok []
  | (a, b) :: rest => do
    let r ← coordRange a b
    let rs ← coordRanges rest
    return r :: rs

/-- `s.replace("(", "").replace(")", "")`, 585-586. -/
def dropParens (s : Str) : Str := s.filter fun c => c ≠ '(' && c ≠ ')'

/-- `xlseries/strategies/discover/parameters.py:571-599`: one string of header coordinates. A
mixture of plain and composed ends raises `KeyError` (the error report indexes `VALID_VALUES` with
the inexistent name `header_coord`). -/
def unpackStr (s : Str) : Except Err (List Str) :=
  if !s.contains '-' && !s.contains ':' then .ok [upper s]
  else
    match splitOn (if s.contains '-' then '-' else ':') (upper s) with
    | [start, stop] =>
      if !start.contains '_' && !stop.contains '_' then coordRange start stop
      else if start.contains '_' && stop.contains '_' then do
        let rs ← coordRanges
          (List.zip (splitOn '_' (dropParens start)) (splitOn '_' (dropParens stop)))
        return (zipAll rs).map (joinWith ['_'])
      else .error .keyError
    | _ => .error .valueError

mutual

/-- `xlseries/strategies/discover/parameters.py:569-607` (`_unpack_header_ranges_generator`, the
list of all it yields). -/
def unpackGen : PVal → Except Err (List PVal)
  | .str s => do
    let cs ← unpackStr s
    return cs.map .str
  | .list vs => unpackElems vs
  | _ => .ok []

/-- The loop of 602-607 over the elements of a list. -/
def unpackElems : List PVal → Except Err (List PVal)
  | [] => .ok []
  | .list ws :: vs => do
    let u ← unpackElems ws
    let rest ← unpackElems vs
    return .list u :: rest
  | v :: vs => do
    let u ← unpackGen v
    let rest ← unpackElems vs
    return u ++ rest

end

/-- `xlseries/strategies/discover/parameters.py:560-567` (`_unpack_header_ranges`). -/
def unpackRanges : PVal → Except Err PVal
  | .str s =>
    if s = [] ∨ lower s = c!"none" then .ok .none
    else do
      let u ← unpackGen (.str s)
      return .list u
  | .list [] => .ok .none
  | .list vs => do
    let u ← unpackGen (.list vs)
    return .list u
  | .dict kvs => if kvs = [] then .ok .none else .error .attributeError
  | v => if v.truthy then .error .typeError else .ok .none

/-- One header of `_separate_composed_headers` (628-635): (composed, header). -/
def separateOne : PVal → Except Err (List Str × PVal)
  | .str s =>
    if s.contains '_' then
      let coords := splitOn '_' s
      .ok (coords.dropLast, .str (coords.getLastD []))
    else .ok ([], .str s)
  | .list vs =>
    if vs.any (fun v => v.pyEq (.str ['_'])) then .error .attributeError else .ok ([], .list vs)
  | _ => .error .typeError

/-- The loop of 626-635. -/
def separateAll : List PVal → Except Err (List (List Str × PVal))
  | [] => .ok []
  | v :: vs => do
    let p ← separateOne v
    let ps ← separateAll vs
    return p :: ps

/-- `xlseries/strategies/discover/parameters.py:609-637` (`_separate_composed_headers`) after
unpacking, i.e. `_process_headers_coord` (668-688): for each header its composed coordinates and
its own coordinate. -/
def processHeaders (v : PVal) : Except Err (List (List Str × PVal)) := do
  let u ← unpackRanges v
  match u with
  | .list vs => separateAll vs
  | _ => throw .typeError

/-- The new `headers_coord` list. -/
def headersOf (ps : List (List Str × PVal)) : PVal := .list (ps.map (·.2))

/-- The new `composed_headers_coord` list. -/
def composedOf (ps : List (List Str × PVal)) : PVal :=
  .list (ps.map fun p => .list (p.1.map .str))

/-- `any(map(len, composed_hc))`, 229. -/
def anyComposed (ps : List (List Str × PVal)) : Bool := ps.any fun p => !p.1.isEmpty

/-! ### Build step 4b: context -/

/-- First loop of `_process_context` (651-652) followed by `len(...)` in the sort key (656): a
value unpacked to `None` has no length. -/
def unpackContext : List (Str × PVal) → Except Err (List (Str × List PVal))
  | [] => .ok []
  | (k, v) :: rest => do
    let u ← unpackRanges v
    let us ← unpackContext rest
    match u with
    | .list vs => return (k, vs) :: us
    | _ => throw .typeError

/-- Insertion in an order of decreasing length, after equal ones. -/
def insertByLen (x : Str × List PVal) : List (Str × List PVal) → List (Str × List PVal)
  | [] => [x]
  | y :: ys => if x.2.length ≤ y.2.length then y :: insertByLen x ys else x :: y :: ys

/-- `sorted(..., key=len, reverse=True)`, 654-657: stable, longest first. -/
def sortByLen (xs : List (Str × List PVal)) : List (Str × List PVal) :=
  xs.foldl (fun acc x => insertByLen x acc) []

/-- Inner loop 661-663: the names whose scope contains the header. -/
def contextOf (header : PVal) : List (Str × List PVal) → Except Err (List Str)
  | [] => .ok []
  | (name, coords) :: rest => do
    let b ← coordInScope header coords
    let names ← contextOf header rest
    return if b then name :: names else names

/-- Outer loop 660-663. -/
def contextsOf (ordered : List (Str × List PVal)) : List PVal → Except Err (List (List Str))
  | [] => .ok []
  | h :: hs => do
    let ns ← contextOf h ordered
    let rest ← contextsOf ordered hs
    return ns :: rest

/-- `xlseries/strategies/discover/parameters.py:639-666` (`_process_context`); only dictionaries
have `.items()`, only lists (in practice) are iterated as headers. -/
def processContext (ctx headers : PVal) : Except Err PVal :=
  match ctx with
  | .dict kvs => do
    let us ← unpackContext kvs
    match headers with
    | .list hs =>
      let cs ← contextsOf (sortByLen us) hs
      return .list (cs.map fun ns => .list (ns.map .str))
    | _ => throw .typeError
  | _ => .error .attributeError

/-! ### Build step 5: consistency -/

/-- `data_starts > n`, for the values `data_starts` may have. -/
def gtInt (v : PVal) (n : Int) : Except Err Bool :=
  match v.number with
  | some q => .ok (decide ((n : Rat) < q))
  | none => .error .typeError

/-- `assert data_starts > xs[0]`, 720 and 726. -/
def assertAfter (start : PVal) (xs : List Int) : Except Err Unit :=
  match xs with
  | [] => .error .indexError
  | x :: _ =>
    match gtInt start x with
    | .error e => .error e
    | .ok b => if b then .ok () else .error .assertionError

/-- The assertion under its condition, 719-720 and 723-726. -/
def assertIf (b : Bool) (start : PVal) (xs : List Int) : Except Err Unit :=
  if b then assertAfter start xs else .ok ()

/-- `param[0]` if it is a list, itself otherwise (695-698). -/
def firstOrSelf : PVal → Except Err PVal
  | .list [] => .error .indexError
  | .list (x :: _) => .ok x
  | v => .ok v

/-- Lines 712-715: all rows equal and all columns different. -/
def evidentlyVertical (cs : List (Int × Int)) : Bool :=
  setLen (cs.map (·.1)) == 1 && setLen (cs.map (·.2)) == (cs.map (·.2)).length

/-- Lines 716-717: all columns equal and all rows different. -/
def evidentlyHorizontal (cs : List (Int × Int)) : Bool :=
  setLen (cs.map (·.2)) == 1 && setLen (cs.map (·.1)) == (cs.map (·.1)).length

/-- The conditions of 719 and 723: the alignment is the given one or, when the key is absent
(`none`), evident from more than one header. -/
def looksVertical (cs : List (Int × Int)) : Option PVal → Bool
  | some a => a.pyEq (.str c!"vertical")
  | none => decide (1 < cs.length) && evidentlyVertical cs

/-- Likewise, 723. -/
def looksHorizontal (cs : List (Int × Int)) : Option PVal → Bool
  | some a => a.pyEq (.str c!"horizontal")
  | none => decide (1 < cs.length) && evidentlyHorizontal cs

/-- `xlseries/strategies/discover/parameters.py:691-726` (`_check_consistency`); `alignment` is
`none` when the key is absent. -/
def checkConsistency (dataStarts : PVal) (headers : List PVal) (alignment : Option PVal) :
    Except Err Unit := do
  let start ← firstOrSelf dataStarts
  let cs ← cellsOf headers
  assertIf (looksVertical cs alignment) start (cs.map (·.1))
  assertIf (looksHorizontal cs alignment) start (cs.map (·.2))

/-! ### Build step 6: guesses -/

/-- `xlseries/strategies/discover/parameters.py:883-888` (`_is_repeated`). -/
def isRepeated : PVal → Bool
  | .list [] => true
  | .list (x :: xs) => (x :: xs).all fun y => y.pyEq x
  | _ => false

/-- `xlseries/strategies/discover/parameters.py:853-863` (`_get_num_series`): the length of the
longest list other than `missing_value`; `none` if there is no list. -/
def numSeriesFrom (acc : Option Nat) : PDict → Option Nat
  | [] => acc
  | (k, .list vs) :: rest =>
    if k = .known .missingValue then numSeriesFrom acc rest
    else match acc with
      | none => numSeriesFrom (some vs.length) rest
      | some m => numSeriesFrom (some (if m = 0 ∨ m < vs.length then vs.length else m)) rest
  | _ :: rest => numSeriesFrom acc rest

/-- `_get_num_series(params)`. -/
def numSeries (d : PDict) : Option Nat := numSeriesFrom none d

/-- Lines 741-744 of `_guess_time_multicolumn`: the common entry of a list of equal entries. -/
def commonEntry (thc : PVal) : Except Err PVal :=
  match thc with
  | .list [] => .error .indexError
  | .list (x :: xs) => .ok (if isRepeated (.list (x :: xs)) then x else .list (x :: xs))
  | v => .ok v

/-- `xlseries/strategies/discover/parameters.py:729-754` (`_guess_time_multicolumn`). -/
def guessMulticolumn (thc : PVal) (n : Option Nat) : Except Err Bool :=
  match commonEntry thc with
  | .error e => .error e
  | .ok (.list vs) => if some vs.length ≠ n then .ok true else consecutiveCells vs
  | .ok _ => .ok false

/-- Lines 775-779: the alignment the positions of the headers show. -/
def alignmentOf (cs : List (Int × Int)) : PVal :=
  if evidentlyVertical cs then .str c!"vertical"
  else if evidentlyHorizontal cs then .str c!"horizontal"
  else .none

/-- `xlseries/strategies/discover/parameters.py:756-781` (`_guess_alignment`). -/
def guessAlignment (headers : List PVal) : Except Err PVal :=
  if headers.length ≤ 1 then .ok .none
  else
    match (if headers.length < 4 then consecutiveCells headers else .ok true) with
    | .error e => .error e
    | .ok false => .ok .none
    | .ok true =>
      match cellsOf headers with
      | .error e => .error e
      | .ok cs => .ok (alignmentOf cs)

/-! ### Build step 7: one value per series -/

/-- `[value for i in range(num_series)]`; `range(None)` is a `TypeError`. -/
def repeatFor (v : PVal) : Option Nat → Except Err PVal
  | none => .error .typeError
  | some n => .ok (.list (List.replicate n v))

/-- Lines 796-808: the general case. -/
def applyGeneric (v : PVal) (n : Option Nat) (vs : List Valid) : PVal :=
  if v.isNone && !vs.isEmpty && !hasNone vs then .none
  else match n with
    | some (k + 1) =>
      match v with
      | .list [x] => .list (List.replicate (k + 1) x)
      | .list xs => .list xs
      | v => .list (List.replicate (k + 1) v)
    | _ => v

/-- `xlseries/strategies/discover/parameters.py:810-833` (`_apply_to_all_time_header`); `multi` is
`params["time_multicolumn"]`. -/
def applyTimeHeader (thc : PVal) (n : Option Nat) (multi : PVal) : Except Err PVal :=
  match thc with
  | .list [] => .error .indexError
  | .list (.list x :: rest) =>
    if some (rest.length + 1) = n then .ok (.list (.list x :: rest)) else .error .valueError
  | .list vs =>
    match firstOrSelf multi with
    | .error e => .error e
    | .ok m =>
      if m.truthy then repeatFor (.list vs) n
      else .ok (applyGeneric (.list vs) n (validValues .timeHeaderCoord))
  | v =>
    match firstOrSelf multi with
    | .error e => .error e
    | .ok _ => .ok (applyGeneric v n (validValues .timeHeaderCoord))

/-- `xlseries/strategies/discover/parameters.py:835-850` (`_apply_to_all_missing_value`). -/
def applyMissingValue (v : PVal) (n : Option Nat) : Except Err PVal :=
  match v with
  | .list (.list x :: rest) =>
    if some (rest.length + 1) = n then .ok (.list (.list x :: rest)) else .error .assertionError
  | .list vs => repeatFor (.list vs) n
  | v => repeatFor (.list [v]) n

/-- `xlseries/strategies/discover/parameters.py:784-808` (`_apply_to_all`); `multi` is
`params["time_multicolumn"]`, looked up for the time header only. -/
def applyToAll (name : Name) (v : PVal) (n : Option Nat) (multi : PVal) : Except Err PVal :=
  match name with
  | .timeHeaderCoord => applyTimeHeader v n multi
  | .missingValue => applyMissingValue v n
  | name => .ok (applyGeneric v n (validValues name))

/-- The loop of 252-255. The value of `time_multicolumn` that `_apply_to_all_time_header` sees is
the guessed or given one, possibly already repeated: its first entry (or itself) is the same. -/
def applyEach (n : Option Nat) (multi : PVal) : PDict → Except Err PDict
  | [] => .ok []
  | (.unknown _, _) :: _ => .error .keyError
  | (.known name, v) :: rest => do
    let v' ← applyToAll name v n multi
    let rest' ← applyEach n multi rest
    return (.known name, v') :: rest'

/-- One iteration of the loop of 258-263: an optional parameter that is absent or falsy gets `None`
for each series (all of `OPTIONAL` have the default `None` and are neither the time header nor
`missing_value`). -/
def fillOptional (n : Option Nat) (d : PDict) (name : Name) : PDict :=
  match d.get? name with
  | some v => if v.truthy then d else d.put (.known name) (applyGeneric .none n (validValues name))
  | none => d.put (.known name) (applyGeneric .none n (validValues name))

/-- The loop of 258-263. -/
def applyOptional (n : Option Nat) (d : PDict) : PDict := optionalNames.foldl (fillOptional n) d

/-! ### The whole build -/

/-- `not d.get(n)`: absent or falsy. -/
def PDict.falsy (d : PDict) (n : Name) : Bool :=
  match d.get? n with
  | none => true
  | some v => !v.truthy

/-- First part of `_build`, 193-240: checked, curated, validated, defaulted, unpacked. -/
def buildCurated (d : PDict) : Except Err PDict := do
  checkHasCritical d critical
  let f ← d.get .frequency
  let f' ← curateFreq f
  let d := d.put (.known .frequency) f'
  validateParams d
  return missingsToDefault d

/-- Second part of `_build`, 224-238: headers, composed headers, time header, context. -/
def buildHeaders (d : PDict) : Except Err PDict := do
  let hc ← d.get .headersCoord
  let ps ← processHeaders hc
  let d := d.put (.known .headersCoord) (headersOf ps)
  let d := if anyComposed ps then d.put (.known .composedHeadersCoord) (composedOf ps) else d
  let thc ← d.get .timeHeaderCoord
  let thc' ← unpackRanges thc
  let d := d.put (.known .timeHeaderCoord) thc'
  if d.falsy .context then return d
  else
    let ctx ← d.get .context
    let ctx' ← processContext ctx (headersOf ps)
    return d.put (.known .context) ctx'

/-- Lines 243-247: the guess of `time_multicolumn`. -/
def guessMultiStep (d : PDict) : Except Err PDict :=
  if d.falsy .timeMulticolumn then do
    let thc ← d.get .timeHeaderCoord
    let b ← guessMulticolumn thc (numSeries d)
    return d.put (.known .timeMulticolumn) (.bool b)
  else .ok d

/-- Lines 249-251: the guess of `alignment`. -/
def guessAlignStep (hs : List PVal) (d : PDict) : Except Err PDict :=
  if d.falsy .alignment then do
    let a ← guessAlignment hs
    return d.put (.known .alignment) a
  else .ok d

/-- Third part of `_build`, 240-251: consistency and guesses. `headers_coord` is a list here. -/
def buildGuesses (d : PDict) : Except Err PDict := do
  let starts ← d.get .dataStarts
  let hc ← d.get .headersCoord
  match hc with
  | .list hs =>
    checkConsistency starts hs (d.get? .alignment)
    let d' ← guessMultiStep d
    guessAlignStep hs d'
  | _ => throw .typeError

/-- `xlseries/strategies/discover/parameters.py:193-267` (`_build`). The number of series is
computed (243) before the guesses, which add no list. -/
def build (d : PDict) : Except Err PDict := do
  let d ← buildCurated d
  let d ← buildHeaders d
  let n := numSeries d
  let d ← buildGuesses d
  let multi ← d.get .timeMulticolumn
  let d ← applyEach n multi d
  return applyOptional n d

/-! ### The object -/

/-- A `Parameters` object: a value for each name, `PVal.none` = missing (138-163). -/
abbrev Params := Name → PVal

/-- `Parameters()`: everything missing. -/
def Params.empty : Params := fun _ => .none

/-- `self.__dict__`, in attribute order. -/
def Params.toDict (p : Params) : PDict := Name.all.map fun n => (.known n, p n)

/-- `self[name] = value` at attribute level (`self.__dict__[name] = value`). -/
def Params.store (p : Params) (n : Name) (v : PVal) : Params :=
  fun m => if m = n then v else p m

/-- `_get_num_series(self.__dict__)`. -/
def Params.num (p : Params) : Option Nat := numSeries p.toDict

/-- What the constructor may be given; `json` is the parsed contents of a `.json` file. Files that
do not hold a JSON object are not modelled. -/
inductive PInput
  | none
  | dict (d : PDict)
  | params (p : Params)
  | json (d : PDict)
  | other

/-- Lines 165-172. -/
def Params.ofDict (d : PDict) : Except Err Params := do
  let b ← build d
  return fun n => (b.get? n).getD .none

/-- `xlseries/strategies/discover/parameters.py:138-191` (`Parameters.__init__`,
`_get_params_dict`). Falsy input gives an empty object; the truth value of a `Parameters` object is
its length (`__len__`, 325-326, which must be a number). -/
def Params.new : PInput → Except Err Params
  | .none => .ok Params.empty
  | .dict d => if d = [] then .ok Params.empty else Params.ofDict d
  | .params p =>
    match p.num with
    | Option.none => .error .typeError
    | some 0 => .ok Params.empty
    | some _ => Params.ofDict p.toDict
  | .json d => Params.ofDict d
  | .other => .error .inputParametersNotRecognized

namespace Params

/-- `xlseries/strategies/discover/parameters.py:890-898` (`_valid_param_list`). -/
def validParamList (n : Name) (v : PVal) (num : Option Nat) : Bool :=
  match v with
  | .list vs => decide (some vs.length = num) && vs.all fun x => validParamValue x (validValues n)
  | _ => false

/-- The last two branches of `__setitem__`, 295-308. -/
def setPlain (p : Params) (n : Name) (v : PVal) (num : Option Nat) : Except Err Params :=
  if validParamList n v num then .ok (p.store n v)
  else if validParamValue v (validValues n) then
    match applyToAll n v p.num (p .timeMulticolumn) with
    | .error e => .error e
    | .ok v' => .ok (p.store n v')
  else .error .invalidParameter

/-- `xlseries/strategies/discover/parameters.py:280-308` (`__setitem__`). An error after the
headers were stored leaves the object modified in Python; that intermediate state is not returned
here. -/
def setItem (p : Params) (n : Name) (v : PVal) : Except Err Params :=
  let num := p.num
  if n = .context ∧ v.truthy = true then do
    let c ← processContext v (p .headersCoord)
    return p.store .context c
  else if n = .headersCoord then do
    let ps ← processHeaders v
    let p := p.store .headersCoord (headersOf ps)
    if anyComposed ps then p.setPlain .composedHeadersCoord (composedOf ps) p.num
    else return p
  else p.setPlain n v num

/-- `value[i]` for a parameter value. Simplification: only lists are indexed. -/
def index (v : PVal) (i : Nat) : Except Err PVal :=
  match v with
  | .list vs => match vs[i]? with
    | some x => .ok x
    | none => .error .indexError
  | _ => .error .typeError

/-- `xlseries/strategies/discover/parameters.py:329-343` (`get_series_params`): the dictionary of
the parameters of one series, without the missing ones. -/
def seriesDict (p : Params) (i : Nat) : List Name → Except Err (List (Name × PVal))
  | [] => .ok []
  | n :: ns =>
    if (p n).isNone then seriesDict p i ns
    else do
      let v ← index (p n) i
      let rest ← seriesDict p i ns
      return (n, v) :: rest

/-- `params[i]` / `get_series_params(i)`. -/
def series (p : Params) (i : Nat) : Except Err (List (Name × PVal)) := p.seriesDict i Name.all

/-- `len(value)` for a parameter value. -/
def len : PVal → Except Err Nat
  | .list vs => .ok vs.length
  | .str s => .ok s.length
  | .dict kvs => .ok kvs.length
  | _ => .error .typeError

/-- One iteration of `is_complete` (349-360): `true` = go on. `min(2, None)` is a `TypeError`. -/
def completeAt (p : Params) (num : Option Nat) (n : Name) : Except Err Bool :=
  if optionalNames.contains n then .ok true
  else if (p n).isNone then .ok false
  else match len (p n) with
    | .error e => .error e
    | .ok k =>
      if n = .timeHeaderCoord then
        match num with
        | none => .error .typeError
        | some m => .ok (decide (min 2 m ≤ k))
      else .ok (decide (some k = num))

/-- The loop of `is_complete`. -/
def completeFrom (p : Params) (num : Option Nat) : List Name → Except Err Bool
  | [] => .ok true
  | n :: ns =>
    match completeAt p num n with
    | .error e => .error e
    | .ok false => .ok false
    | .ok true => completeFrom p num ns

/-- `xlseries/strategies/discover/parameters.py:345-362` (`is_complete`). -/
def isComplete (p : Params) : Except Err Bool := p.completeFrom p.num Name.all

/-- `xlseries/strategies/discover/parameters.py:911-913` (`_is_missing`). -/
def isMissing (p : Params) (n : Name) : Bool := (p n).isNone && !hasNone (validValues n)

/-- `xlseries/strategies/discover/parameters.py:364-370` (`get_missings`). -/
def getMissings (p : Params) : List Name := Name.all.filter p.isMissing

/-- `del value[index]` for a list of length `num`, 418-425. -/
def eraseAt (num i : Nat) : PVal → PVal
  | .list vs => if vs.length = num then .list (vs.eraseIdx i) else .list vs
  | v => v

/-- `xlseries/strategies/discover/parameters.py:418-425` (`remove_series`), for an index in range.
`len(self)` of an object without lists is a `TypeError`; an index out of range an `IndexError`. -/
def removeSeries (p : Params) (i : Nat) : Except Err Params :=
  match p.num with
  | none => .error .typeError
  | some num => if num ≤ i then .error .indexError else .ok fun n => eraseAt num i (p n)

/-- `ws[coord].value` for a parameter value. -/
def cellValue (ws : Sheet) (v : PVal) : Except Err Cell :=
  match cellOf v with
  | .ok (r, c) => .ok (ws.cells r c)
  | .error e => .error e

/-- `any([ws[hc].value for hc in composed_hc])`, 410-411: all cells are read first. -/
def anyValue (ws : Sheet) : List PVal → Except Err Bool
  | [] => .ok false
  | v :: vs => do
    let x ← cellValue ws v
    let rest ← anyValue ws vs
    return x.truthy || rest

/-- Lines 408-413: is this header blank? A composed header given as one string is iterated by
character in Python, and a character is no cell coordinate. Simplification: composed headers given as a
dictionary are not iterated over. -/
def blankHeader (ws : Sheet) (header composed : PVal) : Except Err Bool := do
  let h ← cellValue ws header
  let c ← match composed with
    | .list vs => anyValue ws vs
    | .str (x :: _) => throw (coordError [x])
    | v => if v.truthy then throw .typeError else pure false
  return !h.truthy && !c

/-- The loop of 406-416; `i` is the number of series kept so far (`index - removed`). -/
def removeBlankFrom (ws : Sheet) (p : Params) (i : Nat) : List (PVal × PVal) → Except Err Params
  | [] => .ok p
  | (h, c) :: rest =>
    match blankHeader ws h c with
    | .error e => .error e
    | .ok true =>
      match p.removeSeries i with
      | .error e => .error e
      | .ok p' => removeBlankFrom ws p' i rest
    | .ok false => removeBlankFrom ws p (i + 1) rest

/-- `xlseries/strategies/discover/parameters.py:402-416` (`remove_blank_headers`); `zip` needs two
lists. -/
def removeBlankHeaders (ws : Sheet) (p : Params) : Except Err Params :=
  match p .headersCoord, p .composedHeadersCoord with
  | .list hs, .list cs => removeBlankFrom ws p 0 (List.zip hs cs)
  | _, _ => .error .typeError

/-- `xlseries/strategies/discover/parameters.py:398-400` (`remove`). -/
def remove (p : Params) (n : Name) : Params := p.store n .none

/-- `xlseries/strategies/discover/parameters.py:314-323` (`__eq__`) for two `Parameters` objects. -/
def pyEq (p q : Params) : Bool := Name.all.all fun n => (p n).pyEq (q n)

end Params

end Xls
