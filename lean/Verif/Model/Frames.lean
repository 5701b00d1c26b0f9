/-
From parameters and a worksheet to data frames: the parts of `ParameterDiscovery`
(`xlseries/strategies/strategies.py`) that clean the time indexes and gather the series.
-/
import Verif.Model.GetData
import Verif.Model.PeriodRange
import Verif.Model.Params

set_option autoImplicit false

namespace Xls

/-! ### The parameters of one series, typed -/

/-- Text of a parameter value. -/
def PVal.asStr : PVal → Except Err Str
  | .str s => .ok s
  | _ => .error .typeError

/-- Integer of a parameter value; `True` and `False` are integers in Python. -/
def PVal.asInt : PVal → Except Err Int
  | .int i => .ok i
  | .bool b => .ok (if b then 1 else 0)
  | _ => .error .typeError

/-- All of a list of texts. -/
def asStrs : List PVal → Except Err (List Str)
  | [] => .ok []
  | v :: vs => do
    let s ← v.asStr
    let ss ← asStrs vs
    return s :: ss

/-- `None` or what `f` makes of the value. -/
def orNone {α : Type} (f : PVal → Except Err α) : PVal → Except Err (Option α)
  | .none => .ok Option.none
  | v => match f v with
    | .ok a => .ok (some a)
    | .error e => .error e

/-- The name given to a series, `data.py:75-76`: a value that counts as false is no name. Simplification: a name that is
no text raises. -/
def PVal.givenName : PVal → Except Err (Option Str)
  | .str s => .ok (some s)
  | v => if v.truthy then .error .typeError else .ok Option.none

/-- Composed headers or the context of a series, `data.py:81-96`: not looked at if a name is given, otherwise a list of
texts or a value that counts as false. -/
def PVal.nameParts (named : Bool) : PVal → Except Err (Option (List Str))
  | .list vs =>
    match asStrs vs with
    | .ok ss => .ok (some ss)
    | .error e => if named then .ok Option.none else .error e
  | v => if named || !v.truthy then .ok Option.none else .error .assertionError

/-- Alignment of a parameter value. -/
def PVal.asAlign : PVal → Align
  | .str s => if s = c!"vertical" then .vertical else if s = c!"horizontal" then .horizontal else .other
  | _ => .other

/-- A coordinate or a list of coordinates. -/
def PVal.asHeader : PVal → Except Err TimeHeader
  | .str s => .ok (.single s)
  | .list vs => match asStrs vs with
    | .ok cs => .ok (.multi cs)
    | .error e => .error e
  | _ => .error .typeError

/-- `params_series[name]`. -/
def entry (d : List (Name × PVal)) (n : Name) : Except Err PVal :=
  match d.find? fun kv => kv.1 = n with
  | some kv => .ok kv.2
  | none => .error .keyError

/-- The dictionary of the parameters of one series as a typed record. The flags are only ever used for
their truth value. Simplification: a missing or ill-typed entry raises here, not where the code first
uses it. -/
def SParams.ofDict (d : List (Name × PVal)) : Except Err SParams := do
  let alignment ← entry d .alignment
  let givenName ← entry d .seriesNames
  let seriesName ← givenName.givenName
  let headerCoord ← (entry d .headersCoord).bind PVal.asStr
  let composedHeaders ← (entry d .composedHeadersCoord).bind (PVal.nameParts givenName.truthy)
  let context ← (entry d .context).bind (PVal.nameParts givenName.truthy)
  let dataStarts ← (entry d .dataStarts).bind PVal.asInt
  let dataEnds ← (entry d .dataEnds).bind (orNone PVal.asInt)
  let continuity ← entry d .continuity
  let blankRows ← entry d .blankRows
  let missings ← entry d .missings
  let missingValue ← entry d .missingValue
  let timeAlignment ← (entry d .timeAlignment).bind PVal.asInt
  let timeMulticolumn ← entry d .timeMulticolumn
  let timeHeader ← (entry d .timeHeaderCoord).bind PVal.asHeader
  let timeComposed ← entry d .timeComposed
  let frequency ← (entry d .frequency).bind PVal.asStr
  return { alignment := alignment.asAlign, seriesName, headerCoord, composedHeaders, context, dataStarts,
           dataEnds, continuity := continuity.truthy, blankRows := blankRows.truthy,
           missings := missings.truthy, missingValue, timeAlignment,
           timeMulticolumn := timeMulticolumn.truthy, timeHeader, timeComposed := timeComposed.truthy,
           frequency }

/-- `params[i]` as a typed record. -/
def Params.typed (p : Params) (i : Nat) : Except Err SParams := (p.series i).bind SParams.ofDict

/-! ### Cleaning -/

/-- `params["data_ends"][i] = end`, `strategies.py:224-225`. -/
def setEnd (p : Params) (i : Nat) (stop : Int) : Params :=
  match p .dataEnds with
  | .list vs => p.store .dataEnds (.list (vs.set i (.int stop)))
  | _ => p

/-- The branch of `_clean_data` for time indexes in several columns, `strategies.py:198-204`. -/
def cleanMulti (ext : Ext) (p : Params) (s : Sheet) : Except Err Unit × Params × Sheet :=
  match p.typed 0 with
  | .error e => (.error e, p, s)
  | .ok sp =>
    match cleanTimeIndex ext sp s with
    | (.error e, s') => (.error e, p, s')
    | (.ok stop, s') =>
      match Params.index (p .dataEnds) 0 with
      | .error e => (.error e, p, s')
      | .ok v =>
        if v.truthy then (.ok (), p, s')
        else
          match p.setItem .dataEnds (.int stop) with
          | .error e => (.error e, p, s')
          | .ok p' => (.ok (), p', s')

/-- End of a cleaned time index, `time_indexes_ends[header]`. -/
def endOf (ends : List (Str × Int)) (header : Str) : Option Int :=
  (ends.find? fun kv => kv.1 = header).map Prod.snd

/-- Lines 213-219 of `_clean_data`: the end of the time index of series `i`, cleaned unless it was
cleaned before. `ends` is `time_indexes_ends`, whose keys are `time_indexes`. -/
def cleanOnce (ext : Ext) (p : Params) (s : Sheet) (ends : List (Str × Int)) (i : Nat) (header : Str) :
    Except Err (Int × List (Str × Int)) × Sheet :=
  match endOf ends header with
  | some stop => (.ok (stop, ends), s)
  | none =>
    match p.typed i with
    | .error e => (.error e, s)
    | .ok sp =>
      match cleanTimeIndex ext sp s with
      | (.error e, s') => (.error e, s')
      | (.ok stop, s') =>
        if stop = 0 then (.error .assertionError, s') else (.ok (stop, ends ++ [(header, stop)]), s')

/-- The loop of `_clean_data` over the series with single column time indexes, `strategies.py:208-227`.
The headers must be hashable: a list is a `TypeError`. -/
def cleanSeries (ext : Ext) : List Nat → Params → Sheet → List (Str × Int) →
    Except Err Unit × Params × Sheet
  | [], p, s, _ => (.ok (), p, s)
  | i :: is, p, s, ends =>
    match (Params.index (p .timeHeaderCoord) i).bind PVal.asStr with
    | .error e => (.error e, p, s)
    | .ok header =>
      match cleanOnce ext p s ends i header with
      | (.error e, s') => (.error e, p, s')
      | (.ok (stop, ends'), s') =>
        match Params.index (p .dataEnds) i with
        | .error e => (.error e, p, s')
        | .ok v => cleanSeries ext is (if v.truthy then p else setEnd p i stop) s' ends'

/-- `_clean_data`, `strategies.py:192-231`. The parameters and the worksheet are modified even when it
raises, so the state is returned along with the error. -/
def cleanData (ext : Ext) (p : Params) (s : Sheet) : Except Err Unit × Params × Sheet :=
  match Params.index (p .timeMulticolumn) 0 with
  | .error e => (.error e, p, s)
  | .ok multi =>
    if multi.truthy then cleanMulti ext p s
    else
      match Params.len (p .timeHeaderCoord) with
      | .error e => (.error e, p, s)
      | .ok n => cleanSeries ext (List.range n) p s []

/-! ### Names of columns -/

/-- `_indexed_name`, `strategies.py:562-568`. -/
def indexedName (name : Str) (i : Nat) : Str := if i ≤ 1 then name else name ++ c!"." ++ natStr i

/-- `_add_name`, `strategies.py:545-560`. The first argument is fuel, see `addName`. Simplification: no
limit on the depth of the recursion. -/
def addNameFrom (name : Str) (columns : List Str) : Nat → Nat → List Str
  | 0, _ => columns
  | fuel + 1, i =>
    if indexedName name i ∉ columns then columns ++ [indexedName name i]
    else addNameFrom name columns fuel (i + 1)

/-- `_add_name(name, columns)`: one of the first `len(columns) + 1` names is free. -/
def addName (name : Str) (columns : List Str) : List Str :=
  addNameFrom name columns (columns.length + 1) 1

/-! ### Data frames -/

/-- A pandas data frame: index with its frequency, columns and the values of each column. -/
structure Frame where
  freq : Str
  index : List Time
  columns : List Str
  data : List (List Num)
  deriving DecidableEq

/-- `_hash_period_range`, `strategies.py:322-325`. -/
def rangeKey (pr : PRange) : Except Err (Str × Time × Time) :=
  match pr.index.head?, pr.index.getLast? with
  | some a, some z => .ok (pr.freqstr, a, z)
  | _, _ => .error .indexError

/-- An entry of `dfs_dict`. -/
structure Bucket where
  key : Str × Time × Time
  range : PRange
  columns : List Str
  data : List (List Num)
  deriving DecidableEq

/-- `strategies.py:239-242`. -/
def addBucket (bs : List Bucket) (pr : PRange) : Except Err (List Bucket) :=
  match rangeKey pr with
  | .error e => .error e
  | .ok k => .ok (if bs.any fun b => b.key = k then bs else bs ++ [⟨k, pr, [], []⟩])

/-- The ranges of one series, `strategies.py:239-242`. -/
def addBuckets : List Bucket → List PRange → Except Err (List Bucket)
  | bs, [] => .ok bs
  | bs, pr :: prs =>
    match addBucket bs pr with
    | .error e => .error e
    | .ok bs' => addBuckets bs' prs

/-- What `_get_period_ranges` uses of one series: `strategies.py:488-492`. -/
structure RangeArgs where
  frequency : PVal
  dataStarts : PVal
  timeHeader : PVal
  dataEnds : PVal
  timeAlignment : PVal
  alignment : PVal

/-- The elements of an iterable parameter. Simplification: only lists are iterated over. -/
def PVal.items : PVal → Except Err (List PVal)
  | .list vs => .ok vs
  | _ => .error .typeError

/-- `zip` of six lists. -/
def zipArgs : List PVal → List PVal → List PVal → List PVal → List PVal → List PVal → List RangeArgs
  | f :: fs, b :: bs, h :: hs, e :: es, t :: ts, a :: as => ⟨f, b, h, e, t, a⟩ :: zipArgs fs bs hs es ts as
  | _, _, _, _, _, _ => []

/-- `strategies.py:488-492`. -/
def rangeArgs (p : Params) : Except Err (List RangeArgs) := do
  let fs ← (p .frequency).items
  let bs ← (p .dataStarts).items
  let hs ← (p .timeHeaderCoord).items
  let es ← (p .dataEnds).items
  let ts ← (p .timeAlignment).items
  let as ← (p .alignment).items
  return zipArgs fs bs hs es ts as

/-- The header passed on, `strategies.py:499-502` and 265-269: the first of several if `first`. -/
def singleHeader (first : Bool) : TimeHeader → Except Err Str
  | .single c => .ok c
  | .multi [] => if first then .error .indexError else .error .typeError
  | .multi (c :: _) => if first then .ok c else .error .typeError

/-- One round of `_get_period_ranges`, `strategies.py:488-508`. -/
def rangesOfArgs (ext : Ext) (p : Params) (s : Sheet) (a : RangeArgs) :
    Except Err (List PRange × List (Int × Int)) := do
  let stop ← orNone PVal.asInt a.dataEnds
  let ini ← a.dataStarts.asInt
  match stop with
  | none => throw .assertionError
  | some stop =>
    if stop = 0 ∨ stop ≤ ini then throw .assertionError
    else
      let h ← a.timeHeader.asHeader
      let header ← singleHeader (p .timeMulticolumn).truthy h
      let freq ← a.frequency.asStr
      let ta ← a.timeAlignment.asInt
      let prs ← seriesRanges ext s freq ini header stop ta a.alignment.asAlign
      return (prs, rangeReads freq ini header stop ta a.alignment.asAlign)

/-- Step 1 of `_get_data`, `strategies.py:237-242`. -/
def bucketLoop (ext : Ext) (p : Params) :
    List RangeArgs → Sheet → List Bucket → Except Err (List Bucket × Sheet)
  | [], s, bs => .ok (bs, s)
  | a :: as, s, bs =>
    match rangesOfArgs ext p s a with
    | .error e => .error e
    | .ok (prs, reads) =>
      match addBuckets bs prs with
      | .error e => .error e
      | .ok bs' => bucketLoop ext p as (s.touchAll reads) bs'

/-- `dfs_dict[key]["columns"]`, `["data"]` of the entry with a key, `strategies.py:281-282`. -/
def putSeries (name : Str) (values : List Num) (k : Str × Time × Time) :
    List Bucket → Except Err (List Bucket)
  | [] => .error .keyError
  | b :: bs =>
    if b.key = k then .ok ({ b with columns := addName name b.columns, data := b.data ++ [values] } :: bs)
    else
      match putSeries name values k bs with
      | .error e => .error e
      | .ok bs' => .ok (b :: bs')

/-- `strategies.py:278-282`. -/
def putAll : List (PRange × Str × List Num) → List Bucket → Except Err (List Bucket)
  | [], bs => .ok bs
  | (pr, name, values) :: rest, bs =>
    match rangeKey pr with
    | .error e => .error e
    | .ok k =>
      match putSeries name values k bs with
      | .error e => .error e
      | .ok bs' => putAll rest bs'

/-- A strategy of `xlseries/strategies/get/data.py:394-407`: single or several frequencies, continuous
or not. -/
structure Extractor where
  multi : Bool
  continuous : Bool
  deriving DecidableEq

/-- All strategies in the order in which they are tried, `data.py:394-407`. -/
def extractors : List Extractor := [⟨false, true⟩, ⟨false, false⟩, ⟨true, true⟩, ⟨true, false⟩]

/-- `accepts` of a strategy, `data.py:199-219`, 229-231, 261-262, 301-302, 339-340. -/
def Extractor.accepts (x : Extractor) (sp : SParams) : Bool :=
  (if x.multi then decide (1 < sp.frequency.length) else decide (sp.frequency.length = 1)) &&
    (if x.continuous then sp.continuity else !sp.continuity)

/-- One round of step 2 of `_get_data`, `strategies.py:245-282`. `getSeries` is what the accepting
strategy does. If no strategy accepts the frequency is empty and whatever `names_and_values` is the
period ranges raise. -/
def seriesStep (ext : Ext) (p : Params) (i : Nat) (s : Sheet) (bs : List Bucket) :
    Except Err (List Bucket × Sheet) := do
  let sp ← p.typed i
  match extractors.find? fun x => x.accepts sp with
  | none => throw (if i = 0 then .nameError else .exception)
  | some _ =>
    let nv ← getSeries ext sp s
    if nv.isEmpty then throw .indexError
    else
      let s := s.touchAll (seriesReads ext sp s)
      let header ← singleHeader sp.timeMulticolumn sp.timeHeader
      match sp.dataEnds with
      | none => throw .typeError
      | some stop =>
        let prs ← seriesRanges ext s sp.frequency sp.dataStarts header stop sp.timeAlignment sp.alignment
        let bs ← putAll (prs.zip nv) bs
        return (bs, s.touchAll
          (rangeReads sp.frequency sp.dataStarts header stop sp.timeAlignment sp.alignment))

/-- Step 2 of `_get_data`, `strategies.py:244-282`. -/
def seriesLoop (ext : Ext) (p : Params) :
    List Nat → Sheet → List Bucket → Except Err (List Bucket × Sheet)
  | [], s, bs => .ok (bs, s)
  | i :: is, s, bs =>
    match seriesStep ext p i s bs with
    | .error e => .error e
    | .ok (bs', s') => seriesLoop ext p is s' bs'

/-- `pd.DataFrame(index=index, columns=columns, data=np.array(data).transpose())`: `ValueError` if the
shapes do not fit, among others if there are no columns. -/
def mkFrame (freq : Str) (index : List Time) (columns : List Str) (data : List (List Num)) :
    Except Err Frame :=
  if columns ≠ [] ∧ columns.length = data.length ∧ ∀ d ∈ data, d.length = index.length then
    .ok ⟨freq, index, columns, data⟩
  else .error .valueError

/-- Step 3 of `_get_data` for one entry, `strategies.py:286-315`: business days are tried if days do not
fit. -/
def frameOf (ext : Ext) (b : Bucket) : Except Err Frame :=
  match mkFrame b.range.freqstr b.range.index b.columns b.data with
  | .ok f => .ok f
  | .error e =>
    if b.range.freqstr = c!"D" then
      mkFrame c!"B" (ext.businessDays b.key.2.1 b.key.2.2) b.columns b.data
    else .error e

/-- Step 3 of `_get_data`, `strategies.py:284-317`. -/
def framesOf (ext : Ext) : List Bucket → Except Err (List Frame)
  | [] => .ok []
  | b :: bs =>
    match frameOf ext b with
    | .error e => .error e
    | .ok f =>
      match framesOf ext bs with
      | .error e => .error e
      | .ok fs => .ok (f :: fs)

/-- `_get_data`, `strategies.py:233-319`. The worksheet is returned because looking cells up moves its
high-water marks; after an error it is given as it was (simplification: the marks may have moved). -/
def getData (ext : Ext) (p : Params) (s : Sheet) : Except Err (List Frame) × Sheet :=
  match (rangeArgs p).bind fun as => bucketLoop ext p as s [] with
  | .error e => (.error e, s)
  | .ok (bs, s1) =>
    match Params.len (p .headersCoord) with
    | .error e => (.error e, s1)
    | .ok n =>
      match seriesLoop ext p (List.range n) s1 bs with
      | .error e => (.error e, s1)
      | .ok (bs', s2) => (framesOf ext bs', s2)

/-- Cleaning followed by extraction on one worksheet, `strategies.py:104-109` and 117-122: the result,
the parameters and the worksheet afterwards. -/
def scrape (ext : Ext) (p : Params) (s : Sheet) : Except Err (List Frame) × Params × Sheet :=
  match cleanData ext p s with
  | (.error e, p', s') => (.error e, p', s')
  | (.ok _, p', s') =>
    match getData ext p' s' with
    | (r, s'') => (r, p', s'')

end Xls
