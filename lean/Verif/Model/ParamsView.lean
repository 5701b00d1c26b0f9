/-
`xlseries/strategies/discover/parameters.py`: counting, forgetting and showing parameters.
-/
import Verif.Model.Params

set_option autoImplicit false

namespace Xls

/-- `GUESSED`, `xlseries/strategies/discover/parameters.py:120`. -/
def guessedNames : List Name := [.timeMulticolumn]

/-- `xlseries/strategies/discover/parameters.py:900-902` (`_non_critical`). -/
def nonCritical (n : Name) : Bool := !critical.contains n

/-- Whether Python can put the value in a set. -/
def PVal.hashable : PVal → Bool
  | .list _ => false
  | .dict _ => false
  | _ => true

/-- `xlseries/strategies/discover/parameters.py:904-909` (`_no_differences`) for the value of the parameter: lists
of lists and values that are no lists count as having no differences; the entries of any other list are put in a
set. Simplification: two NaN entries count as different (in Python two references to one NaN object are the same
entry). -/
def noDifferences : PVal → Except Err Bool
  | .list [] => .error .indexError
  | .list (.list _ :: _) => .ok true
  | .list (x :: xs) =>
    if (x :: xs).all PVal.hashable then .ok (xs.all fun y => y.pyEq x) else .error .typeError
  | _ => .ok true

namespace Params

/-- `xlseries/strategies/discover/parameters.py:372-383` (`get_non_critical_params`), over the names of the
object. -/
def nonCriticalFrom (p : Params) (differents : Bool) : List Name → Except Err (List Name)
  | [] => .ok []
  | n :: ns =>
    if nonCritical n then
      if differents then do
        let rest ← p.nonCriticalFrom differents ns
        return n :: rest
      else do
        let same ← noDifferences (p n)
        let rest ← p.nonCriticalFrom differents ns
        return if same then n :: rest else rest
    else p.nonCriticalFrom differents ns

/-- `get_non_critical_params(differents)`. -/
def getNonCritical (p : Params) (differents : Bool) : Except Err (List Name) :=
  p.nonCriticalFrom differents Name.all

/-- `xlseries/strategies/discover/parameters.py:385-387` (`num_missings`). -/
def numMissings (p : Params) : Nat := (Name.all.filter p.isMissing).length

/-- The loop of 395-396: `self[param] = None` for each optional parameter. -/
def restoreOptional (p : Params) : List Name → Except Err Params
  | [] => .ok p
  | n :: ns =>
    match p.setItem n .none with
    | .error e => .error e
    | .ok p' => p'.restoreOptional ns

/-- `xlseries/strategies/discover/parameters.py:389-396` (`remove_non_critical`). -/
def removeNonCritical (p : Params) (differents : Bool) : Except Err Params := do
  let names ← p.getNonCritical differents
  let q := (names.filter fun n => !useDefault.contains n && !guessedNames.contains n).foldl Params.remove p
  q.restoreOptional optionalNames

/-! ### The compact representation -/

/-- `self[param_name][0]`. -/
def first : PVal → Except Err PVal
  | .list (x :: _) => .ok x
  | .list [] => .error .indexError
  | _ => .error .typeError

/-- `xlseries/strategies/discover/parameters.py:865-870` (`_is_optional`): the parameter is optional and is not
used. -/
def isUnused (p : Params) (n : Name) : Except Err Bool :=
  if optionalNames.contains n then
    if isRepeated (p n) then do
      let x ← first (p n)
      return x.isNone
    else .ok (p n).isNone
  else .ok false

/-- `xlseries/strategies/discover/parameters.py:872-881` (`_is_default`). -/
def isDefault (p : Params) (n : Name) : Except Err Bool :=
  if useDefault.contains n then
    if isRepeated (p n) then do
      let x ← first (p n)
      return ((defaultValue n).getD .none).pyEq x
    else .ok (((defaultValue n).getD .none).pyEq (p n))
  else .ok false

/-- The body of the loop of 446-455: the entry shown for a parameter, if any. -/
def compactOne (p : Params) (n : Name) : Except Err (Option PVal) :=
  if p.isMissing n then .ok Option.none
  else do
    let unused ← p.isUnused n
    if unused then return Option.none
    else
      let dflt ← p.isDefault n
      if dflt then return Option.none
      else if isRepeated (p n) then do
        let x ← first (p n)
        return some x
      else return some (p n)

/-- The loop of 446-455. -/
def compactFrom (p : Params) : List Name → Except Err PDict
  | [] => .ok []
  | n :: ns => do
    let v ← p.compactOne n
    let rest ← p.compactFrom ns
    return match v with
      | Option.none => rest
      | some v => (.known n, v) :: rest

/-- `xlseries/strategies/discover/parameters.py:439-457` (`compact_repr`). -/
def compactRepr (p : Params) : Except Err PDict := p.compactFrom Name.all

end Params

end Xls
