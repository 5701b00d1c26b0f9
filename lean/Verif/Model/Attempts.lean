/-
`xlseries/strategies/strategies.py`: combinations of values for missing parameters.
-/
import Verif.Model.Params

set_option autoImplicit false

namespace Xls

/-- The values among the valid values of a parameter. Entries that are types are left out: parameters
that have some either are never missing or have no default (`KeyError` before the entry is used). -/
def listedValues (n : Name) : List PVal :=
  (validValues n).filterMap fun v => match v with
    | .val x => some x
    | _ => none

/-- `default_values[name]`. -/
def defaultOf (n : Name) : Except Err PVal :=
  match defaultValue n with
  | some v => .ok v
  | none => .error .keyError

/-- `strategies.py:381-387`, 405-411 and 422-428: a parameter without valid values takes its default. -/
def valuesToTry (n : Name) : Except Err (List PVal) :=
  if (validValues n).isEmpty then (defaultOf n).map fun v => [v] else .ok (listedValues n)

/-- `strategies.py:389-396` and 434-444: the default first, then the others in order. -/
def defaultFirst (n : Name) (vs : List PVal) : Except Err (List PVal) :=
  match defaultOf n with
  | .error e => .error e
  | .ok d =>
    match vs.findIdx? fun v => v.pyEq d with
    | none => .error .valueError
    | some i =>
      match vs[i]? with
      | none => .error .valueError
      | some v => .ok (v :: vs.eraseIdx i)

/-- `strategies.py:416-417`: take names from the front until one is missing. -/
def popFront (missings : List Name) : List Name → Except Err (Name × List Name)
  | [] => .error .indexError
  | n :: ns => if n ∈ missings then .ok (n, ns) else popFront missings ns

/-- `strategies.py:400-417`: the next parameter and what is left of the order. Without an order the last
one inserted is taken (`dict.popitem`); otherwise the last one of the order or, if that one is not missing,
the first one of the order that is. -/
def nextName (missings order : List Name) : Except Err (Name × List Name) :=
  match order.getLast? with
  | none =>
    match missings.getLast? with
    | none => .error .keyError
    | some n => .ok (n, [])
  | some n => if n ∈ missings then .ok (n, order.dropLast) else popFront missings order.dropLast

/-- `_param_combinations_generator`, `strategies.py:363-444`, for `k + 1` missing parameters. Everything
that can raise does so before the first combination is produced, so the combinations are given as a
list. -/
def combinations : Nat → List Name → List Name → Except Err (List (List (Name × PVal)))
  | 0, missings, _ =>
    match missings with
    | [] => .error .keyError
    | n :: _ => do
      let vs ← valuesToTry n
      let vs ← defaultFirst n vs
      return vs.map fun v => [(n, v)]
  | k + 1, missings, order => do
    let (n, order) ← nextName missings order
    let vs ← valuesToTry n
    let inner ← combinations k (missings.erase n) order
    let vs ← defaultFirst n vs
    return inner.flatMap fun comb => vs.map fun v => comb ++ [(n, v)]

/-- `strategies.py:351-352`. -/
def assignAll : List (Name × PVal) → Params → Except Err Params
  | [], p => .ok p
  | (n, v) :: rest, p =>
    match p.setItem n v with
    | .error e => .error e
    | .ok p' => assignAll rest p'

/-- `strategies.py:348-359`: one attempt. -/
def attemptOf (p : Params) (comb : List (Name × PVal)) : Except Err Params :=
  match assignAll comb p with
  | .error e => .error e
  | .ok q =>
    match q.isComplete with
    | .error e => .error e
    | .ok true => .ok q
    | .ok false => .error .assertionError

/-- `strategies.py:345-359`. -/
def attemptsOf (p : Params) : List (List (Name × PVal)) → Except Err (List Params)
  | [] => .ok []
  | c :: cs =>
    match attemptOf p c with
    | .error e => .error e
    | .ok q =>
      match attemptsOf p cs with
      | .error e => .error e
      | .ok qs => .ok (q :: qs)

/-- `_generate_attempts`, `strategies.py:334-361`, for parameters that lack something. -/
def generateAttempts (p : Params) (missings : List Name) : Except Err (List Params) :=
  match combinations (missings.length - 1) missings likelinessOrder with
  | .error e => .error e
  | .ok cs => attemptsOf p cs

/-- What `_discover_parameters` gives back: the object it was given, or new ones. -/
inductive Attempts
  | same
  | new (ps : List Params)

/-- `_discover_parameters`, `strategies.py:178-190`. -/
def discoverParameters (p : Params) : Except Err Attempts :=
  match p.isComplete with
  | .error e => .error e
  | .ok true => .ok .same
  | .ok false =>
    if p.getMissings.isEmpty then .ok .same
    else (generateAttempts p p.getMissings).map .new

end Xls
