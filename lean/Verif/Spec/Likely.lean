/-
Specification of the order in which values are tried for parameters that were left out.
-/
import Verif.Spec.Attempts

set_option autoImplicit false

namespace Xls.Spec

/-- The parameters for which there are values to try, from the one whose usual value is the surest to the one
whose usual value is the least sure. -/
def sureness : List Name :=
  [.timeAlignment, .alignment, .continuity, .blankRows, .missings, .timeComposed, .timeMulticolumn]

/-- The values of a parameter, the usual one first. -/
def likelyFirst : Name → List PVal
  | .timeAlignment => [.int 0, .int (-1), .int 1]
  | .alignment => [.str c!"vertical", .str c!"horizontal"]
  | .continuity => [.bool true, .bool false]
  | .blankRows => [.bool false, .bool true]
  | .missings => [.bool false, .bool true]
  | .timeComposed => [.bool false, .bool true]
  | .timeMulticolumn => [.bool false, .bool true]
  | _ => []

/-- The value that is tried after the usual one. -/
def secondBest (n : Name) : PVal := (likelyFirst n).getD 1 .none

/-- All ways to choose a value for each of the names, as one counts: the value of the last name changes first,
and that of the first name last. -/
def countedChoices : List Name → List (Name → PVal)
  | [] => [usual]
  | n :: ns => (likelyFirst n).flatMap fun v => (countedChoices ns).map fun c m => if m = n then v else c m

/-- The parameters left out, from the surest to the least sure: so the values that are tried later depart from
what is usual in surer parameters. -/
def leftOutBySureness (p : Params) : List Name := sureness.filter fun n => n ∈ p.getMissings

/-- The order in which the names come up if one always takes the last of the list when it is among `ms`, and
otherwise the first one that is. -/
def fromBothEnds (ms : List Name) : Nat → List Name → List Name
  | 0, _ => []
  | k + 1, order =>
    match order.getLast? with
    | none => []
    | some n =>
      if n ∈ ms then n :: fromBothEnds ms k order.dropLast
      else
        match order.dropLast.dropWhile fun m => m ∉ ms with
        | [] => []
        | m :: rest => m :: fromBothEnds ms k rest

end Xls.Spec
