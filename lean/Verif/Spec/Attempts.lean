/-
Specification of the attempts made when parameters are missing.
-/
import Verif.Model.Params

set_option autoImplicit false

namespace Xls.Spec

/-- The values that are tried for a parameter that was not given. -/
def choices : Name → List PVal
  | .timeAlignment => [.int (-1), .int 0, .int 1]
  | .alignment => [.str c!"vertical", .str c!"horizontal"]
  | .continuity => [.bool true, .bool false]
  | .blankRows => [.bool true, .bool false]
  | .missings => [.bool true, .bool false]
  | .timeComposed => [.bool true, .bool false]
  | .timeMulticolumn => [.bool true, .bool false]
  | _ => []

/-- The most likely value of such a parameter. -/
def usual : Name → PVal
  | .timeAlignment => .int 0
  | .alignment => .str c!"vertical"
  | .continuity => .bool true
  | _ => .bool false

/-- The parameters for which there are values to try. -/
def Discoverable (n : Name) : Prop := choices n ≠ []

/-- `p` with a value chosen for each of the names, the same one for all series. -/
def withChoice (p : Params) (N : Nat) (names : List Name) (choice : Name → PVal) : Params :=
  fun n => if n ∈ names then .list (List.replicate N (choice n)) else p n

/-- The parameters that are given are given for each of `N` series. -/
structure GivenFor (p : Params) (N : Nat) : Prop where
  num : p.num = some N
  pos : 1 ≤ N
  each : ∀ n, n ∉ optionalNames → n ≠ .timeHeaderCoord →
    p n = .none ∨ ∃ vs, p n = .list vs ∧ vs.length = N
  timeHeaderC : ∃ vs, p .timeHeaderCoord = .list vs ∧ min 2 N ≤ vs.length

end Xls.Spec
