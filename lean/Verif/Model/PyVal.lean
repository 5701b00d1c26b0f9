/-
Python operations on parameter values: truth value, equality, membership.
-/
import Verif.Model.SParams

set_option autoImplicit false

namespace Xls

namespace PVal

/-- Python truth value. -/
def truthy : PVal → Bool
  | none => false
  | bool b => b
  | int i => i != 0
  | float .nan => true
  | float (.fin q) => q != 0
  | str s => !s.isEmpty
  | list xs => !xs.isEmpty
  | dict kvs => !kvs.isEmpty

/-- `value is None`. -/
def isNone : PVal → Bool
  | none => true
  | _ => false

/-- `isinstance(value, list)`. -/
def isList : PVal → Bool
  | list _ => true
  | _ => false

/-- The number a Python value compares as (`True == 1 == 1.0`); NaN compares as nothing. -/
def number : PVal → Option Rat
  | bool b => some (if b then 1 else 0)
  | int i => some i
  | float (.fin q) => some q
  | _ => Option.none

/-- First value stored under a key of a dictionary. -/
def lookupKey (k : Str) : List (Str × PVal) → Option PVal
  | [] => Option.none
  | (k', v) :: rest => if k' = k then some v else lookupKey k rest

mutual

/-- Python `a == b` on parameter values. Dictionaries are compared key by key (they have distinct
keys). -/
def pyEq : PVal → PVal → Bool
  | none, none => true
  | bool a, b => match number b with
    | some q => (if a then (1 : Rat) else 0) == q
    | Option.none => false
  | int i, b => match number b with
    | some q => (i : Rat) == q
    | Option.none => false
  | float .nan, _ => false
  | float (.fin x), b => match number b with
    | some q => x == q
    | Option.none => false
  | str a, str b => a == b
  | list xs, list ys => pyEqList xs ys
  | dict xs, dict ys => xs.length == ys.length && pyEqDict xs ys
  | _, _ => false

/-- Element-wise `==` of two lists. -/
def pyEqList : List PVal → List PVal → Bool
  | [], [] => true
  | x :: xs, y :: ys => pyEq x y && pyEqList xs ys
  | _, _ => false

/-- Every entry of the first dictionary is in the second one. -/
def pyEqDict : List (Str × PVal) → List (Str × PVal) → Bool
  | [], _ => true
  | (k, v) :: rest, ys =>
    (match lookupKey k ys with
      | some w => pyEq v w
      | Option.none => false) && pyEqDict rest ys

end

end PVal

end Xls
