/-
Parameters with ordinary values.
-/
import Verif.Model.Params

set_option autoImplicit false

namespace Xls.Spec

/-- `None`, truth values, whole numbers, texts, lists of these, and, if `decimals`, decimal numbers. Not among them are
NaN, which does not compare equal to itself, and dictionaries, which no parameter holds once it was read. -/
inductive Ordinary (decimals : Bool) : PVal → Prop
  | none : Ordinary decimals .none
  | bool (b : Bool) : Ordinary decimals (.bool b)
  | int (i : Int) : Ordinary decimals (.int i)
  | decimal (q : Rat) (h : decimals = true) : Ordinary decimals (.float (.fin q))
  | str (s : Str) : Ordinary decimals (.str s)
  | list {vs : List PVal} (h : ∀ v ∈ vs, Ordinary decimals v) : Ordinary decimals (.list vs)

/-- Any values without NaN: also dictionaries with distinct keys. -/
inductive WithoutNaN : PVal → Prop
  | none : WithoutNaN .none
  | bool (b : Bool) : WithoutNaN (.bool b)
  | int (i : Int) : WithoutNaN (.int i)
  | decimal (q : Rat) : WithoutNaN (.float (.fin q))
  | str (s : Str) : WithoutNaN (.str s)
  | list {vs : List PVal} (h : ∀ v ∈ vs, WithoutNaN v) : WithoutNaN (.list vs)
  | dict {kvs : List (Str × PVal)} (h : ∀ kv ∈ kvs, WithoutNaN kv.2) (hk : (kvs.map Prod.fst).Nodup) :
      WithoutNaN (.dict kvs)

/-- A `Parameters` object with such values; only marks for missing values may be decimal numbers. -/
def OrdinaryParams (p : Params) : Prop := ∀ n, Ordinary (decide (n = .missingValue)) (p n)

end Xls.Spec
