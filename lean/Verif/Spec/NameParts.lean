/-
Specification of parameters for the name of a series that can be used.
-/
import Verif.Model.Frames

set_option autoImplicit false

namespace Xls.Spec

/-- Every parameter has a value for the series with number `i`, namely `v`. -/
def ValuesAt (p : Params) (i : Nat) (v : Name → PVal) : Prop := ∀ n, ∃ vs, p n = .list vs ∧ vs[i]? = some (v n)

/-- What Python counts as false: `None`, `False`, zero, the empty text and the empty list. -/
def CountsFalse : PVal → Prop
  | .none => True
  | .bool b => b = false
  | .int i => i = 0
  | .float x => x = .fin 0
  | .str s => s = []
  | .list vs => vs = []
  | .dict kvs => kvs = []

/-- A list of texts, or nothing. -/
def TextsOrNothing (v : PVal) : Prop := CountsFalse v ∨ ∃ texts : List Str, v = .list (texts.map .str)

/-- The parameters have a value for each of `k` series. -/
def SeriesCount (p : Params) (k : Nat) : Prop := ∀ n, ∃ vs, p n = .list vs ∧ vs.length = k

/-- Every series has a name, a text that is not empty. -/
def AllNamed (p : Params) : Prop :=
  ∃ vs, p .seriesNames = .list vs ∧ ∀ v ∈ vs, ∃ name : Str, name ≠ [] ∧ v = .str name

/-- The parameters are the same apart from composed headers and contexts. -/
def SameButParts (p q : Params) : Prop := ∀ n, n ≠ .composedHeadersCoord → n ≠ .context → q n = p n

end Xls.Spec
