/-
Vocabulary to state what the data frames contain.
-/
import Verif.Model.Frames
import Verif.Spec.Calendar

set_option autoImplicit false

namespace Xls.Spec

/-- A name for the `k`-th time: as it is the first time, then with a dot and the number. -/
def suffixed (name : Str) (k : Nat) : Str := if k = 1 then name else name ++ c!"." ++ natStr k

/-- `col` is `name` with the least suffix such that it is not one of the names in use. -/
def FreshName (used : List Str) (name col : Str) : Prop :=
  ∃ k, 1 ≤ k ∧ col = suffixed name k ∧ col ∉ used ∧ ∀ j, 1 ≤ j → j < k → suffixed name j ∈ used

/-- The columns of a data frame to which the series with the given names were added, in that order. -/
inductive ColumnsOf : List Str → List Str → Prop
  | nil : ColumnsOf [] []
  | snoc {names cols : List Str} {name col : Str} : ColumnsOf names cols → FreshName cols name col →
      ColumnsOf (names ++ [name]) (cols ++ [col])

/-- Frequency, first and last date of an index. -/
def spanOf (pr : PRange) : Option (Str × Time × Time) :=
  match pr.index.head?, pr.index.getLast? with
  | some a, some z => some (pr.freqstr, a, z)
  | _, _ => none

/-- The frame of a span `k`, when the series give the listed ranges with names and values: one column for
each series of that span, in order, under the index of the span; or under the business days between its
bounds if it is daily. -/
structure FrameOf (ext : Ext) (given : List (PRange × Str × List Num)) (k : Str × Time × Time)
    (f : Frame) : Prop where
  columns : ColumnsOf ((given.filter fun g => spanOf g.1 = some k).map fun g => g.2.1) f.columns
  data : f.data = (given.filter fun g => spanOf g.1 = some k).map fun g => g.2.2
  sizes : ∀ d ∈ f.data, d.length = f.index.length
  index : (spanOf ⟨f.freq, f.index⟩ = some k ∧
      ∀ g ∈ given, spanOf g.1 = some k → ValidTime k.2.1 → g.1 = ⟨f.freq, f.index⟩) ∨
    (k.1 = c!"D" ∧ f.freq = c!"B" ∧ f.index = ext.businessDays k.2.1 k.2.2)

end Xls.Spec
