/-
Sheet names, converted sheets and paths.
-/
import Verif.Model.Books
import Mathlib.Data.List.Forall2

set_option autoImplicit false

namespace Xls.Spec

/-- `n` is the first of the names with a property. -/
def FirstWith (names : List Str) (P : Str → Prop) (n : Str) : Prop :=
  ∃ before after, names = before ++ n :: after ∧ P n ∧ ∀ m ∈ before, ¬ P m

/-- The sheet meant by a request: the one of that name; otherwise the first that is the same up to blanks
around it; otherwise the first that is the same up to blanks after transliteration; otherwise the
request. -/
inductive Resolves (ext : Ext) (name : Str) (names : List Str) : Str → Prop
  | exact : name ∈ names → Resolves ext name names name
  | blanks (n : Str) : name ∉ names → FirstWith names (fun m => strip m = strip name) n →
      Resolves ext name names n
  | accents (n : Str) : name ∉ names → (∀ m ∈ names, strip m ≠ strip name) →
      FirstWith names (fun m => strip (ext.unidecode m) = strip (ext.unidecode name)) n →
      Resolves ext name names n
  | unknown : name ∉ names → (∀ m ∈ names, strip m ≠ strip name) →
      (∀ m ∈ names, strip (ext.unidecode m) ≠ strip (ext.unidecode name)) →
      Resolves ext name names name

/-- `s` has the values of `old` at their positions, counted from 1, and nothing else. -/
structure Converted (old : OldSheet) (s : Sheet) : Prop where
  title : s.title = old.name
  values : ∀ r c : Nat, r < old.nrows → c < old.ncols →
    s.cells (r + 1) (c + 1) = old.value r c
  others : ∀ r c : Int, ¬ (1 ≤ r ∧ r ≤ old.nrows ∧ 1 ≤ c ∧ c ≤ old.ncols) → s.cells r c = .none
  rows : s.maxRow = old.nrows
  cols : s.maxCol = old.ncols

/-- The absolute path with the given components. -/
def pathOf (cs : List Str) : Str := cs.flatMap fun c => '/' :: c

/-- A name a file or directory can have. -/
def FileName (c : Str) : Prop := c ≠ [] ∧ '/' ∉ c

end Xls.Spec
