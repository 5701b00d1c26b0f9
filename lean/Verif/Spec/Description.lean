/-
Specification of the descriptions of plain tables that a user may give.
-/
import Verif.Spec.Params
import Verif.Spec.Attempts
import Verif.Spec.Books
import Verif.Model.Scraper

set_option autoImplicit false

namespace Xls.Spec

/-- The dictionary describes series with headers in the cells `ps`, times under the cell `t`, data from
row (or column) `k` on and frequency `f`: the four critical parameters are given for all series at once,
the other ones are left out, `None`, or one value that is allowed; data start behind the headers. There is
no context. -/
structure Described (d : PDict) (ps : List Pos) (t : Pos) (k : Int) (f : Str) : Prop where
  distinct : DistinctKeys d
  known : ∀ kv ∈ d, ∃ n, kv.1 = .known n
  headers : ∃ hc, d.get? .headersCoord = some hc ∧ StandsFor hc ps
  positive : Positive ps
  nonempty : ps ≠ []
  time : ∃ s, d.get? .timeHeaderCoord = some (.str s) ∧ HeaderText s [t]
  starts : d.get? .dataStarts = some (.int k)
  frequency : ∃ s, d.get? .frequency = some (.str s) ∧ FreqMeans s f ∧ FreqCode f
  others : ∀ n v, d.get? n = some v → n ∉ critical → v = .none ∨ (¬ IsListValue v ∧ AllowedOne n v)
  below : (d.get? .alignment = some (.str c!"vertical") ∨
      (d.get? .alignment = none ∧ 2 ≤ ps.length ∧ SpreadRow ps)) → ∀ p ∈ ps, (p.1 : Int) < k
  beside : (d.get? .alignment = some (.str c!"horizontal") ∨
      (d.get? .alignment = none ∧ 2 ≤ ps.length ∧ SpreadColumn ps)) → ∀ p ∈ ps, (p.2 : Int) < k

/-- Nothing in the dictionary is unusual: what is given besides the critical parameters is `None` or the
usual value. -/
def NothingUnusual (d : PDict) : Prop :=
  ∀ n v, d.get? n = some v → n ∉ critical → v = .none ∨ (Discoverable n ∧ n ≠ .timeMulticolumn ∧ v = usual n)

/-- The worksheet `r` of the workbook is the one asked for: the first one if no name is given, otherwise the
one the name resolves to. Worksheets of a workbook have different titles. -/
def Requested (ext : Ext) (wb : List Nat) (w : World) (name : Str) (r : Nat) : Prop :=
  r ∈ wb ∧ (wb.map fun r => (w.sheets r).title).Nodup ∧
    ((name = [] ∧ wb.head? = some r) ∨
      (name ≠ [] ∧ Resolves ext name (wb.map fun r => (w.sheets r).title) (w.sheets r).title))

end Xls.Spec
