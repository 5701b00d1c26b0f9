/-
Specification of the dictionaries that describe given series completely.
-/
import Verif.Spec.Description
import Verif.Spec.Series

set_option autoImplicit false

namespace Xls.Spec

/-- The value `v` gives each series its entry of `xs`: as one value for all series, as a list of one value,
or as a list with one entry per series. -/
def GivesEach (v : PVal) (xs : List PVal) : Prop :=
  (¬ IsListValue v ∧ ∀ x ∈ xs, x = v) ∨ (∃ x, v = .list [x] ∧ ∀ y ∈ xs, y = x) ∨ v = .list xs

/-- The dictionary gives the parameter `n` of the series. -/
def GivesParam (d : PDict) (n : Name) (sps : List SParams) : Prop :=
  ∃ v, d.get? n = some v ∧ GivesEach v (sps.map fun sp => rawValue sp n)

/-- The value `v` gives the missing value markers of the series: one marker or a list of markers for all
series, or a list of markers for each. -/
def GivesMarkers (v : PVal) (ms : List PVal) : Prop :=
  (¬ IsListValue v ∧ v ≠ .none ∧ ∀ m ∈ ms, m = .list [v]) ∨
  (∃ xs, v = .list xs ∧ (∀ x rest, xs = x :: rest → ¬ IsListValue x) ∧ ∀ m ∈ ms, m = .list xs) ∨
  (v = .list ms ∧ ∀ m ∈ ms, IsListValue m)

/-- Several time headers are not taken for the columns of one composed time index: all are the same cell, or
they are no run of neighbours, the second one being in the row or in the column of the first. -/
def SeparateTimes (ts : List Pos) : Prop :=
  (∃ t, ∀ t' ∈ ts, t' = t) ∨
  (¬ AlongRow ts ∧ ¬ AlongColumn ts ∧ ∀ a b rest, ts = a :: b :: rest → b.1 = a.1 ∨ b.2 = a.2)

/-- The alignment shown by the position of the headers. -/
def ShownAlignment (ps : List Pos) (al : Align) : Prop :=
  (al = .vertical ∧ 2 ≤ ps.length ∧ SpreadRow ps ∧ (4 ≤ ps.length ∨ AlongRow ps)) ∨
  (al = .horizontal ∧ 2 ≤ ps.length ∧ SpreadColumn ps ∧ (4 ≤ ps.length ∨ AlongColumn ps))

/-- The dictionary describes the series `sps` completely. Their headers are the cells `ps`, their time
headers the cells `ts` (one for all, or one each). Optional parameters may be left out if the series do not
use them, the time alignment and the markers if they have their defaults, the alignment if the position of
the headers shows it. Series have neither composed time columns nor a context; data start behind the
headers. -/
structure Describes (d : PDict) (ps ts : List Pos) (sps : List SParams) : Prop where
  distinct : DistinctKeys d
  known : ∀ kv ∈ d, ∃ n, kv.1 = .known n
  nonempty : sps ≠ []
  headers : ∃ v, d.get? .headersCoord = some v ∧ StandsFor v ps
  positive : Positive ps
  headerCells : sps.map (·.headerCoord) = ps.map fun p => coordStr p.1 p.2
  times : ∃ v, d.get? .timeHeaderCoord = some v ∧ StandsFor v ts
  timesPositive : Positive ts
  timeCells : (∃ t, ts = [t] ∧ ∀ sp ∈ sps, sp.timeHeader = .single (coordStr t.1 t.2)) ∨
    (sps.map (·.timeHeader) = ts.map (fun t => .single (coordStr t.1 t.2)) ∧ SeparateTimes ts)
  starts : GivesParam d .dataStarts sps
  frequency : ∃ v ss, d.get? .frequency = some v ∧ GivesEach v (ss.map .str) ∧
    List.Forall₂ (fun s (sp : SParams) => FreqMeans s sp.frequency ∧ FreqCode sp.frequency) ss sps
  switches : ∀ n ∈ [Name.continuity, .blankRows, .missings, .timeComposed], GivesParam d n sps
  optional : ∀ n ∈ [Name.seriesNames, .dataEnds, .composedHeadersCoord],
    GivesParam d n sps ∨ (Missing d n ∧ ∀ sp ∈ sps, rawValue sp n = .none)
  context : Missing d .context ∧ ∀ sp ∈ sps, sp.context = none
  multicolumn : (GivesParam d .timeMulticolumn sps ∨ Missing d .timeMulticolumn) ∧
    ∀ sp ∈ sps, sp.timeMulticolumn = false
  timeAlignment : (GivesParam d .timeAlignment sps ∨ (Missing d .timeAlignment ∧ ∀ sp ∈ sps, sp.timeAlignment = 0)) ∧
    ∀ sp ∈ sps, sp.timeAlignment = -1 ∨ sp.timeAlignment = 0 ∨ sp.timeAlignment = 1
  markers : (∃ v, d.get? .missingValue = some v ∧ GivesMarkers v (sps.map (·.missingValue))) ∨
    (Missing d .missingValue ∧ ∀ sp ∈ sps, sp.missingValue = defaultMissingValue)
  alignment : (GivesParam d .alignment sps ∧ ∀ sp ∈ sps, sp.alignment ≠ .other) ∨
    (Missing d .alignment ∧ ∃ al, ShownAlignment ps al ∧ ∀ sp ∈ sps, sp.alignment = al)
  below : (d.get? .alignment = some (.str c!"vertical") ∨
      (d.get? .alignment = none ∧ 2 ≤ ps.length ∧ SpreadRow ps)) →
    List.Forall₂ (fun (p : Pos) (sp : SParams) => (p.1 : Int) < sp.dataStarts) ps sps
  beside : (d.get? .alignment = some (.str c!"horizontal") ∨
      (d.get? .alignment = none ∧ 2 ≤ ps.length ∧ SpreadColumn ps)) →
    List.Forall₂ (fun (p : Pos) (sp : SParams) => (p.2 : Int) < sp.dataStarts) ps sps

/-- Series whose parameters can be told from their compact representation: different header cells, a time
header cell each, no context, composed headers in no series or not the same in all, missing value markers that
are texts or `None`, data behind the headers. -/
structure Compactable (ps ts : List Pos) (sps : List SParams) : Prop where
  nonempty : sps ≠ []
  headerCells : sps.map (·.headerCoord) = ps.map fun p => coordStr p.1 p.2
  positive : Positive ps
  different : ps.Nodup
  timeCells : sps.map (·.timeHeader) = ts.map fun t => .single (coordStr t.1 t.2)
  timesPositive : Positive ts
  separate : SeparateTimes ts
  frequency : ∀ sp ∈ sps, FreqCode sp.frequency
  context : ∀ sp ∈ sps, sp.context = none
  composed : (∀ sp ∈ sps, sp.composedHeaders = none) ∨ ∃ a ∈ sps, ∃ b ∈ sps, a.composedHeaders ≠ b.composedHeaders
  multicolumn : ∀ sp ∈ sps, sp.timeMulticolumn = false
  timeAlignment : ∀ sp ∈ sps, sp.timeAlignment = -1 ∨ sp.timeAlignment = 0 ∨ sp.timeAlignment = 1
  markers : ∀ sp ∈ sps, ∃ ms : List (Option Str), sp.missingValue = .list (ms.map fun m => m.elim .none .str)
  aligned : ∀ sp ∈ sps, sp.alignment ≠ .other
  below : (∀ sp ∈ sps, sp.alignment = .vertical) →
    List.Forall₂ (fun (p : Pos) (sp : SParams) => (p.1 : Int) < sp.dataStarts) ps sps
  beside : (∀ sp ∈ sps, sp.alignment = .horizontal) →
    List.Forall₂ (fun (p : Pos) (sp : SParams) => (p.2 : Int) < sp.dataStarts) ps sps

end Xls.Spec
