/-
Specification of templates filled in by a user.
-/
import Verif.Spec.Describes
import Verif.Model.Templates

set_option autoImplicit false

namespace Xls.Spec

/-- The user only assigns critical parameters. -/
def FillsIn (es : List Edit) : Prop := ∀ e ∈ es, ∃ n v, n ∈ critical ∧ e = .assign (.known n) v

/-- The user changes in place only lists they have assigned before. -/
def KeepsToOwn : List Key → List Edit → Prop
  | _, [] => True
  | own, .assign k _ :: es => KeepsToOwn (k :: own) es
  | own, .append k _ :: es => k ∈ own ∧ KeepsToOwn own es

/-- What the lists of the class can be after templates were taken and changed, each user keeping to their own
lists. -/
inductive Reached : ClassLists → Prop
  | start : Reached .initial
  | used {σ σ' : ClassLists} {t t' : Template} {es : List Edit} (before : Reached σ)
      (taken : t = criticalTemplate ∨ t = completeTemplate) (own : KeepsToOwn [] es)
      (changed : applyEdits σ t es = .ok (σ', t')) : Reached σ'

/-- What the critical parameters of a dictionary say: the series have their headers in the cells `ps`, their time
header in the cell `t`, their data from `k` on below the headers and the frequency `f`. -/
structure CriticalSay (d : PDict) (ps : List Pos) (t : Pos) (k : Int) (f : Str) : Prop where
  headers : ∃ v, d.get? .headersCoord = some v ∧ StandsFor v ps
  nonempty : ps ≠ []
  positive : Positive ps
  time : ∃ s, d.get? .timeHeaderCoord = some (.str s) ∧ HeaderText s [t]
  timePositive : Positive [t]
  starts : d.get? .dataStarts = some (.int k)
  below : ∀ p ∈ ps, (p.1 : Int) < k
  frequency : ∃ s, d.get? .frequency = some (.str s) ∧ FreqMeans s f ∧ FreqCode f

/-- The series with its header in `p` and all optional parameters at their documented values, the missing value
markers being `ms`. -/
def usualSeries (ms : List PVal) (t : Pos) (k : Int) (f : Str) (p : Pos) : SParams where
  alignment := .vertical
  seriesName := none
  headerCoord := coordStr p.1 p.2
  composedHeaders := none
  context := none
  dataStarts := k
  dataEnds := none
  continuity := true
  blankRows := false
  missings := false
  missingValue := .list ms
  timeAlignment := 0
  timeMulticolumn := false
  timeHeader := .single (coordStr t.1 t.2)
  timeComposed := false
  frequency := f

/-- The documented missing value markers. -/
def documentedMarkers : List PVal :=
  [.none, .str c!"-", .str c!"...", .str c!".", .str c!"/", .str c!"///", .str [], .str c!"s.d.", .str c!"s/d",
   .str c!"n,d,", .str c!"s.d", .str c!" "]

end Xls.Spec
