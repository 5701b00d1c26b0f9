/-
Which series the columns of a data frame belong to.
-/
import Verif.Spec.Provenance
import Verif.Spec.Frames
import Verif.Spec.Series
import Verif.Spec.Shown

set_option autoImplicit false

namespace Xls.Spec

/-- The name of a series on a worksheet: the one given; or the context labels, joined by " - ", and the texts
of the composed headers and the header, joined by spaces, each without accents (as the transliteration library
has it) and without blanks around it. -/
def SeriesName (ext : Ext) (sp : SParams) (s : Sheet) (name : Str) : Prop :=
  (sp.seriesName = some name ∧ name ≠ []) ∨
  ((sp.seriesName = none ∨ sp.seriesName = some []) ∧ ∃ r c texts, coordOf sp.headerCoord = .ok (r, c) ∧
    List.Forall₂ (fun coord t => ∃ r c, coordOf coord = .ok (r, c) ∧ s.cells r c = .str t)
      (sp.composedHeaders.getD []) texts ∧
    name = c!" - ".intercalate ((sp.context.getD []).map strip ++
      [c!" ".intercalate ((texts ++ [shownAs ext (s.cells r c)]).map fun t => strip (ext.unidecode t))]))

/-- The values, leaving out NaN, are numbers that stand in different cells of the column (or row) of the header
of the series, between the start and the end of the data, in the order of the sheet. -/
def SeriesNumbers (ext : Ext) (sp : SParams) (s : Sheet) (values : List Num) : Prop :=
  ∃ r c last places, coordOf sp.headerCoord = .ok (r, c) ∧ sp.dataEnds = some last ∧
    places.Pairwise (· < ·) ∧ (∀ k ∈ places, 1 ≤ k ∧ sp.dataStarts ≤ k ∧ k ≤ last) ∧
    List.Forall₂ (fun k x => NumberFor ext (timeCell s sp.alignment r c k) x) places
      (values.filter (· ≠ .nan))

/-- A column, with its name and its values, is one of the series: the name is that of the series, perhaps with
a dot and a number to tell it from others, and the numbers are those of the series. -/
structure ColumnOf (ext : Ext) (sp : SParams) (s : Sheet) (col : Str) (values : List Num) : Prop where
  named : ∃ name k, SeriesName ext sp s name ∧ 1 ≤ k ∧ col = suffixed name k
  numbers : SeriesNumbers ext sp s values

/-- The columns of the frame are, one by one, of the series with these numbers. -/
structure OwnedBy (ext : Ext) (sps : List SParams) (s : Sheet) (f : Frame) (owners : List Nat) : Prop where
  columns : f.columns.length = owners.length
  data : f.data.length = owners.length
  each : ∀ (j i : Nat) (col : Str) (d : List Num), owners[j]? = some i → f.columns[j]? = some col →
    f.data[j]? = some d → ∃ sp, sps[i]? = some sp ∧ ColumnOf ext sp s col d

/-- No header cell lies where the dates of a series are: all are before the start of the data. -/
def HeadersBefore (sps : List SParams) : Prop :=
  ∀ sp ∈ sps, ∀ sp' ∈ sps, ∀ r c, coordOf sp.headerCoord = .ok (r, c) →
    (if sp'.alignment = .vertical then r else c) < sp'.dataStarts

end Xls.Spec
