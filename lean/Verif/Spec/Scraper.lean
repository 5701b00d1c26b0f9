/-
Specification of worksheets as openpyxl keeps them and of results of scraping.
-/
import Verif.Model.Scraper
import Verif.Spec.Compare

set_option autoImplicit false

namespace Xls.Spec

/-- Every worksheet of openpyxl: cells that were never looked at have no value. -/
structure WellFormed (s : Sheet) : Prop where
  rows : 1 ≤ s.maxRow
  cols : 1 ≤ s.maxCol
  outside : ∀ r c : Int, ¬ (1 ≤ r ∧ r ≤ s.maxRow ∧ 1 ≤ c ∧ c ≤ s.maxCol) → s.cells r c = .none

/-- The parameters fail on the sheet: scraping it with them raises. -/
def Fails (ext : Ext) (s : Sheet) (p : Params) : Prop := ∃ e p' s', scrape ext p s = (.error e, p', s')

/-- The parameters work on the sheet: they give the data frames `fs` and end up as `p'`. -/
def Works (ext : Ext) (s : Sheet) (p : Params) (fs : List Frame) (p' : Params) : Prop :=
  ∃ s', scrape ext p s = (.ok fs, p', s')

/-- A list of one data frame is given as the data frame. -/
def GivenAs (fs : List Frame) (d : Dfs) : Prop :=
  (∃ f, fs = [f] ∧ d = .one f) ∨ (fs.length ≠ 1 ∧ d = .many fs)

/-- The caller's objects: everything that exists when the call is made. -/
def SheetsKept (w w' : World) : Prop := ∀ r < w.nextSheet, w'.sheets r = w.sheets r

/-- The same for `Parameters` objects. -/
def ParamsKept (w w' : World) : Prop := ∀ r < w.nextParams, w'.params r = w.params r

end Xls.Spec
