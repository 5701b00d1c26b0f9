/-
Concrete workbooks and parameters for the examples about attempts and preservation.
-/
import Verif.Spec.Scraper
import Verif.Spec.Samples
import Verif.Spec.ParamSamples

set_option autoImplicit false

namespace Xls.Sample

open Xls.Spec

/-- One worksheet and one `Parameters` object. -/
def world (s : Sheet) (p : Params) : World := ⟨fun _ => s, 1, fun _ => p, 1⟩

/-- Three months of two series with a marker for a missing value. -/
def gapSheet : Sheet := rows
  [[.str c!"fecha", .str c!"PBI", .str c!"IPC"],
   [day 2000 1 1, .int 10, .float (.fin 5)],
   [day 2000 2 1, .str c!"...", .int 3],
   [day 2000 3 1, .int 12, .int (-4)]]

/-- The same without the marker. -/
def fullSheet : Sheet := rows
  [[.str c!"fecha", .str c!"PBI", .str c!"IPC"],
   [day 2000 1 1, .int 10, .float (.fin 5)],
   [day 2000 2 1, .int 11, .int 3],
   [day 2000 3 1, .int 12, .int (-4)]]

/-- The same, one month later. -/
def laterSheet : Sheet := rows
  [[.str c!"fecha", .str c!"PBI", .str c!"IPC"],
   [day 2000 1 1, .int 10, .float (.fin 5)],
   [day 2000 2 1, .int 11, .int 3],
   [day 2000 3 1, .int 12, .int (-4)],
   [day 2000 4 1, .int 13, .int (-5)]]

/-- No dates at all. -/
def textSheet : Sheet := rows
  [[.str c!"fecha", .str c!"PBI", .str c!"IPC"], [.none, .int 1, .int 2]]

/-- Parameters for these sheets that say whether values are missing. -/
def gapTable (b : Bool) : Params := fun n =>
  if n = .missings then .list [.bool b, .bool b]
  else if n = .missingValue then .list [.list [.str c!"..."], .list [.str c!"..."]]
  else table n

/-- The same, without saying it. -/
def gapUnknown : Params := fun n => if n = .missings then .none else gapTable false n

/-- Two tables side by side, one monthly and one quarterly. -/
def sideSheet : Sheet := rows
  [[.str c!"fecha", .str c!"PBI", .str c!"fecha", .str c!"IPC"],
   [day 2000 1 1, .int 10, day 2000 1 1, .int 3],
   [day 2000 2 1, .int 11, day 2000 4 1, .int 4]]

/-- Parameters for both that do not say whether values are missing. -/
def sideUnknown : Params
  | .headersCoord => .list [.str c!"B1", .str c!"D1"]
  | .timeHeaderCoord => .list [.str c!"A1", .str c!"C1"]
  | .frequency => .list [.str c!"M", .str c!"Q"]
  | .missings => .none
  | .missingValue => .list [.list [.str c!"..."], .list [.str c!"..."]]
  | n => table n

/-- The same with an answer. -/
def sideTable (b : Bool) : Params := fun n =>
  if n = .missings then .list [.bool b, .bool b] else sideUnknown n

theorem rows_wellFormed {vs : List (List Cell)} (h1 : vs ≠ []) (h2 : vs.getD 0 [] ≠ [])
    (h3 : ∀ r ∈ vs, r.length ≤ (vs.getD 0 []).length) : WellFormed (rows vs) := by
  refine ⟨?_, ?_, ?_⟩
  · show (1 : Int) ≤ vs.length
    have := List.length_pos_iff.2 h1
    omega
  · show (1 : Int) ≤ (vs.getD 0 []).length
    have := List.length_pos_iff.2 h2
    omega
  · intro r c hn
    show (if 1 ≤ c ∧ 1 ≤ r then (vs.getD (r.toNat - 1) []).getD (c.toNat - 1) .none else .none) = _
    split
    next hpos =>
      have hn' : ¬ (r ≤ vs.length ∧ c ≤ ((vs.getD 0 []).length : Nat)) := fun h => hn ⟨hpos.2, h.1, hpos.1, h.2⟩
      by_cases hr : r ≤ vs.length
      · have hc : ¬ c ≤ ((vs.getD 0 []).length : Nat) := fun h => hn' ⟨hr, h⟩
        have hlt : r.toNat - 1 < vs.length := by omega
        have hmem : vs.getD (r.toNat - 1) [] ∈ vs := by
          rw [List.getD_eq_getElem?_getD, List.getElem?_eq_getElem hlt, Option.getD_some]
          exact List.getElem_mem hlt
        have := h3 _ hmem
        rw [List.getD_eq_getElem?_getD, List.getElem?_eq_none (by omega), Option.getD_none]
      · rw [List.getD_eq_getElem?_getD (l := vs), List.getElem?_eq_none (by omega)]
        simp
    · rfl

end Xls.Sample
