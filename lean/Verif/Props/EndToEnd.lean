/-
Property C62: a plain table is read cell by cell.
-/
import Verif.Lemmas.Table
import Verif.Spec.Samples
import Verif.Spec.ParamSamples

set_option autoImplicit false

namespace Xls

open Spec

/-- C62. Cleaning and extraction of a plain table: a column of at least two consecutive period starts and
columns of numbers beside it, read with parameters that say so. There is one data frame, its index is the
dates of the rows, it has one column for each column of the sheet, named after the header (made unique,
see `ColumnsOf`), and the i-th value is the number in the i-th row. -/
theorem C62_plain_table {ext : Ext} {p : Params} {s : Sheet} {cs : List Column} {timeHeader freq : Str}
    {start last : Int} {ts : List Time}
    (hp : Table p (cs.map Column.header) timeHeader freq start) (hne : cs ≠ [])
    (hfreq : freq ∈ [c!"A", c!"Q", c!"M", c!"W", c!"D"])
    (hsv : SheetValid s) (hd : HasDates s timeHeader start last ts)
    (hcs : ∀ c ∈ cs, HasColumn ext s start last c)
    (hstart : ∀ a, ts.head? = some a → PeriodStart freq a) (hrun : PeriodRun freq ts)
    (hrep : ∀ t ∈ ts, Representable t) :
    ∃ columns p' s',
      scrape ext p s = (.ok [⟨indexFreq freq, ts, columns, cs.map Column.values⟩], p', s') ∧
      ColumnsOf (cs.map fun c => strip (ext.unidecode c.text)) columns := by
  have hf : freq.length = 1 ∧ freq ≠ c!"S" ∧ freq ≠ c!"Y" := by
    simp only [List.mem_cons, List.not_mem_nil, or_false] at hfreq
    rcases hfreq with h | h | h | h | h <;> subst h <;> decide
  obtain ⟨mv, hmv⟩ := hp.missingValue
  have hp0 : TableEnds p (cs.map Column.header) timeHeader freq start
      (List.replicate (cs.map Column.header).length .none) mv :=
    ⟨hp.headersC, hp.alignment, hp.names, hp.composed, hp.context, hp.starts, hp.ends, hp.continuity,
      hp.blankRows, hp.missings, hmv, hp.timeAlignment, hp.multicolumn, hp.timeHeaderC, hp.timeComposed,
      hp.frequency⟩
  obtain ⟨⟨k, hk⟩, hlen⟩ := tableRange_of (ext := ext) hsv hd hstart hrun hrep
  obtain ⟨p1, s1, e1, hc1, hp1⟩ := cleanData_table (ext := ext) hp0 (by simpa using hne) hsv hd hf.1
    (consecutive_of_run hf.2.1 hf.2.2 hrun)
  obtain ⟨s2, e2, _⟩ := getData_table hp1 hk hf.1 hne hcs hlen hc1
  refine ⟨addNames [] (cs.map fun c => tableName ext c.text), p1, s2, ?_, ?_⟩
  · unfold scrape
    rw [e1]
    dsimp only
    rw [e2]
  · have := addNames_columnsOf ColumnsOf.nil (cs.map fun c => tableName ext c.text)
    exact this

/-- The sheet of the example below. -/
def Sample.tableSheet : Sheet := Sample.rows
  [[.str c!"fecha", .str c!"PBI", .str c!"PBI "],
   [Sample.day 2000 1 1, .int 10, .float (.fin (1/2))],
   [Sample.day 2000 2 1, .int 11, .str c!"3"],
   [Sample.day 2000 3 1, .bool true, .int (-4)]]

theorem Sample.tableSheet_valid : SheetValid Sample.tableSheet := by
  intro r c t h
  unfold Sample.tableSheet Sample.rows at h
  dsimp only at h
  split at h
  · generalize r.toNat - 1 = i at h
    generalize c.toNat - 1 = j at h
    rcases i with _ | _ | _ | _ | i <;> rcases j with _ | _ | _ | j <;>
      simp [Sample.day] at h <;> subst h <;> decide
  · cases h

example : ∃ columns p' s',
    scrape { Sample.ext0 with floatOfStr := fun _ => some (.fin 3) } Sample.table Sample.tableSheet =
      (.ok [⟨c!"MS", [⟨2000, 1, 1, 0⟩, ⟨2000, 2, 1, 0⟩, ⟨2000, 3, 1, 0⟩], columns,
        [[.fin 10, .fin 11, .fin 1], [.fin (1/2), .fin 3, .fin (-4)]]⟩], p', s') ∧
    ColumnsOf [c!"PBI", c!"PBI"] columns :=
  C62_plain_table (cs := [⟨c!"B1", c!"PBI", [.fin 10, .fin 11, .fin 1]⟩,
      ⟨c!"C1", c!"PBI ", [.fin (1/2), .fin 3, .fin (-4)]⟩]) (timeHeader := c!"A1") (freq := c!"M")
    (start := 2) (last := 4)
    ⟨rfl, rfl, rfl, rfl, rfl, rfl, rfl, rfl, rfl, rfl, ⟨_, rfl⟩, rfl, rfl, rfl, rfl, rfl⟩
    (by decide) (by decide) Sample.tableSheet_valid
    ⟨⟨1, 1, by decide, by rfl, .inl rfl⟩, by decide, by decide⟩
    (by
      intro c hc
      simp only [List.mem_cons, List.not_mem_nil, or_false] at hc
      rcases hc with rfl | rfl
      · exact ⟨1, 2, by decide, by rfl, by rfl⟩
      · exact ⟨1, 3, by decide, by rfl, by rfl⟩)
    (by intro a h; cases h; rfl)
    ⟨⟨_, rfl, rfl, rfl, rfl⟩, ⟨_, rfl, rfl, rfl, rfl⟩, trivial⟩ (by decide)

end Xls
