/-
C105: printing a range of cells.
-/
import Verif.Lemmas.Display
import Verif.Props.Marks
import Verif.Spec.Shown

set_option autoImplicit false

namespace Xls

open Spec

/-- C105. For a width of at least three, `print_xl_range` prints a grid: two lines per row, all equally long, and in
each row a field for each column of the range, with the coordinate and the value of the cell, cut off with three
points exactly if they do not fit. -/
theorem C105_grid_partial (ext : Ext) (s : Sheet) (r1 c1 r2 c2 : Nat) (width : Nat) (h : 3 ≤ width) :
    ∃ lines, (printRange ext s r1 c1 r2 c2 width).1 = (lines.flatMap fun l => l ++ c!"\n") ∧
      Grid (fun r c => coordStr r c ++ c!": " ++ shownAs ext (s.cells r c)) r1 c1 r2 c2 width lines := by
  simp only [shownAs_cellStr]
  exact printRange_grid ext s r1 c1 r2 c2 h

theorem printRange_values (ext : Ext) (s : Sheet) (r1 c1 r2 c2 : Nat) (width : Int) (hs : WellFormed s) :
    SameValues s (printRange ext s r1 c1 r2 c2 width).2 ∧ WellFormed (printRange ext s r1 c1 r2 c2 width).2 ∧
      s.maxRow ≤ (printRange ext s r1 c1 r2 c2 width).2.maxRow := by
  unfold printRange
  dsimp only
  split
  · have h1 := (wider_touch s r2 c2)
    refine ⟨⟨rfl, rfl⟩, ⟨Int.le_trans hs.rows h1.1, Int.le_trans hs.cols h1.2, fun r c hn => ?_⟩, h1.1⟩
    refine hs.outside r c fun k => hn ?_
    have := h1.1
    have := h1.2
    omega
  · exact ⟨⟨rfl, rfl⟩, hs, Int.le_refl _⟩

/-- C105. Printing changes no value, and afterwards series in columns, and series whose end is given, give the
same data frames or the same error as before. -/
theorem C105_harmless_partial (ext : Ext) {p : Params} {sps : List SParams} (hp : HasSeries p sps) {s : Sheet}
    (hs : WellFormed s) (hin : Settled s.maxRow sps) (r1 c1 r2 c2 : Nat) (width : Int) :
    SameValues s (printRange ext s r1 c1 r2 c2 width).2 ∧
      (scrape ext p (printRange ext s r1 c1 r2 c2 width).2).1 = (scrape ext p s).1 := by
  obtain ⟨h1, h2, h3⟩ := printRange_values ext s r1 c1 r2 c2 width hs
  refine ⟨h1, (C104_empty_partial ext hp hs h2 h1 ?_).1⟩
  rw [Int.min_eq_left h3]
  exact hin

/-! ### Examples -/

/-- A part of the quarters. -/
example : (printRange Sample.ext0 Sample.quarterSheet 1 1 2 2 10).1 =
    c!"| A1: fecha  | B1: PBI    | \n| ---------- | ---------- | \n| A2: 200... | B2: 10     | \n| ---------- | ---------- | \n" := by
  decide +kernel

/-- The quarters after the default range was printed. -/
example : (scrape Sample.ext0 (Sample.paramsOf [Sample.quarterSeries c!"B1"])
    (printRange Sample.ext0 Sample.quarterSheet 1 1 10 5 15).2).1 =
    (scrape Sample.ext0 (Sample.paramsOf [Sample.quarterSeries c!"B1"]) Sample.quarterSheet).1 :=
  (C105_harmless_partial Sample.ext0 (sps := [Sample.quarterSeries c!"B1"]) (fun _ => rfl)
    (Sample.rows_wellFormed (by decide) (by decide) (by decide))
    ⟨by intro sp hsp; rw [List.mem_singleton] at hsp; subst hsp; exact .inl ⟨rfl, by decide⟩, .inl (by decide)⟩
    1 1 10 5 15).2

/-- C105. Violated: with a width of two the fields are wider than their borders. -/
theorem C105_width_violated :
    (printRange Sample.ext0 Sample.quarterSheet 1 1 1 2 2).1 =
      c!"| A1: fech... | B1: PBI... | \n| -- | -- | \n" := by
  decide +kernel

/-- C105. Violated: printing the default range makes a table in rows, without the end given, unreadable. -/
theorem C105_harmless_violated :
    let p := Sample.paramsOf [Sample.quarterRow c!"A2"]
    (scrape Sample.ext0 p Sample.shortRow).1 = .ok [⟨c!"QS-JAN", [⟨2000, 7, 1, 0⟩, ⟨2000, 10, 1, 0⟩,
      ⟨2001, 1, 1, 0⟩], [c!"PBI"], [[.fin 10, .fin 11, .fin 12]]⟩] ∧
    (scrape Sample.ext0 p (printRange Sample.ext0 Sample.shortRow 1 1 10 5 15).2).1 = .error .typeError := by
  decide +kernel

end Xls
