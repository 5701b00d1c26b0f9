/-
Property C89: every number in a data frame stands in a cell of the worksheet.
-/
import Verif.Lemmas.Provenance
import Verif.Props.Result

set_option autoImplicit false

namespace Xls

open Spec

/-- C89. Whatever the workbook, the parameters and the flags: if `get_data_frames` returns, there is for each
data frame a sheet of the caller's workbook, with the name that is recorded, such that the numbers of every
column (all values but NaN) stand in different cells of one column or row of that sheet, in the order of the
sheet, as the workbook was when the call was made. -/
theorem C89_numbers_from_cells (ext : Ext) (wb : List Nat) (given : Given) (name : Str)
    (safe preserve : Bool) (w w' : World) (a : Answer) (nm : Str) (pr : Nat)
    (hwb : ∀ r ∈ wb, r < w.nextSheet)
    (h : getDataFrames ext wb given name safe preserve w = (.ok (a, nm, pr), w'))
    (f : Frame) (hf : InAnswer f a) :
    ∃ r ∈ wb, (w.sheets r).title = nm ∧ ∀ d ∈ f.data, NumbersOf ext (w.sheets r) d := by
  refine getDataFrames_yields (V := fun s => ∃ r ∈ wb, (w.sheets r).title = nm ∧ DatesOver (w.sheets r) s)
    (F := fun f => ∃ r ∈ wb, (w.sheets r).title = nm ∧ ∀ d ∈ f.data, NumbersOf ext (w.sheets r) d)
    ?_ ?_ hwb h ?_ f hf
  · rintro p p' s s' fs ⟨r, hr, ht, hs⟩ hsc f hf
    exact ⟨r, hr, ht, scrape_numbers hs hsc f hf⟩
  · rintro s ⟨r, hr, ht, hs⟩
    exact ⟨r, hr, ht, hs.trans (copySheet_over s)⟩
  · exact fun r hr ht => ⟨r, hr, ht, .refl _⟩

/-- C89. In particular a number that stands in no cell of any sheet is in no data frame. -/
theorem C89_no_other_number (ext : Ext) (wb : List Nat) (given : Given) (name : Str)
    (safe preserve : Bool) (w w' : World) (a : Answer) (nm : Str) (pr : Nat)
    (hwb : ∀ r ∈ wb, r < w.nextSheet)
    (h : getDataFrames ext wb given name safe preserve w = (.ok (a, nm, pr), w'))
    (f : Frame) (hf : InAnswer f a) (d : List Num) (hd : d ∈ f.data) (x : Num) (hx : x ∈ d)
    (hnan : x ≠ .nan) : ∃ r ∈ wb, ∃ row col, NumberFor ext ((w.sheets r).cells row col) x := by
  obtain ⟨r, hr, _, hall⟩ := C89_numbers_from_cells ext wb given name safe preserve w w' a nm pr hwb h f hf
  obtain ⟨line, places, hl, _, _, h2⟩ := hall d hd
  have hm : x ∈ d.filter (· ≠ .nan) := List.mem_filter.2 ⟨hx, by simpa using hnan⟩
  obtain ⟨j, hj, rfl⟩ := List.mem_iff_getElem.1 hm
  have hlen := h2.length_eq
  have := (List.forall₂_iff_get.1 h2).2 j (by omega) hj
  rcases hl with ⟨c, rfl⟩ | ⟨q, rfl⟩
  · exact ⟨r, hr, _, _, this⟩
  · exact ⟨r, hr, _, _, this⟩

example : ∀ f, InAnswer f (.dfs (.many Sample.sideFrames)) →
    ∃ r ∈ [0], ((Sample.world Sample.sideSheet Sample.sideUnknown).sheets r).title = c!"S" ∧
      ∀ d ∈ f.data, NumbersOf Sample.extWeek ((Sample.world Sample.sideSheet Sample.sideUnknown).sheets r) d := by
  intro f hf
  obtain ⟨w', h⟩ : ∃ w', getDataFrames Sample.extWeek [0] (.object 0) [] true true
      (Sample.world Sample.sideSheet Sample.sideUnknown) =
      (.ok (.dfs (.many Sample.sideFrames), c!"S", 1), w') := ⟨_, by rw [← Sample.side_answer]⟩
  exact C89_numbers_from_cells _ _ _ _ _ _ _ _ _ _ _ (by decide) h f hf

/-- The numbers need not be all there are, and NaN may stand between them. -/
example : NumbersOf Sample.ext0 Sample.weekSheet [.fin 10, .nan, .fin 12, .fin 13] :=
  ⟨_, [2, 4, 5], .inl ⟨2, rfl⟩, by decide, by decide,
    .cons (.inl rfl) (.cons (.inl rfl) (.cons (.inl rfl) .nil))⟩

end Xls
