/-
C52-C58: what is extracted from the cells of a series.
-/
import Verif.Lemmas.GetData3
import Verif.Spec.Samples
import Verif.Spec.Shown
import Mathlib.Data.List.Forall2
import Mathlib.Data.List.Nodup

set_option autoImplicit false

namespace Xls
open Spec

namespace Sample

/-- A sheet with dates in the first column and values in the second one, a header row on top. -/
def twoColumns (header : Cell) (rows : List (Cell × Cell)) : Sheet where
  title := c!"S"
  cells := fun r c =>
    if r < 1 then .none
    else if c = 1 then ((.str c!"fecha" :: rows.map Prod.fst).getD (r.toNat - 1) .none)
    else if c = 2 then ((header :: rows.map Prod.snd).getD (r.toNat - 1) .none)
    else .none
  maxRow := rows.length + 1
  maxCol := 2

end Sample

/-! ### C52 -/

/-- C52. A continuous series without missings and blank rows: a list of values is extracted exactly if
it consists of the numbers of the cells from `data_starts` to `data_ends`, one per cell in order. -/
theorem C52_every_row {ext : Ext} {sp : SParams} {s : Sheet} {hr hc last : Int}
    (hd : DataCells sp hr hc last) (hf : sp.frequency.length = 1) (hcont : sp.continuity = true)
    (hm : sp.missings = false) (hb : sp.blankRows = false) (hle : sp.dataStarts ≤ last)
    (vss : List (List Num)) :
    getValues ext sp s = .ok vss ↔
      ∃ xs, vss = [xs] ∧ (cellsAlong s sp.alignment hr hc sp.dataStarts last).map (numberIn ext) =
        xs.map some := by
  have hne : sp.frequency ≠ [] := by intro h; rw [h] at hf; simp at hf
  have hm' : sp.missings = true → sp.missingValue = .list [] := by rw [hm]; intro h; cases h
  obtain ⟨h1, _⟩ := continuous_rows (ext := ext) (s := s) hd hm' hcont
  have hcells := cellsAlong_ne_nil (s := s) (al := sp.alignment) (hr := hr) (hc := hc) hle
  have e1 : contCells sp (cellsAlong s sp.alignment hr hc sp.dataStarts last) =
      cellsAlong s sp.alignment hr hc sp.dataStarts last := by simp [contCells, hb]
  have e2 : contValue ext sp [] = numberIn ext := by funext c; simp [contValue, hm]
  rw [e1, e2] at h1
  have hfin := finish_plain (ext := ext) (s := s) (last := last) hm' (by rw [hm]; intro h; cases h)
  rw [getValues_eq hd hne]
  constructor
  · intro h
    cases hr' : rowEntries ext sp s hr hc (intRange sp.dataStarts (last + 1)) with
    | error e => rw [hr'] at h; cases h
    | ok xs =>
      rw [hr'] at h
      dsimp only at h
      rw [hfin, dealt_single_snd hf] at h
      have h2 := (h1 xs).1 hr'
      have hx : xs ≠ [] := by
        rintro rfl
        simp only [List.map_nil, List.map_eq_nil_iff] at h2
        exact hcells h2
      rw [if_neg hx] at h
      injection h with h
      exact ⟨xs, h.symm, h2⟩
  · rintro ⟨xs, rfl, h2⟩
    rw [(h1 xs).2 h2]
    dsimp only
    have hx : xs ≠ [] := by
      rintro rfl
      simp only [List.map_nil, List.map_eq_nil_iff] at h2
      exact hcells h2
    rw [hfin, dealt_single_snd hf, if_neg hx]

example : getValues Sample.ext0 { Sample.monthly with dataEnds := some 4 }
    (Sample.twoColumns (.str c!"x") [(.none, .int 3), (.none, .float (.fin (1 / 2))),
      (.none, .float .nan)]) = .ok [[.fin 3, .fin (1 / 2), .nan]] := by
  refine (C52_every_row (hr := 1) (hc := 2) (last := 4) ⟨rfl, .inl rfl, by decide, rfl⟩ rfl rfl rfl
    rfl (by decide) _).2 ⟨_, rfl, rfl⟩

/-- C52. One cell without a number is enough for the extraction to fail. -/
theorem C52_not_a_number {ext : Ext} {sp : SParams} {s : Sheet} {hr hc last : Int} {c : Cell}
    (hd : DataCells sp hr hc last) (hf : sp.frequency ≠ []) (hcont : sp.continuity = true)
    (hm : sp.missings = false) (hb : sp.blankRows = false)
    (hc' : c ∈ cellsAlong s sp.alignment hr hc sp.dataStarts last) (hn : numberIn ext c = none) :
    getValues ext sp s = .error .exception := by
  have hm' : sp.missings = true → sp.missingValue = .list [] := by rw [hm]; intro h; cases h
  obtain ⟨_, h2⟩ := continuous_rows (ext := ext) (s := s) hd hm' hcont
  rw [getValues_eq hd hf, h2 ⟨c, by simpa [contCells, hb] using hc', by simpa [contValue, hm] using hn⟩]

example : getValues Sample.ext0 { Sample.monthly with dataEnds := some 3 }
    (Sample.twoColumns (.str c!"x") [(.none, .int 3), (.none, .str c!"n/d")]) = .error .exception :=
  C52_not_a_number (hr := 1) (hc := 2) (last := 3) (c := .str c!"n/d") ⟨rfl, .inl rfl, by decide, rfl⟩
    (by decide) rfl rfl rfl (by decide) rfl

/-- C52. With blank rows allowed exactly the empty cells are left out. -/
theorem C52_blank_rows {ext : Ext} {sp : SParams} {s : Sheet} {hr hc last : Int}
    (hd : DataCells sp hr hc last) (hf : sp.frequency.length = 1) (hcont : sp.continuity = true)
    (hm : sp.missings = false) (hb : sp.blankRows = true) (vss : List (List Num)) :
    getValues ext sp s = .ok vss ↔
      ∃ xs, vss = (if xs = [] then [] else [xs]) ∧
        ((cellsAlong s sp.alignment hr hc sp.dataStarts last).filter (· ≠ .none)).map (numberIn ext) =
          xs.map some := by
  have hne : sp.frequency ≠ [] := by intro h; rw [h] at hf; simp at hf
  have hm' : sp.missings = true → sp.missingValue = .list [] := by rw [hm]; intro h; cases h
  obtain ⟨h1, _⟩ := continuous_rows (ext := ext) (s := s) hd hm' hcont
  have e1 : contCells sp (cellsAlong s sp.alignment hr hc sp.dataStarts last) =
      (cellsAlong s sp.alignment hr hc sp.dataStarts last).filter (· ≠ .none) := by
    simp [contCells, hb]
  have e2 : contValue ext sp [] = numberIn ext := by funext c; simp [contValue, hm]
  rw [e1, e2] at h1
  have hfin := finish_plain (ext := ext) (s := s) (last := last) hm' (by rw [hm]; intro h; cases h)
  rw [getValues_eq hd hne]
  constructor
  · intro h
    cases hr' : rowEntries ext sp s hr hc (intRange sp.dataStarts (last + 1)) with
    | error e => rw [hr'] at h; cases h
    | ok xs =>
      rw [hr'] at h
      dsimp only at h
      rw [hfin, dealt_single_snd hf] at h
      injection h with h
      exact ⟨xs, h.symm, (h1 xs).1 hr'⟩
  · rintro ⟨xs, rfl, h2⟩
    rw [(h1 xs).2 h2]
    dsimp only
    rw [hfin, dealt_single_snd hf]

example : getValues Sample.ext0 { Sample.monthly with dataEnds := some 4, blankRows := true }
    (Sample.twoColumns (.str c!"x") [(.none, .int 3), (.none, .none), (.none, .int 4)]) =
      .ok [[.fin 3, .fin 4]] := by
  refine (C52_blank_rows (hr := 1) (hc := 2) (last := 4) ⟨rfl, .inl rfl, by decide, rfl⟩ rfl rfl rfl
    rfl _).2 ⟨[.fin 3, .fin 4], rfl, rfl⟩

/-! ### C53 -/

/-- C53. A continuous series with marked missings: a list of values is extracted exactly if it has one
entry per cell, NaN for a marker and the number of the cell otherwise. -/
theorem C53_markers {ext : Ext} {sp : SParams} {s : Sheet} {hr hc last : Int} {markers : List PVal}
    (hd : DataCells sp hr hc last) (hf : sp.frequency.length = 1) (hcont : sp.continuity = true)
    (hm : sp.missings = true) (hmv : sp.missingValue = .list markers)
    (hi : PVal.str c!"Implicit" ∉ markers) (hb : sp.blankRows = false) (hle : sp.dataStarts ≤ last)
    (vss : List (List Num)) :
    getValues ext sp s = .ok vss ↔
      ∃ xs, vss = [xs] ∧
        (cellsAlong s sp.alignment hr hc sp.dataStarts last).map (valueOf ext markers) =
          xs.map some := by
  have hne : sp.frequency ≠ [] := by intro h; rw [h] at hf; simp at hf
  obtain ⟨h1, _⟩ := continuous_rows (ext := ext) (s := s) hd (fun _ => hmv) hcont
  have hcells := cellsAlong_ne_nil (s := s) (al := sp.alignment) (hr := hr) (hc := hc) hle
  have e1 : contCells sp (cellsAlong s sp.alignment hr hc sp.dataStarts last) =
      cellsAlong s sp.alignment hr hc sp.dataStarts last := by simp [contCells, hb]
  have e2 : contValue ext sp markers = valueOf ext markers := by funext c; simp [contValue, hm]
  rw [e1, e2] at h1
  have hfin := finish_plain (ext := ext) (s := s) (last := last) (fun _ => hmv) (fun _ => .inl hi)
  rw [getValues_eq hd hne]
  constructor
  · intro h
    cases hr' : rowEntries ext sp s hr hc (intRange sp.dataStarts (last + 1)) with
    | error e => rw [hr'] at h; cases h
    | ok xs =>
      rw [hr'] at h
      dsimp only at h
      rw [hfin, dealt_single_snd hf] at h
      have h2 := (h1 xs).1 hr'
      have hx : xs ≠ [] := by
        rintro rfl
        simp only [List.map_nil, List.map_eq_nil_iff] at h2
        exact hcells h2
      rw [if_neg hx] at h
      injection h with h
      exact ⟨xs, h.symm, h2⟩
  · rintro ⟨xs, rfl, h2⟩
    rw [(h1 xs).2 h2]
    dsimp only
    have hx : xs ≠ [] := by
      rintro rfl
      simp only [List.map_nil, List.map_eq_nil_iff] at h2
      exact hcells h2
    rw [hfin, dealt_single_snd hf, if_neg hx]

example : getValues Sample.ext0 { Sample.monthly with
      dataEnds := some 5, missings := true, missingValue := .list [.str c!"...", .none] }
    (Sample.twoColumns (.str c!"x") [(.none, .int 3), (.none, .str c!" ... "), (.none, .none),
      (.none, .int 5)]) = .ok [[.fin 3, .nan, .nan, .fin 5]] := by
  refine (C53_markers (hr := 1) (hc := 2) (last := 5) (markers := [.str c!"...", .none])
    ⟨rfl, .inl rfl, by decide, rfl⟩ rfl rfl rfl rfl (by simp) rfl (by decide) _).2 ⟨_, rfl, rfl⟩

/-- C53. A cell that is neither a marker nor a number makes the extraction fail. -/
theorem C53_neither {ext : Ext} {sp : SParams} {s : Sheet} {hr hc last : Int} {markers : List PVal}
    {c : Cell} (hd : DataCells sp hr hc last) (hf : sp.frequency ≠ []) (hcont : sp.continuity = true)
    (hm : sp.missings = true) (hmv : sp.missingValue = .list markers) (hb : sp.blankRows = false)
    (hc' : c ∈ cellsAlong s sp.alignment hr hc sp.dataStarts last)
    (hn : valueOf ext markers c = none) : getValues ext sp s = .error .exception := by
  obtain ⟨_, h2⟩ := continuous_rows (ext := ext) (s := s) hd (fun _ => hmv) hcont
  rw [getValues_eq hd hf, h2 ⟨c, by simpa [contCells, hb] using hc', by simpa [contValue, hm] using hn⟩]

example : getValues Sample.ext0 { Sample.monthly with
      dataEnds := some 3, missings := true, missingValue := .list [.str c!"..."] }
    (Sample.twoColumns (.str c!"x") [(.none, .int 3), (.none, .none)]) = .error .exception :=
  C53_neither (hr := 1) (hc := 2) (last := 3) (c := .none) (markers := [.str c!"..."])
    ⟨rfl, .inl rfl, by decide, rfl⟩ (by decide) rfl rfl rfl rfl (by decide) rfl

/-! ### C54 -/

/-- The time header agrees with `time_multicolumn`: a list of coordinates exactly if it is set. -/
def Spec.HeaderKind (sp : SParams) : Prop :=
  sp.timeMulticolumn = true ↔ ∃ cs, sp.timeHeader = .multi cs

theorem nonContHeader_of {sp : SParams} {tr tc : Int} (hk : HeaderKind sp)
    (hh : HeaderAt sp tr tc) : nonContHeader sp = .ok (tr, tc) := by
  unfold HeaderKind at hk
  unfold HeaderAt at hh
  unfold nonContHeader
  cases hth : sp.timeHeader with
  | single c =>
    rw [hth] at hh hk
    have : sp.timeMulticolumn = false := by
      cases hm : sp.timeMulticolumn
      · rfl
      · obtain ⟨cs, h⟩ := hk.1 hm; cases h
    rw [this]; exact hh
  | multi cs =>
    rw [hth] at hh hk
    rw [hk.2 ⟨cs, rfl⟩]
    cases cs with
    | nil => exact hh.elim
    | cons c cs => exact hh

/-- C54. A non-continuous series: the values of exactly the rows that have a date-time in the time
index and a number (or a missing marker) in the data cell, in order; other rows never cause an
error. -/
theorem C54_dated_rows {ext : Ext} {sp : SParams} {s : Sheet} {hr hc tr tc last : Int}
    {markers : List PVal} (hd : DataCells sp hr hc last) (hf : sp.frequency.length = 1)
    (hcont : sp.continuity = false) (hk : HeaderKind sp) (hh : HeaderAt sp tr tc)
    (hmv : sp.missings = true → sp.missingValue = .list markers)
    (hi : sp.missings = true → PVal.str c!"Implicit" ∉ markers)
    (hta : 1 ≤ sp.dataStarts + sp.timeAlignment) :
    let xs := ((cellsAlong s sp.alignment hr hc sp.dataStarts last).zip
        (cellsAlong s sp.alignment tr tc (sp.dataStarts + sp.timeAlignment)
          (last + sp.timeAlignment))).filterMap
      fun p => if IsDate p.2 then looseValue ext sp.missings markers p.1 else none
    getValues ext sp s = .ok (if xs = [] then [] else [xs]) := by
  intro xs
  have hne : sp.frequency ≠ [] := by intro h; rw [h] at hf; simp at hf
  obtain ⟨h1, h2⟩ := coordOf_pos hd.header
  have ht := nonContHeader_of hk hh
  have h3 : 1 ≤ tr ∧ 1 ≤ tc := by
    unfold HeaderAt at hh
    split at hh
    · exact coordOf_pos hh
    · exact hh.elim
    · exact coordOf_pos hh
  let g : Int → Option (Option Num) := fun i =>
    some (if IsDate (timeCell s sp.alignment tr tc (i + sp.timeAlignment))
      then looseValue ext sp.missings markers (timeCell s sp.alignment hr hc i) else none)
  have hs := hd.starts
  obtain ⟨_, e2⟩ := rowEntries_of (ext := ext) (sp := sp) (s := s) (hr := hr) (hc := hc) g
    (intRange sp.dataStarts (last + 1)) (by
      intro i hi
      rw [mem_intRange] at hi
      exact rowEntry_noncontinuous hmv hcont ht h1 h2 (by omega) h3.1 h3.2 (by omega))
  have hxs : (intRange sp.dataStarts (last + 1)).filterMap (fun i => (g i).join) = xs := by
    simp only [xs]
    unfold cellsAlong intRange
    have : (last + sp.timeAlignment + 1 - (sp.dataStarts + sp.timeAlignment)).toNat =
        (last + 1 - sp.dataStarts).toNat := by congr 1; omega
    rw [this, List.zip_map', List.filterMap_map, List.filterMap_map]
    congr 1
    funext i
    simp only [Function.comp, g, Option.join_some]
    rw [show sp.dataStarts + (i : Int) + sp.timeAlignment =
      sp.dataStarts + sp.timeAlignment + (i : Int) by omega]
  rw [getValues_eq hd hne, e2 (by intro i _; simp [g]), hxs]
  dsimp only
  rw [finish_plain hmv (fun h => .inl (hi h)), dealt_single_snd hf]

example : getValues Sample.ext0 { Sample.monthly with dataEnds := some 5, continuity := false }
    (Sample.twoColumns (.str c!"x") [(Sample.day 2000 1 1, .int 3), (.str c!"total", .int 9),
      (Sample.day 2000 2 1, .str c!"-"), (Sample.day 2000 3 1, .int 5)]) = .ok [[.fin 3, .fin 5]] :=
  C54_dated_rows (hr := 1) (hc := 2) (tr := 1) (tc := 1) (last := 5) (markers := [])
    ⟨rfl, .inl rfl, by decide, rfl⟩ rfl rfl (by unfold HeaderKind; simp [Sample.monthly]) rfl
    (by intro h; cases h) (by intro h; cases h) (by decide)

/-! ### C55 -/

theorem zip_map_fst_dt (ts : List Time) (xs : List Num) :
    ((ts.map Cell.dt).zip xs) = (ts.zip xs).map fun p => (Cell.dt p.1, p.2) := by
  induction ts generalizing xs with
  | nil => rfl
  | cons t ts ih => cases xs with
    | nil => rfl
    | cons x xs => simp [ih]

theorem fillValues_placed {ext : Ext} {freq : Str} {grid ts : List Time} {xs : List Num}
    (hg : OnGrid freq grid ts) (hlen : ts.length = xs.length) (hx : xs ≠ [])
    (hz : ∀ z, grid.getLast? = some z → ∃ z', NextPeriod freq z z') :
    ∃ ys, fillValues ext freq ((ts.map Cell.dt).zip xs) none = .ok ys ∧ Placed grid ts xs ys := by
  cases ts with
  | nil => cases xs with
    | nil => exact absurd rfl hx
    | cons _ _ => cases hlen
  | cons t ts =>
  cases xs with
  | nil => exact absurd rfl hx
  | cons x xs =>
  cases grid with
  | nil => have := hg.first; cases this
  | cons g gs =>
  have hgt : t = g := by have := hg.first; injection this
  subst hgt
  have hfst : ((t :: ts).zip (x :: xs)).map Prod.fst = t :: ts := by
    rw [List.map_fst_zip (by omega)]
  have hfill := fillValues_grid (ext := ext) (freq := freq) gs t ((t :: ts).zip (x :: xs)) hg.valid
    hg.steps (by
      intro z h
      obtain ⟨z', hz'⟩ := hz z h
      exact ⟨z', (nextPeriod_iff (hg.valid z (List.mem_of_getLast? h))).1 hz'⟩)
    (by rw [hfst]; exact hg.sub) (by rw [hfst]; exact hg.last)
  have hnone : ∀ rest, fillValues ext freq ((.dt t, x) :: rest) none =
      fillValues ext freq ((.dt t, x) :: rest) (some t) := by
    intro rest
    have : fillOne ext freq (.dt t) none = fillOne ext freq (.dt t) (some t) := by
      unfold fillOne; rfl
    rw [fillValues, fillValues, this]
  refine ⟨expand (t :: gs) ((t :: ts).zip (x :: xs)), ?_, expand_length _ _, ?_, ?_⟩
  · rw [zip_map_fst_dt, ← hfill]
    simp only [List.zip_cons_cons, List.map_cons]
    rw [hnone]
  · have := (expand_placed (t :: gs) ((t :: ts).zip (x :: xs))
      (consecutive_nodup hg.valid hg.steps) (by rw [hfst]; exact hg.sub)).1
    exact this
  · have := (expand_placed (t :: gs) ((t :: ts).zip (x :: xs))
      (consecutive_nodup hg.valid hg.steps) (by rw [hfst]; exact hg.sub)).2
    intro i u h hu
    exact this i u h (by rw [hfst]; exact hu)

theorem finish_implicit {ext : Ext} {sp : SParams} {s : Sheet} {tr tc last : Int}
    {markers : List PVal} {xs : List Num} (hm : sp.missings = true)
    (hmv : sp.missingValue = .list markers) (hi : PVal.str c!"Implicit" ∈ markers)
    (hf : sp.frequency.length = 1) (hh : HeaderAt sp tr tc) (hx : xs ≠ []) :
    finish ext sp s last xs =
      match fillValues ext sp.frequency
          ((cellsAlong s sp.alignment tr tc sp.dataStarts last).zip xs) none with
      | .error e => .error e
      | .ok ys => .ok [ys] := by
  unfold finish
  have hk : IsMarker markers (.str c!"Implicit") := ⟨_, rfl, _, hi, rfl⟩
  have ht : timeHeaderCell sp.timeHeader = .ok (tr, tc) := by
    unfold HeaderAt at hh
    cases hth : sp.timeHeader with
    | single c => rw [hth] at hh; exact hh
    | multi cs =>
      rw [hth] at hh
      cases cs with
      | nil => exact hh.elim
      | cons c cs => exact hh
  rw [if_pos hm, hmv, cellIn_list]
  dsimp only
  rw [if_pos ⟨by simpa using hk, hf⟩, if_neg hx, ht]
  rfl

/-- C55. A continuous series with implicit missings whose dates lie on a grid of consecutive periods,
from its first to its last one: the result has one entry per period of the grid, the value of the
row at the dates that are there and NaN at the others. -/
theorem C55_values_on_their_dates {ext : Ext} {sp : SParams} {s : Sheet} {hr hc tr tc last : Int}
    {markers : List PVal} {grid ts : List Time} {xs : List Num}
    (hd : DataCells sp hr hc last) (hf : sp.frequency.length = 1) (hcont : sp.continuity = true)
    (hb : sp.blankRows = false) (hm : sp.missings = true) (hmv : sp.missingValue = .list markers)
    (hi : PVal.str c!"Implicit" ∈ markers) (hh : HeaderAt sp tr tc) (hle : sp.dataStarts ≤ last)
    (hx : (cellsAlong s sp.alignment hr hc sp.dataStarts last).map (valueOf ext markers) =
      xs.map some)
    (ht : cellsAlong s sp.alignment tr tc sp.dataStarts last = ts.map .dt)
    (hg : OnGrid sp.frequency grid ts)
    (hz : ∀ z, grid.getLast? = some z → ∃ z', NextPeriod sp.frequency z z') :
    ∃ ys, getValues ext sp s = .ok [ys] ∧ Placed grid ts xs ys := by
  have hne : sp.frequency ≠ [] := by intro h; rw [h] at hf; simp at hf
  have l1 := congrArg List.length hx
  have l2 := congrArg List.length ht
  simp only [cellsAlong, List.length_map, List.length_range] at l1 l2
  have hxne : xs ≠ [] := by
    rintro rfl
    simp only [List.length_nil] at l1
    omega
  obtain ⟨ys, h1, h2⟩ := fillValues_placed (ext := ext) hg (by omega) hxne hz
  refine ⟨ys, ?_, h2⟩
  have e1 : contCells sp (cellsAlong s sp.alignment hr hc sp.dataStarts last) =
      cellsAlong s sp.alignment hr hc sp.dataStarts last := by simp [contCells, hb]
  have e2 : contValue ext sp markers = valueOf ext markers := by funext c; simp [contValue, hm]
  have hrow := ((continuous_rows (ext := ext) (s := s) hd (fun _ => hmv) hcont).1 xs).2
    (by rw [e1, e2]; exact hx)
  rw [getValues_eq hd hne, hrow]
  dsimp only
  rw [finish_implicit hm hmv hi hf hh hxne, ht, h1]

/-- C55. The same for a non-continuous series all of whose rows have a date and a value. -/
theorem C55_non_continuous {ext : Ext} {sp : SParams} {s : Sheet} {hr hc tr tc last : Int}
    {markers : List PVal} {grid ts : List Time} {xs : List Num}
    (hd : DataCells sp hr hc last) (hf : sp.frequency.length = 1) (hcont : sp.continuity = false)
    (hm : sp.missings = true) (hmv : sp.missingValue = .list markers)
    (hi : PVal.str c!"Implicit" ∈ markers) (hk : HeaderKind sp) (hh : HeaderAt sp tr tc)
    (hta : sp.timeAlignment = 0) (hle : sp.dataStarts ≤ last)
    (hx : (cellsAlong s sp.alignment hr hc sp.dataStarts last).map (looseValue ext true markers) =
      xs.map some)
    (ht : cellsAlong s sp.alignment tr tc sp.dataStarts last = ts.map .dt)
    (hg : OnGrid sp.frequency grid ts)
    (hz : ∀ z, grid.getLast? = some z → ∃ z', NextPeriod sp.frequency z z') :
    ∃ ys, getValues ext sp s = .ok [ys] ∧ Placed grid ts xs ys := by
  have hne : sp.frequency ≠ [] := by intro h; rw [h] at hf; simp at hf
  have l1 := congrArg List.length hx
  have l2 := congrArg List.length ht
  simp only [cellsAlong, List.length_map, List.length_range] at l1 l2
  have hxne : xs ≠ [] := by
    rintro rfl
    simp only [List.length_nil] at l1
    omega
  obtain ⟨ys, h1, h2⟩ := fillValues_placed (ext := ext) hg (by omega) hxne hz
  refine ⟨ys, ?_, h2⟩
  obtain ⟨p1, p2⟩ := coordOf_pos hd.header
  have hth := nonContHeader_of hk hh
  have h3 : 1 ≤ tr ∧ 1 ≤ tc := by
    unfold HeaderAt at hh
    split at hh
    · exact coordOf_pos hh
    · exact hh.elim
    · exact coordOf_pos hh
  have hs := hd.starts
  let g : Int → Option (Option Num) := fun i =>
    some (looseValue ext true markers (timeCell s sp.alignment hr hc i))
  obtain ⟨_, e2⟩ := rowEntries_of (ext := ext) (sp := sp) (s := s) (hr := hr) (hc := hc) g
    (intRange sp.dataStarts (last + 1)) (by
      intro i hi
      have hmem : timeCell s sp.alignment tr tc i ∈
          cellsAlong s sp.alignment tr tc sp.dataStarts last := by
        rw [← intRange_map_cells]; exact List.mem_map.2 ⟨i, hi, rfl⟩
      rw [ht] at hmem
      obtain ⟨t, _, hte⟩ := List.mem_map.1 hmem
      rw [mem_intRange] at hi
      rw [rowEntry_noncontinuous (fun _ => hmv) hcont hth p1 p2 (by omega) h3.1 h3.2 (by omega),
        hta, Int.add_zero, ← hte, if_pos (by trivial), hm])
  have hxs : (intRange sp.dataStarts (last + 1)).filterMap (fun i => (g i).join) = xs := by
    have := (collect_iff (fun _ => true) (looseValue ext true markers)
      (cellsAlong s sp.alignment hr hc sp.dataStarts last) xs).1 (by simpa using hx)
    rw [this.2, ← intRange_map_cells, List.filterMap_map]
    congr 1
    funext i
    simp only [g, Function.comp, if_true]
    cases looseValue ext true markers (timeCell s sp.alignment hr hc i) <;> rfl
  rw [getValues_eq hd hne, e2 (by intro i _; simp [g]), hxs]
  dsimp only
  rw [finish_implicit hm hmv hi hf hh hxne, ht, h1]

/-- Parameters of a monthly series with implicit missings, up to row 4. -/
def Sample.implicit : SParams :=
  { Sample.monthly with dataEnds := some 4, missings := true, missingValue := .list [.str c!"Implicit"] }

/-- January, February and April 2015. -/
example : ∃ ys, getValues Sample.ext0 Sample.implicit
    (Sample.twoColumns (.str c!"x") [(Sample.day 2015 1 1, .int 1), (Sample.day 2015 2 1, .int 2),
      (Sample.day 2015 4 1, .int 4)]) = .ok [ys] ∧
    Placed [⟨2015, 1, 1, 0⟩, ⟨2015, 2, 1, 0⟩, ⟨2015, 3, 1, 0⟩, ⟨2015, 4, 1, 0⟩]
      [⟨2015, 1, 1, 0⟩, ⟨2015, 2, 1, 0⟩, ⟨2015, 4, 1, 0⟩] [.fin 1, .fin 2, .fin 4] ys := by
  refine C55_values_on_their_dates (hr := 1) (hc := 2) (tr := 1) (tc := 1) (last := 4)
    (markers := [.str c!"Implicit"]) ⟨rfl, .inl rfl, by decide, rfl⟩ rfl rfl rfl rfl rfl (by simp) rfl
    (by decide) rfl rfl ⟨by decide, ?_, by decide, rfl, rfl⟩ ?_
  · exact ⟨⟨_, rfl, rfl, rfl, rfl⟩, ⟨_, rfl, rfl, rfl, rfl⟩, ⟨_, rfl, rfl, rfl, rfl⟩, trivial⟩
  · intro z h
    injection h with h
    subst h
    exact ⟨⟨2015, 5, 1, 0⟩, by decide, _, rfl, rfl, rfl, rfl⟩

/-! ### C56 -/

/-- C56. When the dates are consecutive periods, filling adds nothing. (That the dates are consecutive
one by one is what is missing for month ends, see below.) -/
theorem C56_nothing_invented_partial {ext : Ext} {sp : SParams} {s : Sheet} {hr hc tr tc last : Int}
    {markers : List PVal} {ts : List Time} {xs : List Num}
    (hd : DataCells sp hr hc last) (hf : sp.frequency.length = 1) (hcont : sp.continuity = true)
    (hb : sp.blankRows = false) (hm : sp.missings = true) (hmv : sp.missingValue = .list markers)
    (hi : PVal.str c!"Implicit" ∈ markers) (hh : HeaderAt sp tr tc) (hle : sp.dataStarts ≤ last)
    (hx : (cellsAlong s sp.alignment hr hc sp.dataStarts last).map (valueOf ext markers) =
      xs.map some)
    (ht : cellsAlong s sp.alignment tr tc sp.dataStarts last = ts.map .dt)
    (hv : ∀ t ∈ ts, ValidTime t) (hcons : Consecutive sp.frequency ts)
    (hz : ∀ z, ts.getLast? = some z → ∃ z', NextPeriod sp.frequency z z') :
    getValues ext sp s = .ok [xs] := by
  obtain ⟨ys, h1, h2⟩ := C55_values_on_their_dates (grid := ts) hd hf hcont hb hm hmv hi hh hle hx ht
    ⟨hv, hcons, List.Sublist.refl _, rfl, rfl⟩ hz
  have l1 := congrArg List.length hx
  have l2 := congrArg List.length ht
  simp only [cellsAlong, List.length_map, List.length_range] at l1 l2
  have hys : ys = xs := by
    apply List.ext_getElem?
    intro i
    have hl := h2.size
    by_cases hlt : i < ts.length
    · have hix : i < xs.length := by omega
      obtain ⟨j, hj1, hj2⟩ := h2.observed ts[i] xs[i] (by
        rw [List.mem_iff_getElem]
        exact ⟨i, by rw [List.length_zip]; omega, by simp⟩)
      have hjl : j < ts.length := by
        by_contra hcon
        rw [List.getElem?_eq_none (by omega)] at hj1
        cases hj1
      have : j = i := by
        have hn := consecutive_nodup hv hcons
        rw [List.getElem?_eq_getElem hjl, Option.some.injEq] at hj1
        exact (List.Nodup.getElem_inj_iff hn).1 hj1
      subst this
      rw [hj2, List.getElem?_eq_getElem hix]
    · rw [List.getElem?_eq_none (by omega), List.getElem?_eq_none (by omega)]
  rw [h1, hys]

/-- C56. Violated: for the consecutive month ends 31 January, 28 February and 31 March a NaN is put
before the last value, because the expected date has drifted to 28 March. -/
theorem C56_month_ends_violated :
    getValues Sample.ext0 Sample.implicit
      (Sample.twoColumns (.str c!"x") [(Sample.day 2015 1 31, .int 1), (Sample.day 2015 2 28, .int 2),
        (Sample.day 2015 3 31, .int 3)]) = .ok [[.fin 1, .fin 2, .nan, .fin 3]] := by
  decide +kernel

/-! ### C57 -/

theorem rowEntries_frequency (ext : Ext) (sp : SParams) (s : Sheet) (hr hc : Int) (f : Str) :
    ∀ is, rowEntries ext { sp with frequency := f } s hr hc is = rowEntries ext sp s hr hc is
  | [] => rfl
  | i :: is => by
    unfold rowEntries
    rw [rowEntries_frequency ext sp s hr hc f is]
    rfl

/-- C57. The values of a series that mixes frequencies are those the same series has with one frequency
(`M` here), dealt in order to the letters of the pattern: the value at place `k` goes to the letter at
place `k` of the cycle. One list per letter that occurs, in order of appearance. -/
theorem C57_dealt_by_pattern {ext : Ext} {sp : SParams} {s : Sheet} {hr hc last : Int}
    {markers : List PVal} (hd : DataCells sp hr hc last) (hf : sp.frequency ≠ [])
    (hmv : sp.missings = true → sp.missingValue = .list markers)
    (hi : sp.missings = true → PVal.str c!"Implicit" ∉ markers) (vss : List (List Num)) :
    getValues ext sp s = .ok vss ↔
      ∃ xs, getValues ext { sp with frequency := c!"M" } s = .ok (if xs = [] then [] else [xs]) ∧
        vss = (lettersSeen sp.frequency xs.length).map fun c => ofLetter sp.frequency c xs := by
  have hd1 : DataCells { sp with frequency := c!"M" } hr hc last :=
    ⟨hd.header, hd.aligned, hd.starts, hd.ends⟩
  have hfin := finish_plain (ext := ext) (s := s) (last := last) hmv (fun h => .inl (hi h))
  have hfin1 := finish_plain (ext := ext) (sp := { sp with frequency := c!"M" }) (s := s)
    (last := last) hmv (fun h => .inl (hi h))
  rw [getValues_eq hd hf, getValues_eq hd1 (by simp)]
  dsimp only
  rw [rowEntries_frequency ext sp s hr hc c!"M"]
  cases rowEntries ext sp s hr hc (intRange sp.dataStarts (last + 1)) with
  | error e =>
    refine ⟨fun h => (by cases h), ?_⟩
    rintro ⟨xs, h, _⟩
    exact absurd h (by simp)
  | ok ys =>
    dsimp only
    rw [hfin, hfin1]
    have hone := dealt_single_snd (freq := c!"M") rfl ys
    dsimp only
    rw [hone]
    constructor
    · intro h
      injection h with h
      refine ⟨ys, rfl, ?_⟩
      rw [← h]
      unfold dealt
      rw [List.map_map]; rfl
    · rintro ⟨xs, h, rfl⟩
      injection h with h
      have : ys = xs := by
        by_cases h1 : ys = []
        · rw [if_pos h1] at h
          by_cases h2 : xs = []
          · rw [h1, h2]
          · rw [if_neg h2] at h; cases h
        · rw [if_neg h1] at h
          by_cases h2 : xs = []
          · rw [if_pos h2] at h; cases h
          · rw [if_neg h2] at h; injection h
      subst this
      unfold dealt
      rw [List.map_map]; rfl

/-- C57. Together the lists contain every value once. -/
theorem C57_every_value_once {pattern : Str} (hp : pattern ≠ []) (xs : List Num) :
    ((lettersSeen pattern xs.length).map fun c => ofLetter pattern c xs).flatten.Perm xs := by
  have h := dealAll_perm pattern xs 0 []
  rw [dealAll_eq hp] at h
  unfold dealt at h
  rw [List.map_map] at h
  exact h

example : getValues Sample.ext0 { Sample.monthly with dataEnds := some 6, frequency := c!"YQQ" }
    (Sample.twoColumns (.str c!"x") [(.none, .int 1), (.none, .int 2), (.none, .int 3),
      (.none, .int 4), (.none, .int 5)]) = .ok [[.fin 1, .fin 4], [.fin 2, .fin 3, .fin 5]] :=
  (C57_dealt_by_pattern (hr := 1) (hc := 2) (last := 6) (markers := []) ⟨rfl, .inl rfl, by decide, rfl⟩
    (by decide) (by intro h; cases h) (by intro h; cases h) _).2
    ⟨[.fin 1, .fin 2, .fin 3, .fin 4, .fin 5], by decide +kernel, by decide +kernel⟩

/-! ### C58 -/

/-- The cell of a coordinate contains a text. -/
def Spec.TextAt (s : Sheet) (coord t : Str) : Prop :=
  ∃ r c, coordOf coord = .ok (r, c) ∧ s.cells r c = .str t

theorem joinWith_eq (sep : Str) : ∀ ps : List Str, joinWith sep ps = sep.intercalate ps
  | [] => rfl
  | [p] => by simp [joinWith]
  | p :: q :: ps => by
    rw [joinWith, joinWith_eq sep (q :: ps)]
    simp [List.intercalate, List.intersperse]

theorem composedParts_texts {ext : Ext} {s : Sheet} : ∀ {coords texts : List Str},
    List.Forall₂ (TextAt s) coords texts →
    composedParts ext s coords = .ok (texts.map fun t => strip (ext.unidecode t))
  | _, _, .nil => rfl
  | _, _, .cons ⟨r, c, h1, h2⟩ hs => by
    unfold composedParts cellAt
    rw [h1]
    dsimp only
    rw [h2]
    dsimp only
    rw [composedParts_texts hs]
    rfl

/-- C58. A given name is the name of the series, whatever the sheet says. -/
theorem C58_given_name (ext : Ext) (sp : SParams) (s : Sheet) {name : Str} (hne : name ≠ [])
    (h : sp.seriesName = some name) : getName ext sp s = .ok name := by
  unfold getName
  rw [h]
  cases name with
  | nil => exact absurd rfl hne
  | cons c cs => rfl

example : getName Sample.ext0 { Sample.monthly with seriesName := some c!"PBI" }
    (Sample.column [.str c!"x"]) = .ok c!"PBI" := C58_given_name _ _ _ (by decide) rfl

/-- C58. Otherwise the name is put together from the context labels, joined by " - ", and the texts of
the composed headers and the header, joined by spaces; each part without accents (as the
transliteration library has it) and without blanks around it. -/
theorem C58_composed_name {ext : Ext} {sp : SParams} {s : Sheet} {r c : Int} {texts : List Str}
    (hn : sp.seriesName = none ∨ sp.seriesName = some []) (hh : coordOf sp.headerCoord = .ok (r, c))
    (hc : List.Forall₂ (TextAt s) (sp.composedHeaders.getD []) texts) :
    getName ext sp s = .ok (c!" - ".intercalate ((sp.context.getD []).map strip ++
      [c!" ".intercalate ((texts ++ [shownAs ext (s.cells r c)]).map
        fun t => strip (ext.unidecode t))])) := by
  unfold getName
  have : cellAt s sp.headerCoord = .ok (s.cells r c) := by unfold cellAt; rw [hh]
  rcases hn with hn | hn <;> rw [hn] <;> dsimp only <;>
    rw [this, composedParts_texts hc] <;> simp [joinWith_eq, shownAs_cellStr]

example : getName Sample.ext0
    { Sample.monthly with composedHeaders := some [c!"A1"], context := some [c!"Cuentas "] }
    (Sample.twoColumns (.str c!" PBI ") []) = .ok c!"Cuentas - fecha PBI" :=
  C58_composed_name (r := 1) (c := 2) (texts := [c!"fecha"]) (.inl rfl) rfl
    (.cons ⟨1, 1, rfl, rfl⟩ .nil)

/-- C58. A composed header without text is refused. -/
theorem C58_composed_not_text {ext : Ext} {sp : SParams} {s : Sheet} {r c : Int} {coord : Str}
    {before after texts : List Str} (hn : sp.seriesName = none ∨ sp.seriesName = some [])
    (hh : ∃ rc, coordOf sp.headerCoord = .ok rc)
    (hc : sp.composedHeaders = some (before ++ coord :: after))
    (hb : List.Forall₂ (TextAt s) before texts) (h1 : coordOf coord = .ok (r, c))
    (h2 : ∀ t, s.cells r c ≠ .str t) : getName ext sp s = .error .attributeError := by
  have hparts : ∀ {before texts : List Str}, List.Forall₂ (TextAt s) before texts →
      composedParts ext s (before ++ coord :: after) = .error .attributeError := by
    intro before texts h
    induction h with
    | nil =>
      simp only [List.nil_append]
      unfold composedParts cellAt
      rw [h1]
      dsimp only
      split
      · next h => cases h
      · next t h => injection h with h; exact absurd h (h2 t)
      · rfl
    | cons h _ ih =>
      obtain ⟨r', c', h3, h4⟩ := h
      simp only [List.cons_append]
      unfold composedParts cellAt
      rw [h3]
      dsimp only
      rw [h4]
      dsimp only
      rw [ih]
  obtain ⟨⟨r0, c0⟩, hrc⟩ := hh
  have h0 : cellAt s sp.headerCoord = .ok (s.cells r0 c0) := by unfold cellAt; rw [hrc]
  unfold getName
  rcases hn with hn | hn <;> rw [hn] <;> dsimp only <;> rw [h0, hc] <;> dsimp only <;>
    rw [Option.getD_some, hparts hb]

example : getName Sample.ext0 { Sample.monthly with composedHeaders := some [c!"A2"] }
    (Sample.twoColumns (.str c!"PBI") [(.int 3, .none)]) = .error .attributeError :=
  C58_composed_not_text (r := 2) (c := 1) (before := []) (texts := []) (after := []) (.inl rfl)
    ⟨(1, 2), rfl⟩ rfl .nil rfl (by intro t h; cases (show Cell.int 3 = Cell.str t from h))

end Xls
