/-
Markers of missing values given as one text instead of a list, `xlseries/strategies/get/data.py:308-331`.
-/
import Verif.Lemmas.GetData3
import Verif.Lemmas.Equal
import Verif.Props.Extraction

set_option autoImplicit false

namespace Xls

open Spec

/-- The value a cell stands for when the markers of a series are one text `w` instead of a list: only texts have
one, NaN if the text (without blanks around it) occurs anywhere in `w` and its number otherwise. -/
def Spec.valueByText (ext : Ext) (w : Str) : Cell → Option Num
  | .str t => if strip t <:+: w then some .nan else ext.floatOfStr (strip t)
  | _ => none

theorem stripPrefix_isSome : ∀ p s : Str, (stripPrefix? p s).isSome = true ↔ p <+: s
  | [], s => by simp [stripPrefix?]
  | p :: ps, [] => by simp [stripPrefix?]
  | p :: ps, c :: cs => by
    rw [stripPrefix?]
    by_cases h : p = c
    · rw [if_pos h, stripPrefix_isSome ps cs, h, List.cons_prefix_cons]
      simp
    · rw [if_neg h, List.cons_prefix_cons]
      simp [h]

theorem containsStr_iff (p : Str) : ∀ s : Str, containsStr p s = true ↔ p <:+: s
  | [] => by
    rw [containsStr, List.isEmpty_iff, List.infix_nil]
  | c :: cs => by
    rw [containsStr, Bool.or_eq_true, stripPrefix_isSome, containsStr_iff p cs, List.infix_cons_iff]

theorem rowEntry_byText {ext : Ext} {sp : SParams} {s : Sheet} {hr hc i : Int} {w : Str}
    (hm : sp.missings = true) (hw : sp.missingValue = .str w) (hcont : sp.continuity = true)
    (hb : sp.blankRows = false) (h1 : 1 ≤ hr) (h2 : 1 ≤ hc) (h3 : 1 ≤ i) :
    rowEntry ext sp s hr hc i =
      match (Spec.valueByText ext w (timeCell s sp.alignment hr hc i)).map some with
      | none => .error .exception
      | some x => .ok x := by
  unfold rowEntry
  rw [read_axis h1 h2 h3]
  generalize timeCell s sp.alignment hr hc i = c
  simp only [handleValue, toBeAdded, hcont, if_true, handleContinuous, hb, hm, hw]
  cases c <;> simp only [stripCell, cellIn, Spec.valueByText, floatOf] <;> try rfl
  next t =>
    by_cases h : strip t <:+: w
    · rw [(containsStr_iff _ _).2 h, if_pos h]
      rfl
    · rw [Bool.eq_false_iff.2 (fun h' => h ((containsStr_iff _ _).1 h')), if_neg h]
      cases ext.floatOfStr (strip t) <;> rfl

theorem rowEntries_byText {ext : Ext} {sp : SParams} {s : Sheet} {hr hc last : Int} {w : Str}
    (hd : DataCells sp hr hc last) (hm : sp.missings = true) (hw : sp.missingValue = .str w)
    (hcont : sp.continuity = true) (hb : sp.blankRows = false) :
    (∀ xs, rowEntries ext sp s hr hc (intRange sp.dataStarts (last + 1)) = .ok xs ↔
      (cellsAlong s sp.alignment hr hc sp.dataStarts last).map (Spec.valueByText ext w) = xs.map some) ∧
    ((∃ c ∈ cellsAlong s sp.alignment hr hc sp.dataStarts last, Spec.valueByText ext w c = none) →
      rowEntries ext sp s hr hc (intRange sp.dataStarts (last + 1)) = .error .exception) := by
  obtain ⟨h1, h2⟩ := coordOf_pos hd.header
  have hs := hd.starts
  obtain ⟨e1, e2⟩ := rowEntries_of (ext := ext) (sp := sp) (s := s) (hr := hr) (hc := hc)
    (fun i => (Spec.valueByText ext w (timeCell s sp.alignment hr hc i)).map some)
    (intRange sp.dataStarts (last + 1)) (by
      intro i hi
      rw [mem_intRange] at hi
      exact rowEntry_byText hm hw hcont hb h1 h2 (by omega))
  have iff := collect_iff (fun _ => true) (Spec.valueByText ext w)
    (cellsAlong s sp.alignment hr hc sp.dataStarts last)
  have hall : (cellsAlong s sp.alignment hr hc sp.dataStarts last).filter (fun _ => true) =
      cellsAlong s sp.alignment hr hc sp.dataStarts last := List.filter_eq_self.2 fun _ _ => rfl
  simp only [hall, if_true] at iff
  have hex : (∃ i ∈ intRange sp.dataStarts (last + 1),
      (Spec.valueByText ext w (timeCell s sp.alignment hr hc i)).map some = none) ↔
      ∃ c ∈ cellsAlong s sp.alignment hr hc sp.dataStarts last, Spec.valueByText ext w c = none := by
    rw [← intRange_map_cells]
    simp only [List.mem_map, Option.map_eq_none_iff]
    constructor
    · rintro ⟨i, hi, h⟩; exact ⟨_, ⟨i, hi, rfl⟩, h⟩
    · rintro ⟨_, ⟨i, hi, rfl⟩, h⟩; exact ⟨i, hi, h⟩
  refine ⟨fun xs => ?_, fun h => e1 (hex.2 h)⟩
  rw [iff xs, ← intRange_map_cells, List.filterMap_map]
  by_cases hn : ∃ i ∈ intRange sp.dataStarts (last + 1),
      (Spec.valueByText ext w (timeCell s sp.alignment hr hc i)).map some = none
  · rw [e1 hn]
    obtain ⟨i, hi, hi'⟩ := hn
    refine ⟨fun h => (by cases h), fun h => absurd hi' (h.1 _ (List.mem_map.2 ⟨i, hi, rfl⟩))⟩
  · rw [e2 fun i hi h => hn ⟨i, hi, h⟩]
    constructor
    · intro h
      injection h with h
      refine ⟨fun c hc' h' => hn ?_, h.symm⟩
      obtain ⟨i, hi, rfl⟩ := List.mem_map.1 hc'
      exact ⟨i, hi, h'⟩
    · rintro ⟨_, rfl⟩
      rfl

/-- C53. If the markers of a continuous series are given as one text instead of a list, every text that occurs
somewhere in it counts as missing, and a list of values is extracted exactly if all the cells are texts with a
value. -/
theorem C53_one_text {ext : Ext} {sp : SParams} {s : Sheet} {hr hc last : Int} {w : Str}
    (hd : DataCells sp hr hc last) (hf : sp.frequency.length = 1) (hcont : sp.continuity = true)
    (hm : sp.missings = true) (hw : sp.missingValue = .str w) (hi : ¬ c!"Implicit" <:+: w)
    (hb : sp.blankRows = false) (hle : sp.dataStarts ≤ last) (vss : List (List Num)) :
    getValues ext sp s = .ok vss ↔
      ∃ xs, vss = [xs] ∧
        (cellsAlong s sp.alignment hr hc sp.dataStarts last).map (Spec.valueByText ext w) = xs.map some := by
  have hne : sp.frequency ≠ [] := by intro h; rw [h] at hf; simp at hf
  obtain ⟨h1, _⟩ := rowEntries_byText (ext := ext) (s := s) hd hm hw hcont hb
  have hcells := cellsAlong_ne_nil (s := s) (al := sp.alignment) (hr := hr) (hc := hc) hle
  have hfin : ∀ xs, finish ext sp s last xs = .ok ((dealt sp.frequency xs).map Prod.snd) := by
    intro xs
    unfold finish
    rw [if_pos hm, hw]
    simp only [cellIn]
    rw [if_neg]
    rintro ⟨h, _⟩
    exact hi ((containsStr_iff _ _).1 h)
  have hx : ∀ xs : List Num, (cellsAlong s sp.alignment hr hc sp.dataStarts last).map (Spec.valueByText ext w) =
      xs.map some → xs ≠ [] := by
    rintro xs h2 rfl
    simp only [List.map_nil, List.map_eq_nil_iff] at h2
    exact hcells h2
  rw [getValues_eq hd hne]
  constructor
  · intro h
    cases hr' : rowEntries ext sp s hr hc (intRange sp.dataStarts (last + 1)) with
    | error e => rw [hr'] at h; cases h
    | ok xs =>
      rw [hr'] at h
      dsimp only at h
      have h2 := (h1 xs).1 hr'
      rw [hfin, dealt_single_snd hf, if_neg (hx xs h2)] at h
      injection h with h
      exact ⟨xs, h.symm, h2⟩
  · rintro ⟨xs, rfl, h2⟩
    rw [(h1 xs).2 h2]
    dsimp only
    rw [hfin, dealt_single_snd hf, if_neg (hx xs h2)]

/-- C53. In particular a number in a cell then makes the extraction fail, however plain it is. -/
theorem C53_one_text_number {ext : Ext} {sp : SParams} {s : Sheet} {hr hc last : Int} {w : Str} {c : Cell}
    (hd : DataCells sp hr hc last) (hf : sp.frequency ≠ []) (hcont : sp.continuity = true)
    (hm : sp.missings = true) (hw : sp.missingValue = .str w) (hb : sp.blankRows = false)
    (hc' : c ∈ cellsAlong s sp.alignment hr hc sp.dataStarts last) (hn : ∀ t, c ≠ .str t) :
    getValues ext sp s = .error .exception := by
  obtain ⟨_, h2⟩ := rowEntries_byText (ext := ext) (s := s) hd hm hw hcont hb
  rw [getValues_eq hd hf, h2 ⟨c, hc', by cases c <;> first | rfl | exact absurd rfl (hn _)⟩]

example : getValues Sample.ext0 { Sample.monthly with
      dataEnds := some 4, missings := true, missingValue := .str c!"n.d., s.d." }
    (Sample.twoColumns (.str c!"x") [(.none, .str c!" n.d."), (.none, .str c!"d., s"), (.none, .str c!".")]) =
      .ok [[.nan, .nan, .nan]] := by
  refine (C53_one_text (hr := 1) (hc := 2) (last := 4) (w := c!"n.d., s.d.")
    ⟨rfl, .inl rfl, by decide, rfl⟩ rfl rfl rfl rfl ?_ rfl (by decide) _).2 ⟨_, rfl, ?_⟩
  · rw [← containsStr_iff]; decide
  · decide +kernel

example : getValues Sample.ext0 { Sample.monthly with
      dataEnds := some 3, missings := true, missingValue := .str c!"..." }
    (Sample.twoColumns (.str c!"x") [(.none, .str c!"..."), (.none, .int 7)]) = .error .exception :=
  C53_one_text_number (hr := 1) (hc := 2) (last := 3) (w := c!"...") (c := .int 7)
    ⟨rfl, .inl rfl, by decide, rfl⟩ (by decide) rfl rfl rfl rfl (by decide +kernel) (fun _ h => by cases h)

/-- C53 if the markers of a series are a dictionary: its keys are the markers, and what it maps them to does not
matter. (So C53 with a list applies.) -/
theorem C53_dictionary (ext : Ext) (sp : SParams) (s : Sheet) (kvs : List (Str × PVal)) :
    getSeries ext { sp with missingValue := .dict kvs } s =
      getSeries ext { sp with missingValue := .list (kvs.map fun kv => .str kv.1) } s := by
  have hm : SameMarks (.list (kvs.map fun kv => .str kv.1)) (.dict kvs) :=
    ⟨fun v => by simp only [cellIn, List.any_map]; rfl, rfl⟩
  have h : MarkedAlike { sp with missingValue := .list (kvs.map fun kv => .str kv.1) }
      { sp with missingValue := .dict kvs } := ⟨rfl, hm⟩
  exact (getSeries_marks ext h s).1
/-- Two marked cells and a number. -/
example : getSeries Sample.ext0 { Sample.monthly with
      dataEnds := some 4, missings := true, missingValue := .dict [(c!"...", .int 1), (c!"s/d", .none)] }
    (Sample.twoColumns (.str c!"x") [(.none, .str c!"s/d"), (.none, .int 3), (.none, .str c!" ...")]) =
      .ok [(c!"x", [.nan, .fin 3, .nan])] := by
  decide +kernel

end Xls
