/-
Lemmas about the extraction of values: continuous and non-continuous series.
-/
import Verif.Lemmas.GetData2

set_option autoImplicit false

namespace Xls
open Spec

/-! ### Continuous series -/

/-- The value of a data cell of a continuous series. -/
def contValue (ext : Ext) (sp : SParams) (markers : List PVal) (c : Cell) : Option Num :=
  if sp.missings = true then valueOf ext markers c else numberIn ext c

/-- The data cells of a continuous series that count. -/
def contCells (sp : SParams) (cs : List Cell) : List Cell :=
  if sp.blankRows = true then cs.filter (· ≠ .none) else cs

theorem handleContinuous_eq {ext : Ext} {sp : SParams} {markers : List PVal}
    (hm : sp.missings = true → sp.missingValue = .list markers) (c : Cell) :
    (if sp.blankRows = true ∧ c = .none then handleContinuous ext sp c = .ok none
     else match contValue ext sp markers c with
      | some x => handleContinuous ext sp c = .ok (some x)
      | none => ∃ e, handleContinuous ext sp c = .error e) := by
  unfold handleContinuous
  by_cases hb : sp.blankRows = true ∧ c = .none
  · rw [if_pos hb, if_pos hb]
  · rw [if_neg hb, if_neg hb]
    unfold contValue
    by_cases hmm : sp.missings = true
    · simp only [hmm, if_true]
      rw [hm hmm, cellIn_list, stripCell_eq]
      unfold valueOf
      by_cases hk : IsMarker markers (trimmed c)
      · simp [hk]
      · have h := floatOf_number ext (trimmed c)
        simp only [hk, decide_false, if_false]
        cases hf : floatOf ext (trimmed c) with
        | ok x => rw [(h.1 x).1 hf]
        | error e => rw [h.2.1 ⟨e, hf⟩]; exact ⟨_, rfl⟩
    · simp only [hmm]
      have h := floatOf_number ext c
      cases hf : floatOf ext c with
      | ok x => simp [(h.1 x).1 hf]
      | error e => simp [h.2.1 ⟨e, hf⟩]

/-- The outcome of a row of a continuous series. -/
def contOutcome (ext : Ext) (sp : SParams) (markers : List PVal) (c : Cell) :
    Option (Option Num) :=
  if sp.blankRows = true ∧ c = .none then some none else (contValue ext sp markers c).map some

theorem rowEntry_continuous {ext : Ext} {sp : SParams} {s : Sheet} {hr hc i : Int}
    {markers : List PVal} (hm : sp.missings = true → sp.missingValue = .list markers)
    (hcont : sp.continuity = true) (h1 : 1 ≤ hr) (h2 : 1 ≤ hc) (h3 : 1 ≤ i) :
    rowEntry ext sp s hr hc i =
      match contOutcome ext sp markers (timeCell s sp.alignment hr hc i) with
      | none => .error .exception
      | some x => .ok x := by
  unfold rowEntry
  rw [read_axis h1 h2 h3]
  have h := handleContinuous_eq (ext := ext) hm (timeCell s sp.alignment hr hc i)
  generalize timeCell s sp.alignment hr hc i = c at h
  simp only [handleValue, toBeAdded, hcont, if_true]
  unfold contOutcome
  by_cases hb : sp.blankRows = true ∧ c = .none
  · rw [if_pos hb] at h ⊢
    rw [h]
    rfl
  · rw [if_neg hb] at h ⊢
    cases hv : contValue ext sp markers c with
    | none => rw [hv] at h; obtain ⟨e, he⟩ := h; rw [he]; rfl
    | some x => rw [hv] at h; dsimp only at h; rw [h]; rfl

theorem collect_iff {α : Type} {β : Type} (keep : α → Bool) (v : α → Option β) :
    ∀ (as : List α) (xs : List β),
    ((as.filter keep).map v = xs.map some) ↔
      (∀ a ∈ as, (if keep a then (v a).map some else some (none : Option β)) ≠ none) ∧
      xs = as.filterMap fun a => (if keep a then (v a).map some else some none).join
  | [], xs => by cases xs <;> simp
  | a :: as, xs => by
    by_cases hk : keep a = true
    · rw [List.filter_cons_of_pos hk, List.map_cons, List.filterMap_cons, List.forall_mem_cons]
      simp only [hk, if_true]
      cases hv : v a with
      | none => cases xs <;> simp
      | some x =>
        cases xs with
        | nil => simp
        | cons y ys =>
          have ih := collect_iff keep v as ys
          simp only [List.map_cons, List.cons.injEq, ih, Option.map_some, Option.join_some]
          simp only [Option.some.injEq, ne_eq, reduceCtorEq, not_false_eq_true, true_and]
          constructor
          · rintro ⟨rfl, h1, h2⟩; exact ⟨h1, rfl, h2⟩
          · rintro ⟨h1, h2, h3⟩; exact ⟨h2.symm, h1, h3⟩
    · have hk' : keep a = false := by simpa using hk
      rw [List.filter_cons_of_neg hk, List.filterMap_cons, List.forall_mem_cons]
      simp only [hk']
      have ih := collect_iff keep v as xs
      simp only [ih]
      simp

theorem continuous_rows {ext : Ext} {sp : SParams} {s : Sheet} {hr hc last : Int}
    {markers : List PVal} (hd : DataCells sp hr hc last)
    (hm : sp.missings = true → sp.missingValue = .list markers) (hcont : sp.continuity = true) :
    (∀ xs, rowEntries ext sp s hr hc (intRange sp.dataStarts (last + 1)) = .ok xs ↔
      (contCells sp (cellsAlong s sp.alignment hr hc sp.dataStarts last)).map
        (contValue ext sp markers) = xs.map some) ∧
    ((∃ c ∈ contCells sp (cellsAlong s sp.alignment hr hc sp.dataStarts last),
      contValue ext sp markers c = none) →
      rowEntries ext sp s hr hc (intRange sp.dataStarts (last + 1)) = .error .exception) := by
  obtain ⟨h1, h2⟩ := coordOf_pos hd.header
  have hs := hd.starts
  let keep : Cell → Bool := fun c => !(sp.blankRows && decide (c = .none))
  let g : Int → Option (Option Num) := fun i =>
    contOutcome ext sp markers (timeCell s sp.alignment hr hc i)
  have hcc : ∀ cs : List Cell, contCells sp cs = cs.filter keep := by
    intro cs
    unfold contCells
    by_cases hb : sp.blankRows = true
    · simp [keep, hb]
    · rw [if_neg hb, eq_comm, List.filter_eq_self]
      intro a _
      simp [keep, hb]
  have hg : ∀ c, contOutcome ext sp markers c =
      if keep c then (contValue ext sp markers c).map some else some none := by
    intro c
    unfold contOutcome
    by_cases hb : sp.blankRows = true ∧ c = .none
    · simp [keep, hb.1, hb.2]
    · rw [if_neg hb]
      have : keep c = true := by
        simp only [keep, Bool.not_eq_true', Bool.and_eq_false_iff, decide_eq_false_iff_not]
        by_cases hbb : sp.blankRows = true
        · exact .inr fun h => hb ⟨hbb, h⟩
        · exact .inl (by simpa using hbb)
      rw [if_pos this]
  obtain ⟨e1, e2⟩ := rowEntries_of (ext := ext) (sp := sp) (s := s) (hr := hr) (hc := hc) g
    (intRange sp.dataStarts (last + 1)) (by
      intro i hi
      rw [mem_intRange] at hi
      exact rowEntry_continuous hm hcont h1 h2 (by omega))
  have hcells : (∀ i ∈ intRange sp.dataStarts (last + 1), g i ≠ none) ↔
      ∀ c ∈ cellsAlong s sp.alignment hr hc sp.dataStarts last,
        (if keep c then (contValue ext sp markers c).map some else some none) ≠ none := by
    rw [← intRange_map_cells]
    simp only [List.mem_map, forall_exists_index, and_imp, forall_apply_eq_imp_iff₂]
    constructor
    · intro h i hi; rw [← hg]; exact h i hi
    · intro h i hi; have := h i hi; rw [← hg] at this; exact this
  have hfm : (intRange sp.dataStarts (last + 1)).filterMap (fun i => (g i).join) =
      (cellsAlong s sp.alignment hr hc sp.dataStarts last).filterMap fun c =>
        (if keep c then (contValue ext sp markers c).map some else some none).join := by
    rw [← intRange_map_cells, List.filterMap_map]
    congr 1
    funext i
    simp only [g, hg, Function.comp]
  have iff := collect_iff keep (contValue ext sp markers)
    (cellsAlong s sp.alignment hr hc sp.dataStarts last)
  constructor
  · intro xs
    rw [hcc, iff xs, ← hcells, ← hfm]
    constructor
    · intro h
      by_cases hn : ∀ i ∈ intRange sp.dataStarts (last + 1), g i ≠ none
      · rw [e2 hn] at h
        injection h with h
        exact ⟨hn, h.symm⟩
      · simp only [not_forall, not_not] at hn
        obtain ⟨i, hi, hn⟩ := hn
        rw [e1 ⟨i, hi, hn⟩] at h
        cases h
    · rintro ⟨hn, rfl⟩
      exact e2 hn
  · rintro ⟨c, hc', hv⟩
    rw [hcc, List.mem_filter] at hc'
    apply e1
    by_contra hcon
    have hn : ∀ i ∈ intRange sp.dataStarts (last + 1), g i ≠ none := by
      intro i hi hgi; exact hcon ⟨i, hi, hgi⟩
    have := hcells.1 hn c hc'.1
    rw [if_pos hc'.2, hv] at this
    exact this rfl

theorem finish_plain {ext : Ext} {sp : SParams} {s : Sheet} {last : Int} {markers : List PVal}
    (hm : sp.missings = true → sp.missingValue = .list markers)
    (hi : sp.missings = true → PVal.str c!"Implicit" ∉ markers ∨ 2 ≤ sp.frequency.length)
    (xs : List Num) : finish ext sp s last xs = .ok ((dealt sp.frequency xs).map Prod.snd) := by
  unfold finish
  by_cases hmm : sp.missings = true
  · rw [if_pos hmm, hm hmm, cellIn_list]
    dsimp only
    rw [if_neg]
    rintro ⟨h1, h2⟩
    rcases hi hmm with h | h
    · rw [decide_eq_true_eq] at h1
      obtain ⟨p, hp, m, hmem, hmp⟩ := h1
      unfold plainCell at hp
      injection hp with hp
      subst hp
      have : m = .str c!"Implicit" := by
        unfold plainParam at hmp
        split at hmp <;> cases hmp
        rfl
      exact h (this ▸ hmem)
    · omega
  · rw [if_neg hmm]

theorem dealt_single_snd {freq : Str} (hf : freq.length = 1) (xs : List Num) :
    (dealt freq xs).map Prod.snd = if xs = [] then [] else [xs] := by
  obtain ⟨c, rfl⟩ := List.length_eq_one_iff.1 hf
  rw [dealt_single]
  split <;> rfl

theorem cellsAlong_ne_nil {s : Sheet} {al : Align} {hr hc lo hi : Int} (h : lo ≤ hi) :
    cellsAlong s al hr hc lo hi ≠ [] := by
  unfold cellsAlong
  intro e
  rw [List.map_eq_nil_iff, List.range_eq_nil] at e
  omega

/-! ### Non-continuous series -/

theorem handleNonContinuous_eq {ext : Ext} {sp : SParams} {markers : List PVal}
    (hm : sp.missings = true → sp.missingValue = .list markers) (c : Cell) :
    handleNonContinuous ext sp c = .ok (looseValue ext sp.missings markers c) := by
  unfold handleNonContinuous looseValue
  rw [blankToNone_eq, validFloat_eq]
  by_cases hmm : sp.missings = true
  · rw [if_pos hmm, hm hmm, cellIn_list]
    by_cases hk : IsMarker markers (blankAsNothing c)
    · simp [hk, hmm]
    · simp [hk]
  · rw [if_neg hmm, if_neg fun h => hmm h.1]

theorem isDt_isDate (c : Cell) : c.isDt = true ↔ IsDate c := by cases c <;> simp [Cell.isDt, IsDate]

theorem rowEntry_noncontinuous {ext : Ext} {sp : SParams} {s : Sheet} {hr hc tr tc i : Int}
    {markers : List PVal} (hm : sp.missings = true → sp.missingValue = .list markers)
    (hcont : sp.continuity = false) (ht : nonContHeader sp = .ok (tr, tc))
    (h1 : 1 ≤ hr) (h2 : 1 ≤ hc) (h3 : 1 ≤ i) (h4 : 1 ≤ tr) (h5 : 1 ≤ tc)
    (h6 : 1 ≤ i + sp.timeAlignment) :
    rowEntry ext sp s hr hc i = .ok (if IsDate (timeCell s sp.alignment tr tc (i + sp.timeAlignment))
      then looseValue ext sp.missings markers (timeCell s sp.alignment hr hc i) else none) := by
  unfold rowEntry
  rw [read_axis h1 h2 h3]
  simp only [handleValue, toBeAdded, hcont, Bool.false_eq_true, if_false]
  rw [handleNonContinuous_eq hm, ht]
  dsimp only
  rw [read_axis h4 h5 h6]
  dsimp only
  generalize timeCell s sp.alignment tr tc (i + sp.timeAlignment) = t
  generalize looseValue ext sp.missings markers (timeCell s sp.alignment hr hc i) = v
  by_cases hd : IsDate t
  · rw [if_pos hd, (isDt_isDate t).2 hd]
    cases v <;> simp
  · have : t.isDt = false := by
      cases h : t.isDt
      · rfl
      · exact absurd ((isDt_isDate t).1 h) hd
    rw [if_neg hd, this]
    simp

/-! ### All values are kept -/

theorem dealTo_perm (x : Num) (k : Str) : ∀ m : List (Str × List Num),
    ((dealTo m k x).map Prod.snd).flatten.Perm (x :: (m.map Prod.snd).flatten)
  | [] => by simp [dealTo]
  | (k', xs) :: m => by
    unfold dealTo
    split
    · simp only [List.map_cons, List.flatten_cons, List.append_assoc, List.singleton_append]
      exact List.perm_middle
    · simp only [List.map_cons, List.flatten_cons]
      exact ((dealTo_perm x k m).append_left xs).trans List.perm_middle

theorem dealAll_perm (pattern : Str) : ∀ (xs : List Num) (k : Nat) (m : List (Str × List Num)),
    ((dealAll pattern k m xs).map Prod.snd).flatten.Perm ((m.map Prod.snd).flatten ++ xs)
  | [], k, m => by simp [dealAll]
  | x :: xs, k, m => by
    unfold dealAll
    refine (dealAll_perm pattern xs _ _).trans ?_
    refine ((dealTo_perm x _ m).append_right xs).trans ?_
    exact List.perm_middle.symm

end Xls
